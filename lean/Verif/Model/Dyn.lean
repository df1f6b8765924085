import Verif.Model.Tx

/-! # The constructors of tx/tx.py on arguments of any type

The other files give the arguments the annotated types. Here an argument is any of the Python values below, the run-time tests of the
constructors are written out, and operations on values of the wrong type raise what Python raises.

Simplifications: of the built-in types only `None`, `int`, `str`, `bytes`, `bytearray`, `list` and `tuple` are represented (no floats,
dictionaries, iterators, or classes of the caller, and no subclasses of the element classes); an object of a class derived from `ByteData` is its class, its
attributes in the order of the constructor's assignments, and its frozen bytes. -/

namespace Verif

/-- The classes derived from `ByteData` that the constructors distinguish: of tx/tx.py; of tx/zcash_shared.py, tx/sprout.py, tx/overwinter.py and tx/sapling.py; and of
tx/decred.py. `other` stands for the rest (`ByteData` itself, `VarInt`, ...). -/
inductive Cls where
  | outpoint | txIn | txOut | item | witness | tx
  | sproutProof | sproutJs | saplingProof | saplingSpend | saplingOutput | saplingJs | sproutTx | overwinterTx | saplingTx
  | dcrOutpoint | dcrTxIn | dcrTxOut | dcrWitness | dcrTx
  | other
  deriving DecidableEq, Repr

/-- A Python value. -/
inductive Val where
  | none
  | int (n : Int)
  | str (s : PyStr)
  | bytes (b : Bytes)
  | bytearray (b : Bytes)
  | obj (c : Cls) (attrs : List Val) (b : Bytes)
  | list (l : List Val)
  | tuple (l : List Val)

namespace Val

/-- `isinstance(v, ByteData) or isinstance(v, bytes) or isinstance(v, bytearray)`, with the bytes. -/
def content : Val → Option Bytes
  | .bytes b => some b
  | .bytearray b => some b
  | .obj _ _ b => some b
  | _ => Option.none

/-- `isinstance(v, C)`. -/
def isInstance (c : Cls) : Val → Bool
  | .obj c' _ _ => c' == c
  | _ => false

/-- `len(v)`. -/
def len : Val → Py Nat
  | .bytes b => .ok b.length
  | .bytearray b => .ok b.length
  | .obj _ _ b => .ok b.length
  | .str s => .ok s.length
  | .list l => .ok l.length
  | .tuple l => .ok l.length
  | .none => .error .typeError
  | .int _ => .error .typeError

/-- `[x for x in v]`. Iterating over bytes gives integers, over a string its characters. -/
def iter : Val → Py (List Val)
  | .bytes b => .ok (b.map fun x => .int x.toNat)
  | .bytearray b => .ok (b.map fun x => .int x.toNat)
  | .obj _ _ b => .ok (b.map fun x => .int x.toNat)
  | .str s => .ok (s.map fun c => .str [c])
  | .list l => .ok l
  | .tuple l => .ok l
  | .none => .error .typeError
  | .int _ => .error .typeError

/-- `v + w` for bytes-like operands. `ByteData` does not define `+`, and `bytes` cannot be added to it. -/
def add : Val → Val → Py Val
  | .bytes a, .bytes b => .ok (.bytes (a ++ b))
  | .bytes a, .bytearray b => .ok (.bytes (a ++ b))
  | .bytearray a, .bytes b => .ok (.bytearray (a ++ b))
  | .bytearray a, .bytearray b => .ok (.bytearray (a ++ b))
  | _, _ => .error .typeError

/-- `self += v` in a constructor (tx/shared.py:35-50): the bytes of a `ByteData` object under construction. -/
def iadd (self : Bytes) (v : Val) : Py Bytes :=
  match v.content with
  | some b => .ok (self ++ b)
  | Option.none => .error .typeError

/-- `for x in vs: self += x`. -/
def iaddAll (self : Bytes) : List Val → Py Bytes
  | [] => .ok self
  | v :: vs => do
    let self ← iadd self v
    iaddAll self vs

/-- tx/shared.py:128-149, `validate_bytes`. -/
def validate (v : Val) (length : Option Nat) : Py Unit :=
  match v.content with
  | Option.none => .error .valueError
  | some b => match length with
    | Option.none => .ok ()
    | some n => check (b.length = n) .valueError

/-- `for x in v: if not isinstance(x, C): raise ValueError`. -/
def allInstances (c : Cls) (v : Val) : Py Unit := do
  let xs ← v.iter
  check (xs.all (isInstance c)) .valueError

/-- `v != b` for bytes `b`, where `v` is not None (tx/shared.py:52-64 for objects). -/
def neBytes (v : Val) (b : Bytes) : Bool :=
  match v.content with
  | some x => x != b
  | Option.none => true

/-- `v.hex()`: the attribute is missing unless the value is bytes-like. -/
def hexAttr (v : Val) : Py Unit :=
  match v.content with
  | some _ => .ok ()
  | Option.none => .error .attributeError

/-- `bytes(…) + v`. -/
def addTo (b : Bytes) (v : Val) : Py Bytes :=
  match v with
  | .bytes x => .ok (b ++ x)
  | .bytearray x => .ok (b ++ x)
  | _ => .error .typeError

end Val

namespace Dyn
open Val

/-- tx/tx.py:30-42, `Outpoint(tx_id, index)`. -/
def outpoint (txId index : Val) : Py Val := do
  txId.validate (some 32)
  index.validate (some 4)
  let self ← iadd [] txId
  let self ← iadd self index
  .ok (.obj .outpoint [txId, index] self)

/-- tx/tx.py:112-141, `TxIn(outpoint, stack_script, redeem_script, sequence)`. -/
def txIn (outpoint stackScript redeemScript sequence : Val) : Py Val := do
  outpoint.validate (some 36)
  stackScript.validate Option.none
  redeemScript.validate Option.none
  sequence.validate (some 4)
  let l1 ← stackScript.len
  let l2 ← redeemScript.len
  check (¬ l1 + l2 > 1650) .valueError
  let self ← iadd [] outpoint
  let n ← VarInt.make ((l1 + l2 : Nat) : Int)
  let self := self ++ n.bytes
  let self ← iadd self stackScript
  let self ← iadd self redeemScript
  let self ← iadd self sequence
  let scriptSig ← add stackScript redeemScript
  .ok (.obj .txIn [outpoint, stackScript, redeemScript, scriptSig, sequence] self)

/-- tx/tx.py:245-258, `TxOut(value, output_script)`. -/
def txOut (value outputScript : Val) : Py Val := do
  value.validate (some 8)
  outputScript.validate Option.none
  let self ← iadd [] value
  let l ← outputScript.len
  let n ← VarInt.make (l : Int)
  let self ← iadd (self ++ n.bytes) outputScript
  .ok (.obj .txOut [value, outputScript] self)

/-- tx/tx.py:300-310, `WitnessStackItem(item)`. -/
def item (item : Val) : Py Val := do
  item.validate Option.none
  let l ← item.len
  let n ← VarInt.make (l : Int)
  let self ← iadd n.bytes item
  .ok (.obj .item [item] self)

/-- tx/tx.py:337-355, `InputWitness(stack)`. -/
def witness (stack : Val) : Py Val := do
  stack.allInstances .item
  let l ← stack.len
  let n ← VarInt.make (l : Int)
  let xs ← stack.iter
  let self ← iaddAll n.bytes xs
  .ok (.obj .witness [.tuple xs] self)

/-- tx/tx.py:471-476: the test of the flag. -/
def checkFlag (E : Env) (flag : Val) : Py Unit :=
  match flag with
  | .none => .ok ()
  | f =>
    if f.neBytes E.net.segwitTxFlag then do
      f.hexAttr
      .error .valueError
    else .ok ()

/-- tx/tx.py:478-491: the tests of the witnesses. -/
def checkWitnesses (flag txIns txWitnesses : Val) : Py Unit :=
  match txWitnesses with
  | .none => .ok ()
  | w => do
    let n ← w.len
    if n ≠ 0 then do
      match flag with
      | .none => .error .valueError
      | _ => do
        let ni ← txIns.len
        check (n = ni) .valueError
        w.allInstances .witness
    else .ok ()

/-- tx/tx.py:610-624, `no_witness` on the attributes. -/
def noWitness (version : Val) (txIns txOuts : List Val) (lockTime : Val) : Py Bytes := do
  let tx ← addTo [] version
  let ni ← VarInt.make (txIns.length : Int)
  let tx ← iaddAll (tx ++ ni.bytes) txIns
  let no ← VarInt.make (txOuts.length : Int)
  let tx ← iaddAll (tx ++ no.bytes) txOuts
  addTo tx lockTime

/-- `for witness in tx_witnesses: self += witness`, unless None, and the tuple that is stored (tx/tx.py:519-521, 528-530). -/
def addWitnesses (self : Bytes) (txWitnesses : Val) : Py (Bytes × Val) :=
  match txWitnesses with
  | .none => .ok (self, .none)
  | w => do
    let ws ← w.iter
    let self ← iaddAll self ws
    .ok (self, .tuple ws)

/-- `if flag is not None: self += flag`. -/
def addFlag (self : Bytes) (flag : Val) : Py Bytes :=
  match flag with
  | .none => .ok self
  | f => iadd self f

/-- tx/tx.py:458-545, `Tx(version, flag, tx_ins, tx_outs, tx_witnesses, lock_time)`. The attributes are version, flag, tx_ins, tx_outs, tx_witnesses,
lock_time, tx_id_le, wtx_id_le (None if not set), tx_id, wtx_id. -/
def tx (E : Env) (version flag txIns txOuts txWitnesses lockTime : Val) : Py Val := do
  version.validate (some 4)
  lockTime.validate (some 4)
  checkFlag E flag
  checkWitnesses flag txIns txWitnesses
  let ni ← txIns.len
  let no ← txOuts.len
  check (min ni no ≠ 0) .valueError
  txIns.allInstances .txIn
  txOuts.allInstances .txOut
  let self ← iadd [] version
  let self ← addFlag self flag
  let vi ← VarInt.make (ni : Int)
  let ins ← txIns.iter
  let self ← iaddAll (self ++ vi.bytes) ins
  let vo ← VarInt.make (no : Int)
  let outs ← txOuts.iter
  let self ← iaddAll (self ++ vo.bytes) outs
  let (self, wits) ← addWitnesses self txWitnesses
  let self ← iadd self lockTime
  match flag with
  | .none =>
    let txIdLe := E.hash256 self
    .ok (.obj .tx [version, .none, .tuple ins, .tuple outs, wits, lockTime, .bytes txIdLe, .none, .bytes (changeEndianness txIdLe), .none] self)
  | f => do
    let nw ← noWitness version ins outs lockTime
    let txIdLe := E.hash256 nw
    let wtxIdLe := E.hash256 self
    .ok (.obj .tx [version, f, .tuple ins, .tuple outs, wits, lockTime, .bytes txIdLe, .bytes wtxIdLe, .bytes (changeEndianness txIdLe),
      .bytes (changeEndianness wtxIdLe)] self)

end Dyn

end Verif
