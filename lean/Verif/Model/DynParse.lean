import Verif.Model.DynDecred
import Verif.Model.Sapling

/-! # `from_bytes` on arguments of any type

The same values and simplifications as in `Model/Dyn.lean`. -/

namespace Verif

namespace Val

/-- `v[i:j]`. A slice has the type of the value; a slice of a `ByteData` object is one of its bytes (tx/shared.py:32-33). -/
def slice (v : Val) (i j : Nat) : Py Val :=
  match v with
  | .bytes b => .ok (.bytes (Verif.slice b i j))
  | .bytearray b => .ok (.bytearray (Verif.slice b i j))
  | .obj _ _ b => .ok (.bytes (Verif.slice b i j))
  | .str s => .ok (.str ((s.drop i).take (j - i)))
  | .list l => .ok (.list ((l.drop i).take (j - i)))
  | .tuple l => .ok (.tuple ((l.drop i).take (j - i)))
  | .none => .error .typeError
  | .int _ => .error .typeError

/-- `v[i:]`. -/
def from_ (v : Val) (i : Nat) : Py Val :=
  match v with
  | .bytes b => .ok (.bytes (b.drop i))
  | .bytearray b => .ok (.bytearray (b.drop i))
  | .obj _ _ b => .ok (.bytes (b.drop i))
  | .str s => .ok (.str (s.drop i))
  | .list l => .ok (.list (l.drop i))
  | .tuple l => .ok (.tuple (l.drop i))
  | .none => .error .typeError
  | .int _ => .error .typeError

end Val

namespace Dyn
open Val

/-- tx/shared.py:199-232, `VarInt.from_bytes`, on the elements of a list or tuple. It is never equal to bytes, hence never `non_compact`, and it
has no `hex`. If the first number is above 0xff no branch is taken: the elements are all kept and `non_compact` is not assigned (UnboundLocalError, here `exception`). -/
def varIntOfList (l : List Val) : Py VarInt :=
  match l with
  | [] => .error .indexError
  | .int n :: _ => do
    let num := if n ≤ 0xfc then l.take 1 else if n = 0xfd then (l.drop 1).take 2 else if n = 0xfe then (l.drop 1).take 4 else if n = 0xff then (l.drop 1).take 8 else l
    check (num.length = 1 ∨ num.length = 2 ∨ num.length = 4 ∨ num.length = 8) .attributeError
    check (n ≤ 0xff) .exception
    let b ← byteList num
    VarInt.make (Verif.le2i b) (some 0)
  | _ :: _ => .error .typeError

/-- tx/shared.py:199-232, `VarInt.from_bytes`. The first character of a string cannot be compared with a number. -/
def readVarInt (net : Network) (v : Val) : Py VarInt :=
  match v with
  | .bytes b => VarInt.fromBytes net b
  | .bytearray b => VarInt.fromBytes net b
  | .obj _ _ b => VarInt.fromBytes net b
  | .list l => varIntOfList l
  | .tuple l => varIntOfList l
  | .str s => if s = [] then .error .indexError else .error .typeError
  | .none => .error .typeError
  | .int _ => .error .typeError

/-- The loops `for _ in range(n): x = X.from_bytes(b[current:]); current += len(x); xs.append(x)`. -/
def readMany (f : Val → Py Val) (v : Val) : (n : Nat) → (current : Nat) → Py (List Val × Nat)
  | 0, current => .ok ([], current)
  | n + 1, current => do
    let rest ← v.from_ current
    let x ← f rest
    let l ← x.len
    let (xs, fin) ← readMany f v n (current + l)
    .ok (x :: xs, fin)

/-- tx/tx.py:59-66, `Outpoint.from_bytes`. -/
def readOutpoint (v : Val) : Py Val := do
  let a ← v.slice 0 32
  let b ← v.slice 32 36
  outpoint a b

/-- tx/tx.py:165-186, `TxIn._parse_script_sig`. The scripts it serializes are bytes; a script that does not parse is kept as it is. It is called (line 214) on
a slice of a bytes-like value only: of any other value the outpoint (line 193) is refused before. -/
def readScriptSig (net : Network) (v : Val) : Py (Val × Val) :=
  match v.content with
  | Option.none => .error .typeError
  | some scriptSig =>
    let caught : PyErr → Bool := fun e => e = .indexError ∨ e = .valueError ∨ e = .notImplementedError
    let first : Py (Bytes × PyStr) := do
      let deserialized ← deserialize net scriptSig
      let items := pySplit deserialized
      let last ← getItem items (-1)
      let _ ← hexDeserialize net last
      let stackScript ← serialize net (joinSpace items.dropLast)
      .ok (stackScript, last)
    match first with
    | .error e => if caught e then .ok (v, .bytes []) else .error e
    | .ok (stackScript, last) =>
      match serialize net last with
      | .ok redeemScript => .ok (.bytes stackScript, .bytes redeemScript)
      | .error e => if caught e then .ok (.bytes stackScript, .bytes []) else .error e

/-- tx/tx.py:188-220, `TxIn.from_bytes`. -/
def readTxIn (net : Network) (v : Val) : Py Val := do
  let a ← v.slice 0 36
  let o ← readOutpoint a
  let b ← v.slice 36 45
  let n ← readVarInt net b
  let start := 36 + n.bytes.length
  let fin := start + n.number
  let scriptSig ← v.slice start fin
  let sequence ← v.slice fin (fin + 4)
  if scriptSig.neBytes [] = false then txIn o (.bytes []) (.bytes []) sequence
  else do
    let null ← outpoint (.bytes (List.replicate 32 0)) (.bytes (List.replicate 4 0xff))
    if o.content = null.content then txIn o scriptSig (.bytes []) sequence
    else do
      let (stack, redeem) ← readScriptSig net scriptSig
      txIn o stack redeem sequence

/-- tx/tx.py:271-285, `TxOut.from_bytes`. -/
def readTxOut (net : Network) (v : Val) : Py Val := do
  let r ← v.from_ 8
  let n ← readVarInt net r
  let start := 8 + n.bytes.length
  let fin := start + n.number
  if n.number < 0xfc then do
    let a ← v.slice 0 8
    let b ← v.slice start fin
    txOut a b
  else .error .notImplementedError

/-- tx/tx.py:312-320, `WitnessStackItem.from_bytes`. -/
def readItem (net : Network) (v : Val) : Py Val := do
  let n ← readVarInt net v
  let a ← v.slice n.bytes.length (n.bytes.length + n.number)
  item a

/-- tx/tx.py:357-369, `InputWitness.from_bytes`. -/
def readWitness (net : Network) (v : Val) : Py Val := do
  let n ← readVarInt net v
  let (items, _) ← readMany (readItem net) v n.number n.bytes.length
  witness (.list items)

/-- tx/tx.py:552-608, `Tx.from_bytes`. -/
def readTx (E : Env) (v : Val) : Py Val := do
  let version ← v.slice 0 4
  let mark ← v.slice 4 6
  let isWit := mark.neBytes E.net.segwitTxFlag = false
  let loc := if isWit then 6 else 4
  let r ← v.from_ loc
  let ni ← readVarInt E.net r
  let (ins, current) ← readMany (readTxIn E.net) v ni.number (loc + ni.bytes.length)
  let r ← v.from_ current
  let no ← readVarInt E.net r
  let (outs, current) ← readMany (readTxOut E.net) v no.number (current + no.bytes.length)
  let (wits, current) ←
    if isWit ∧ E.net.segwitTxFlag ≠ [] then do
      let r ← v.from_ current
      let l ← r.len
      if l > 4 then readMany (readWitness E.net) v ni.number current else .ok ([], current)
    else .ok ([], current)
  let lockTime ← v.slice current (current + 4)
  tx E version (if isWit then .bytes E.net.segwitTxFlag else .none) (.list ins) (.list outs) (.list wits) lockTime

/-! ### Zcash -/

/-- tx/zcash_shared.py:66-76, `SproutZkproof.from_bytes`. -/
def readSproutProof (net : Network) (v : Val) : Py Val := do
  let a ← v.slice 0 33
  let a' ← v.slice 33 66
  let b ← v.slice 66 131
  let b' ← v.slice 131 164
  let c ← v.slice 164 197
  let c' ← v.slice 197 230
  let k ← v.slice 230 263
  let h ← v.slice 263 296
  sproutProof net a a' b b' c c' k h

/-- tx/zcash_shared.py:147-159, `SproutJoinsplit.from_bytes`. -/
def readSproutJs (net : Network) (v : Val) : Py Val := do
  let a ← v.slice 0 8
  let b ← v.slice 8 16
  let c ← v.slice 16 48
  let d ← v.slice 48 112
  let e ← v.slice 112 176
  let f ← v.slice 176 208
  let g ← v.slice 208 240
  let h ← v.slice 240 304
  let p ← v.slice 304 600
  let z ← readSproutProof net p
  let n ← v.slice 600 1802
  sproutJs net a b c d e f g h z n

/-- tx/sapling.py:33-38, `SaplingZkproof.from_bytes`. -/
def readSaplingProof (net : Network) (v : Val) : Py Val := do
  let a ← v.slice 0 48
  let b ← v.slice 48 144
  let c ← v.slice 144 192
  saplingProof net a b c

/-- tx/sapling.py:86-95, `SaplingShieldedSpend.from_bytes`. -/
def readSpend (net : Network) (v : Val) : Py Val := do
  let a ← v.slice 0 32
  let b ← v.slice 32 64
  let c ← v.slice 64 96
  let d ← v.slice 96 128
  let p ← v.slice 128 320
  let z ← readSaplingProof net p
  let s ← v.slice 320 384
  saplingSpend net a b c d z s

/-- tx/sapling.py:143-153, `SaplingShieldedOutput.from_bytes`. -/
def readOutput (net : Network) (v : Val) : Py Val := do
  let a ← v.slice 0 32
  let b ← v.slice 32 64
  let c ← v.slice 64 96
  let d ← v.slice 96 676
  let e ← v.slice 676 756
  let p ← v.slice 756 948
  let z ← readSaplingProof net p
  saplingOutput net a b c d e z

/-- tx/sapling.py:225-237, `SaplingJoinsplit.from_bytes`. -/
def readSaplingJs (net : Network) (v : Val) : Py Val := do
  let a ← v.slice 0 8
  let b ← v.slice 8 16
  let c ← v.slice 16 48
  let d ← v.slice 48 112
  let e ← v.slice 112 176
  let f ← v.slice 176 208
  let g ← v.slice 208 240
  let h ← v.slice 240 304
  let p ← v.slice 304 496
  let z ← readSaplingProof net p
  let n ← v.slice 496 1698
  saplingJs net a b c d e f g h z n

/-- The inputs and outputs, `len(tx_outs_num)` and the position after them. -/
structure ReadInsOuts where
  txIns : List Val
  txOuts : List Val
  outsNumLen : Nat
  current : Nat

/-- The common beginning of the three `from_bytes` (tx/sprout.py:162-179, tx/overwinter.py:216-233, tx/sapling.py:520-537). -/
def readInsOuts (net : Network) (v : Val) (start : Nat) : Py ReadInsOuts := do
  let r ← v.from_ start
  let ni ← readVarInt net r
  let (ins, current) ← readMany (readTxIn net) v ni.number (start + ni.bytes.length)
  let r ← v.from_ current
  let no ← readVarInt net r
  let (outs, current) ← readMany (readTxOut net) v no.number (current + no.bytes.length)
  .ok ⟨ins, outs, no.bytes.length, current⟩

/-- tx/sprout.py:183-197: the joinsplits, or None, the key and the signature. -/
def readSproutRest (net : Network) (v version : Val) (current : Nat) : Py (Val × Val × Val) := do
  let ver ← version.le2i
  if ver = 2 then do
    let r ← v.from_ current
    let n ← readVarInt net r
    let (js, current) ← readMany (readSproutJs net) v n.number (current + n.bytes.length)
    let pk ← v.slice current (current + 32)
    let sig ← v.slice (current + 32) (current + 32 + 64)
    .ok (.list js, pk, sig)
  else .ok (.none, .none, .none)

/-- tx/sprout.py:156-206, `SproutTx.from_bytes`. -/
def readSproutTx (E : Env) (v : Val) : Py Val := do
  let version ← v.slice 0 4
  let p ← readInsOuts E.net v 4
  let lockTime ← v.slice p.current (p.current + 4)
  let (js, pk, sig) ← readSproutRest E.net v version (p.current + 4)
  sproutTx E version (.list p.txIns) (.list p.txOuts) lockTime js pk sig

/-- The test of header and group id (tx/overwinter.py:204-213, tx/sapling.py:508-517). The message calls `hex`. -/
def readHeader (v : Val) (header groupId : Bytes) : Py Unit := do
  let h ← v.slice 0 4
  let g ← v.slice 4 8
  if h.neBytes header = true ∨ g.neBytes groupId = true then do
    h.hexAttr
    g.hexAttr
    .error .valueError
  else .ok ()

/-- tx/overwinter.py:238-256. The cursor advances by the length of the *outputs'* VarInt. -/
def readOverwinterRest (net : Network) (v : Val) (outsNumLen current : Nat) : Py (Val × Val × Val) := do
  let l ← v.len
  if current = l then .ok (.tuple [], .none, .none)
  else do
    let r ← v.from_ current
    let n ← readVarInt net r
    let (js, current) ← readMany (readSproutJs net) v n.number (current + outsNumLen)
    let pk ← v.slice current (current + 32)
    let sig ← v.slice (current + 32) (current + 32 + 64)
    .ok (.list js, pk, sig)

/-- tx/overwinter.py:199-265, `OverwinterTx.from_bytes`. -/
def readOverwinterTx (E : Env) (v : Val) : Py Val := do
  readHeader v [0x03, 0x00, 0x00, 0x80] [0x70, 0x82, 0xc4, 0x03]
  let p ← readInsOuts E.net v 8
  let lockTime ← v.slice p.current (p.current + 4)
  let expiry ← v.slice (p.current + 4) (p.current + 4 + 4)
  let (js, pk, sig) ← readOverwinterRest E.net v p.outsNumLen (p.current + 4 + 4)
  overwinterTx E (.list p.txIns) (.list p.txOuts) lockTime expiry js pk sig

/-- What the end of `SaplingTx.from_bytes` computes. -/
structure ReadRest where
  spends : List Val
  outputs : List Val
  js : List Val
  pk : Val
  sig : Val
  binding : Val

/-- tx/sapling.py:546-588. After the joinsplits' VarInt the cursor advances by the length of the *outputs'* VarInt. -/
def readSaplingRest (net : Network) (v : Val) (outsNumLen current : Nat) : Py ReadRest := do
  let r ← v.from_ current
  let ns ← readVarInt net r
  let (spends, current) ← readMany (readSpend net) v ns.number (current + ns.bytes.length)
  let r ← v.from_ current
  let nso ← readVarInt net r
  let (outputs, current) ← readMany (readOutput net) v nso.number (current + nso.bytes.length)
  let r ← v.from_ current
  let nj ← readVarInt net r
  let (js, current) ← readMany (readSaplingJs net) v nj.number (current + outsNumLen)
  let pk ← if js.length > 0 then v.slice current (current + 32) else .ok .none
  let sig ← if js.length > 0 then v.slice (current + 32) (current + 32 + 64) else .ok .none
  let current := if js.length > 0 then current + 32 + 64 else current
  let binding ← if spends.length + outputs.length > 0 then v.slice current (current + 64) else .ok .none
  .ok ⟨spends, outputs, js, pk, sig, binding⟩

/-- tx/sapling.py:503-600, `SaplingTx.from_bytes`. -/
def readSaplingTx (E : Env) (v : Val) : Py Val := do
  readHeader v [0x04, 0x00, 0x00, 0x80] [0x85, 0x20, 0x2f, 0x89]
  let p ← readInsOuts E.net v 8
  let lockTime ← v.slice p.current (p.current + 4)
  let expiry ← v.slice (p.current + 4) (p.current + 4 + 4)
  let balance ← v.slice (p.current + 4 + 4) (p.current + 4 + 4 + 8)
  let r ← readSaplingRest E.net v p.outsNumLen (p.current + 4 + 4 + 8)
  saplingTx E (.list p.txIns) (.list p.txOuts) lockTime expiry balance (.list r.spends) (.list r.outputs) (.list r.js) r.pk r.sig r.binding

/-! ### Decred -/

/-- tx/decred.py:50-55, `DecredOutpoint.from_bytes`. -/
def readDcrOutpoint (net : Network) (v : Val) : Py Val := do
  let a ← v.slice 0 32
  let b ← v.slice 32 36
  let c ← v.slice 36 37
  dcrOutpoint net a b c

/-- tx/decred.py:84-88, `DecredTxIn.from_bytes`. -/
def readDcrTxIn (net : Network) (v : Val) : Py Val := do
  let a ← v.slice 0 37
  let o ← readDcrOutpoint net a
  let b ← v.slice 37 41
  dcrTxIn net o b

/-- tx/decred.py:126-138, `DecredTxOut.from_bytes`. -/
def readDcrTxOut (net : Network) (v : Val) : Py Val := do
  let r ← v.from_ 10
  let n ← readVarInt net r
  let start := 10 + n.bytes.length
  let fin := start + n.number
  if n.number < 0xfc then do
    let a ← v.slice 0 8
    let b ← v.slice 8 10
    let c ← v.slice start fin
    dcrTxOut net a b c
  else .error .notImplementedError

end Dyn

end Verif
