import Verif.Model.Shared
import Verif.Model.Script

/-! # tx/tx.py: the elements of transactions, and `Tx` without the sighash methods

An object is a structure of its attributes and its frozen bytes; a constructor is a function `make` returning the object or
the exception. Arguments are of the annotated types, so the `isinstance` tests are met and not written. -/

namespace Verif

/-! ### Outpoint -/

/-- tx/tx.py:10-42. -/
structure Outpoint where
  txId : Bytes
  index : Bytes
  bytes : Bytes
  deriving DecidableEq, Repr

/-- tx/tx.py:30-42, `Outpoint.__init__`. -/
def Outpoint.make (txId index : Bytes) : Py Outpoint := do
  validateBytes txId (some 32)
  validateBytes index (some 4)
  .ok ⟨txId, index, txId ++ index⟩

/-- tx/tx.py:44-52, `Outpoint.copy`. -/
def Outpoint.copy (o : Outpoint) (txId : Option Bytes := none) (index : Option Bytes := none) : Py Outpoint :=
  Outpoint.make (txId.getD o.txId) (index.getD o.index)

/-- tx/tx.py:54-57, `Outpoint.null`. -/
def Outpoint.null : Py Outpoint := Outpoint.make (List.replicate 32 0x00) (List.replicate 4 0xff)

/-- tx/tx.py:59-66, `Outpoint.from_bytes`. -/
def Outpoint.fromBytes (b : Bytes) : Py Outpoint := Outpoint.make (slice b 0 32) (slice b 32 36)

/-! ### TxIn -/

/-- tx/tx.py:69-141. -/
structure TxIn where
  outpoint : Outpoint
  stackScript : Bytes
  redeemScript : Bytes
  scriptSig : Bytes
  sequence : Bytes
  bytes : Bytes
  deriving DecidableEq, Repr

/-- tx/tx.py:112-141, `TxIn.__init__`. -/
def TxIn.make (outpoint : Outpoint) (stackScript redeemScript sequence : Bytes) : Py TxIn := do
  validateBytes outpoint.bytes (some 36)
  validateBytes stackScript none
  validateBytes redeemScript none
  validateBytes sequence (some 4)
  check (¬ stackScript.length + redeemScript.length > 1650) .valueError
  let n ← VarInt.make ((stackScript.length + redeemScript.length : Nat) : Int)
  .ok ⟨outpoint, stackScript, redeemScript, stackScript ++ redeemScript, sequence,
    outpoint.bytes ++ n.bytes ++ stackScript ++ redeemScript ++ sequence⟩

/-- tx/tx.py:143-157, `TxIn.copy`. -/
def TxIn.copy (t : TxIn) (outpoint : Option Outpoint := none) (stackScript redeemScript sequence : Option Bytes := none) :
    Py TxIn :=
  TxIn.make (outpoint.getD t.outpoint) (stackScript.getD t.stackScript) (redeemScript.getD t.redeemScript)
    (sequence.getD t.sequence)

/-- tx/tx.py:159-163, `TxIn.is_p2sh`. -/
def TxIn.isP2sh (t : TxIn) : Bool := t.redeemScript != []

/-- tx/tx.py:165-186, `TxIn._parse_script_sig`. If `serialize(items[-1])` raises, `stack_script` has been assigned already and
stays so. -/
def TxIn.parseScriptSig (net : Network) (scriptSig : Bytes) : Py (Bytes × Bytes) :=
  let caught : PyErr → Bool := fun e => e = .indexError ∨ e = .valueError ∨ e = .notImplementedError
  let first : Py (Bytes × PyStr) := do
    let deserialized ← deserialize net scriptSig
    let items := pySplit deserialized
    let last ← getItem items (-1)
    let _ ← hexDeserialize net last
    let stackScript ← serialize net (joinSpace items.dropLast)
    .ok (stackScript, last)
  match first with
  | .error e => if caught e then .ok (scriptSig, []) else .error e
  | .ok (stackScript, last) =>
    match serialize net last with
    | .ok redeemScript => .ok (stackScript, redeemScript)
    | .error e => if caught e then .ok (stackScript, []) else .error e

/-- tx/tx.py:188-220, `TxIn.from_bytes`. -/
def TxIn.fromBytes (net : Network) (b : Bytes) : Py TxIn := do
  let outpoint ← Outpoint.fromBytes (slice b 0 36)
  let scriptSigLen ← VarInt.fromBytes net (slice b 36 45)
  let scriptStart := 36 + scriptSigLen.bytes.length
  let scriptEnd := scriptStart + scriptSigLen.number
  let scriptSig := slice b scriptStart scriptEnd
  let sequence := slice b scriptEnd (scriptEnd + 4)
  if scriptSig = [] then TxIn.make outpoint [] [] sequence
  else do
    let null ← Outpoint.null
    if outpoint.bytes = null.bytes then TxIn.make outpoint scriptSig [] sequence
    else do
      let (stackScript, redeemScript) ← TxIn.parseScriptSig net scriptSig
      TxIn.make outpoint stackScript redeemScript sequence

/-! ### TxOut -/

/-- tx/tx.py:223-258. -/
structure TxOut where
  value : Bytes
  outputScript : Bytes
  bytes : Bytes
  deriving DecidableEq, Repr

/-- tx/tx.py:245-258, `TxOut.__init__`. -/
def TxOut.make (value outputScript : Bytes) : Py TxOut := do
  validateBytes value (some 8)
  validateBytes outputScript none
  let n ← VarInt.make (outputScript.length : Int)
  .ok ⟨value, outputScript, value ++ n.bytes ++ outputScript⟩

/-- tx/tx.py:260-269, `TxOut.copy`. -/
def TxOut.copy (o : TxOut) (value outputScript : Option Bytes := none) : Py TxOut :=
  TxOut.make (value.getD o.value) (outputScript.getD o.outputScript)

/-- tx/tx.py:271-285, `TxOut.from_bytes`. -/
def TxOut.fromBytes (net : Network) (b : Bytes) : Py TxOut := do
  let n ← VarInt.fromBytes net (b.drop 8)
  let scriptStart := 8 + n.bytes.length
  let scriptEnd := scriptStart + n.number
  if n.number < 0xfc then TxOut.make (slice b 0 8) (slice b scriptStart scriptEnd)
  else .error .notImplementedError

/-! ### witnesses -/

/-- tx/tx.py:288-310. -/
structure WitnessStackItem where
  item : Bytes
  bytes : Bytes
  deriving DecidableEq, Repr

/-- tx/tx.py:300-310, `WitnessStackItem.__init__`. -/
def WitnessStackItem.make (item : Bytes) : Py WitnessStackItem := do
  validateBytes item none
  let n ← VarInt.make (item.length : Int)
  .ok ⟨item, n.bytes ++ item⟩

/-- tx/tx.py:312-320, `WitnessStackItem.from_bytes`. -/
def WitnessStackItem.fromBytes (net : Network) (b : Bytes) : Py WitnessStackItem := do
  let n ← VarInt.fromBytes net b
  WitnessStackItem.make (slice b n.bytes.length (n.bytes.length + n.number))

/-- tx/tx.py:323-355. -/
structure InputWitness where
  stack : List WitnessStackItem
  bytes : Bytes
  deriving DecidableEq, Repr

/-- tx/tx.py:337-355, `InputWitness.__init__`. -/
def InputWitness.make (stack : List WitnessStackItem) : Py InputWitness := do
  let n ← VarInt.make (stack.length : Int)
  .ok ⟨stack, n.bytes ++ stack.flatMap (·.bytes)⟩

/-- The loops `for _ in range(n): x = X.from_bytes(b[current:]); current += len(x); xs.append(x)`: the objects read and the
final position. -/
def parseMany {α : Type} (f : Bytes → Py α) (len : α → Nat) (b : Bytes) : (n : Nat) → (current : Nat) → Py (List α × Nat)
  | 0, current => .ok ([], current)
  | n + 1, current => do
    let x ← f (b.drop current)
    let (xs, fin) ← parseMany f len b n (current + len x)
    .ok (x :: xs, fin)

/-- tx/tx.py:357-369, `InputWitness.from_bytes`. -/
def InputWitness.fromBytes (net : Network) (b : Bytes) : Py InputWitness := do
  let stackItems ← VarInt.fromBytes net b
  let (items, _) ← parseMany (WitnessStackItem.fromBytes net) (·.bytes.length) b stackItems.number stackItems.bytes.length
  InputWitness.make items

/-- tx/tx.py:371-377, `InputWitness.copy`. -/
def InputWitness.copy (w : InputWitness) (stack : Option (List WitnessStackItem) := none) : Py InputWitness :=
  InputWitness.make (stack.getD w.stack)

/-! ### Tx -/

/-- tx/tx.py:380-456. `wtxIdLe = none` stands for the attribute not being set. -/
structure Tx where
  version : Bytes
  flag : Option Bytes
  txIns : List TxIn
  txOuts : List TxOut
  txWitnesses : Option (List InputWitness)
  lockTime : Bytes
  txIdLe : Bytes
  wtxIdLe : Option Bytes
  txId : Bytes
  wtxId : Option Bytes
  bytes : Bytes
  deriving DecidableEq, Repr

/-- tx/tx.py:610-624, `Tx.no_witness`, on the attributes it reads. -/
def Tx.noWitness' (version : Bytes) (txIns : List TxIn) (txOuts : List TxOut) (lockTime : Bytes) : Py Bytes := do
  let ni ← VarInt.make (txIns.length : Int)
  let no ← VarInt.make (txOuts.length : Int)
  .ok (version ++ ni.bytes ++ txIns.flatMap (·.bytes) ++ no.bytes ++ txOuts.flatMap (·.bytes) ++ lockTime)

/-- tx/tx.py:610-624, `Tx.no_witness`. -/
def Tx.noWitness (t : Tx) : Py Bytes := Tx.noWitness' t.version t.txIns t.txOuts t.lockTime

/-- tx/tx.py:471-476: the flag, if given, is the network's. -/
def Tx.checkFlag (E : Env) (flag : Option Bytes) : Py Unit :=
  match flag with
  | some f => check (f = E.net.segwitTxFlag) .valueError
  | none => .ok ()

/-- tx/tx.py:478-491: a non-empty list of witnesses needs a flag and one witness per input. -/
def Tx.checkWitnesses (flag : Option Bytes) (txIns : List TxIn) (txWitnesses : Option (List InputWitness)) : Py Unit :=
  match txWitnesses with
  | some ws =>
    if ws.length ≠ 0 then do
      check (flag.isSome) .valueError
      check (ws.length = txIns.length) .valueError
    else .ok ()
  | none => .ok ()

/-- tx/tx.py:458-545, `Tx.__init__`. -/
def Tx.make (E : Env) (version : Bytes) (flag : Option Bytes) (txIns : List TxIn) (txOuts : List TxOut)
    (txWitnesses : Option (List InputWitness)) (lockTime : Bytes) : Py Tx := do
  validateBytes version (some 4)
  validateBytes lockTime (some 4)
  Tx.checkFlag E flag
  Tx.checkWitnesses flag txIns txWitnesses
  check (min txIns.length txOuts.length ≠ 0) .valueError
  let ni ← VarInt.make (txIns.length : Int)
  let no ← VarInt.make (txOuts.length : Int)
  let bytes := version ++ flag.getD [] ++ ni.bytes ++ txIns.flatMap (·.bytes) ++ no.bytes ++ txOuts.flatMap (·.bytes)
    ++ (txWitnesses.getD []).flatMap (·.bytes) ++ lockTime
  if flag.isSome then do
    let nw ← Tx.noWitness' version txIns txOuts lockTime
    let txIdLe := E.hash256 nw
    let wtxIdLe := E.hash256 bytes
    .ok ⟨version, flag, txIns, txOuts, txWitnesses, lockTime, txIdLe, some wtxIdLe, changeEndianness txIdLe,
      some (changeEndianness wtxIdLe), bytes⟩
  else
    let txIdLe := E.hash256 bytes
    .ok ⟨version, flag, txIns, txOuts, txWitnesses, lockTime, txIdLe, none, changeEndianness txIdLe, none, bytes⟩

/-- tx/tx.py:552-608, `Tx.from_bytes`. -/
def Tx.fromBytes (E : Env) (b : Bytes) : Py Tx := do
  let version := slice b 0 4
  let isWit := slice b 4 6 = E.net.segwitTxFlag
  let txInsNumLoc := if isWit then 6 else 4
  let flag := if isWit then some E.net.segwitTxFlag else none
  let txInsNum ← VarInt.fromBytes E.net (b.drop txInsNumLoc)
  let current := txInsNumLoc + txInsNum.bytes.length
  let (txIns, current) ← parseMany (TxIn.fromBytes E.net) (·.bytes.length) b txInsNum.number current
  let txOutsNum ← VarInt.fromBytes E.net (b.drop current)
  let current := current + txOutsNum.bytes.length
  let (txOuts, current) ← parseMany (TxOut.fromBytes E.net) (·.bytes.length) b txOutsNum.number current
  let (txWitnesses, current) ←
    if (flag.getD []) ≠ [] ∧ (b.drop current).length > 4 then
      parseMany (InputWitness.fromBytes E.net) (·.bytes.length) b txInsNum.number current
    else .ok ([], current)
  let lockTime := slice b current (current + 4)
  Tx.make E version flag txIns txOuts (some txWitnesses) lockTime

/-- tx/tx.py:547-550, `Tx.from_hex`. -/
def Tx.fromHex (E : Env) (h : PyStr) : Py Tx := do
  let b ← Verif.fromHex h
  Tx.fromBytes E b

/-- tx/tx.py:626-628, `Tx.is_witness`. -/
def Tx.isWitness (t : Tx) : Bool := t.flag.isSome || t.txWitnesses.isSome

/-- tx/tx.py:630-642, `Tx.calculate_fee`. -/
def Tx.calculateFee (t : Tx) (inputValues : List Int) : Int :=
  inputValues.sum - ((t.txOuts.map fun o => le2i o.value).sum : Nat)

/-- tx/tx.py:648-665, `Tx.copy`. -/
def Tx.copy (E : Env) (t : Tx) (version flag : Option Bytes := none) (txIns : Option (List TxIn) := none)
    (txOuts : Option (List TxOut) := none) (txWitnesses : Option (List InputWitness) := none) (lockTime : Option Bytes := none) :
    Py Tx :=
  Tx.make E (version.getD t.version) (flag.orElse fun _ => t.flag) (txIns.getD t.txIns) (txOuts.getD t.txOuts)
    (txWitnesses.orElse fun _ => t.txWitnesses) (lockTime.getD t.lockTime)

end Verif
