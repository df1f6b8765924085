import Verif.Model.Sighash
import Verif.Model.Decred
import Verif.Model.Sprout
import Verif.Model.Overwinter
import Verif.Model.Sapling

/-! # Objects that share memory with their caller

The other files model arguments as values. Here an argument may be a mutable Python object that the caller keeps: a `bytearray` (accepted
by `ByteData.validate_bytes`, tx/shared.py:128-149) or a `list`. Constructors store references to some of their arguments and copies of
others; methods read what the references point to when they are called. A constructed object is modelled with the references it stores,
and `view` gives the object of the other files that its methods see in a given memory.

Simplifications: `ByteData` arguments (immutable when they are elements of transactions) are not distinguished from `bytes`; a list
object is found at an address of its element type; generators are not modelled (`len` of a generator raises TypeError). -/

namespace Verif

/-- The mutable objects of the caller, by address. -/
structure Mem where
  arr : Nat → Bytes
  list : (α : Type) → Nat → List α

/-- A bytes-like argument: `bytes`, or a `bytearray` at an address. -/
inductive BArg where
  | bytes (b : Bytes)
  | bytearray (a : Nat)
  deriving DecidableEq, Repr

/-- The bytes an argument has at the moment. -/
def BArg.get (m : Mem) : BArg → Bytes
  | .bytes b => b
  | .bytearray a => m.arr a

/-- The addresses of bytearrays in an argument. -/
def BArg.refs : BArg → List Nat
  | .bytes _ => []
  | .bytearray a => [a]

/-- A sequence: a `tuple`, or a `list` at an address. -/
inductive SArg (α : Type) where
  | tuple (xs : List α)
  | list (a : Nat)

/-- The elements a sequence has at the moment. -/
def SArg.get {α : Type} (m : Mem) : SArg α → List α
  | .tuple xs => xs
  | .list a => m.list α a

/-- `tuple(x for x in xs)`: a tuple of the elements the sequence has now. -/
def SArg.toTuple {α : Type} (m : Mem) (s : SArg α) : SArg α := .tuple (s.get m)

/-- tx/tx.py:30-42: an `Outpoint` with the references it stores. `bytes` is the copy made by `+=` and `_make_immutable`. -/
structure HOutpoint where
  txId : BArg
  index : BArg
  bytes : Bytes

/-- tx/tx.py:30-42, `Outpoint.__init__`. -/
def HOutpoint.make (m : Mem) (txId index : BArg) : Py HOutpoint := do
  let o ← Outpoint.make (txId.get m) (index.get m)
  .ok ⟨txId, index, o.bytes⟩

/-- What methods see. -/
def HOutpoint.view (m : Mem) (o : HOutpoint) : Outpoint := ⟨o.txId.get m, o.index.get m, o.bytes⟩

/-- tx/tx.py:112-141: a `TxIn` with the references it stores. `script_sig` is a new object, the sum of two (line 138). -/
structure HTxIn where
  outpoint : HOutpoint
  stackScript : BArg
  redeemScript : BArg
  scriptSig : Bytes
  sequence : BArg
  bytes : Bytes

/-- tx/tx.py:112-141, `TxIn.__init__`. -/
def HTxIn.make (m : Mem) (outpoint : HOutpoint) (stackScript redeemScript sequence : BArg) : Py HTxIn := do
  let t ← TxIn.make (outpoint.view m) (stackScript.get m) (redeemScript.get m) (sequence.get m)
  .ok ⟨outpoint, stackScript, redeemScript, t.scriptSig, sequence, t.bytes⟩

/-- What methods see. -/
def HTxIn.view (m : Mem) (t : HTxIn) : TxIn :=
  ⟨t.outpoint.view m, t.stackScript.get m, t.redeemScript.get m, t.scriptSig, t.sequence.get m, t.bytes⟩

/-- tx/tx.py:245-258: a `TxOut` with the references it stores. -/
structure HTxOut where
  value : BArg
  outputScript : BArg
  bytes : Bytes

/-- tx/tx.py:245-258, `TxOut.__init__`. -/
def HTxOut.make (m : Mem) (value outputScript : BArg) : Py HTxOut := do
  let t ← TxOut.make (value.get m) (outputScript.get m)
  .ok ⟨value, outputScript, t.bytes⟩

/-- What methods see. -/
def HTxOut.view (m : Mem) (t : HTxOut) : TxOut := ⟨t.value.get m, t.outputScript.get m, t.bytes⟩

/-- tx/tx.py:300-310: a `WitnessStackItem` with the reference it stores. -/
structure HItem where
  item : BArg
  bytes : Bytes

/-- tx/tx.py:300-310, `WitnessStackItem.__init__`. -/
def HItem.make (m : Mem) (item : BArg) : Py HItem := do
  let t ← WitnessStackItem.make (item.get m)
  .ok ⟨item, t.bytes⟩

/-- What methods see. -/
def HItem.view (m : Mem) (t : HItem) : WitnessStackItem := ⟨t.item.get m, t.bytes⟩

/-- tx/tx.py:337-355: an `InputWitness`. -/
structure HWitness where
  stack : SArg HItem
  bytes : Bytes

/-- tx/tx.py:337-355, `InputWitness.__init__`: the stack is stored as a tuple (line 353). -/
def HWitness.make (m : Mem) (stack : SArg HItem) : Py HWitness := do
  let t ← InputWitness.make ((stack.get m).map (·.view m))
  .ok ⟨stack.toTuple m, t.bytes⟩

/-- What methods see. -/
def HWitness.view (m : Mem) (t : HWitness) : InputWitness := ⟨(t.stack.get m).map (·.view m), t.bytes⟩

/-- tx/tx.py:458-545: a `Tx` with the references it stores. -/
structure HTx where
  version : BArg
  flag : Option BArg
  txIns : SArg HTxIn
  txOuts : SArg HTxOut
  txWitnesses : Option (SArg HWitness)
  lockTime : BArg
  txIdLe : Bytes
  wtxIdLe : Option Bytes
  txId : Bytes
  wtxId : Option Bytes
  bytes : Bytes

/-- tx/tx.py:458-545, `Tx.__init__`: version, flag and lock time are stored as they are, the sequences as tuples (lines 526-530). -/
def HTx.make (E : Env) (m : Mem) (version : BArg) (flag : Option BArg) (txIns : SArg HTxIn) (txOuts : SArg HTxOut)
    (txWitnesses : Option (SArg HWitness)) (lockTime : BArg) : Py HTx := do
  let t ← Tx.make E (version.get m) (flag.map (·.get m)) ((txIns.get m).map (·.view m)) ((txOuts.get m).map (·.view m))
    (txWitnesses.map fun w => (w.get m).map (·.view m)) (lockTime.get m)
  .ok ⟨version, flag, txIns.toTuple m, txOuts.toTuple m, txWitnesses.map (·.toTuple m), lockTime, t.txIdLe, t.wtxIdLe, t.txId, t.wtxId, t.bytes⟩

/-- What methods see. -/
def HTx.view (m : Mem) (t : HTx) : Tx :=
  ⟨t.version.get m, t.flag.map (·.get m), (t.txIns.get m).map (·.view m), (t.txOuts.get m).map (·.view m),
    t.txWitnesses.map (fun w => (w.get m).map (·.view m)), t.lockTime.get m, t.txIdLe, t.wtxIdLe, t.txId, t.wtxId, t.bytes⟩

/-! ### Zcash and Decred

From here on an object is modelled by what reading its attributes gives, for every content of the caller's bytearrays. -/

/-- An object whose attributes may be bytearrays of the caller: its value for every content of the bytearrays. -/
abbrev Live (α : Type) := (Nat → Bytes) → α

/-- The bytes of an argument, for given contents of the bytearrays. -/
def BArg.look (h : Nat → Bytes) : BArg → Bytes
  | .bytes b => b
  | .bytearray a => h a

/-- tx/zcash_shared.py:26-64, `SproutZkproof.__init__`: the arguments are stored as they are (lines 55-62). -/
def SproutZkproof.makeLive (net : Network) (h0 : Nat → Bytes) (piSubA piPrimeSubA piSubB piPrimeSubB piSubC piPrimeSubC piSubK piSubH : BArg) :
    Py (Live SproutZkproof) := do
  let t ← SproutZkproof.make net (piSubA.look h0) (piPrimeSubA.look h0) (piSubB.look h0) (piPrimeSubB.look h0) (piSubC.look h0)
      (piPrimeSubC.look h0) (piSubK.look h0) (piSubH.look h0)
  .ok fun h =>
    { t with
      piSubA := piSubA.look h, piPrimeSubA := piPrimeSubA.look h, piSubB := piSubB.look h, piPrimeSubB := piPrimeSubB.look h,
      piSubC := piSubC.look h, piPrimeSubC := piPrimeSubC.look h, piSubK := piSubK.look h, piSubH := piSubH.look h }

/-- tx/zcash_shared.py:92-145, `SproutJoinsplit.__init__`. -/
def SproutJoinsplit.makeLive (net : Network) (h0 : Nat → Bytes) (vpubOld vpubNew anchor nullifiers commitments ephemeralKey randomSeed vmacs : BArg)
    (zkproof : Live SproutZkproof) (encodedNotes : BArg) : Py (Live SproutJoinsplit) := do
  let t ← SproutJoinsplit.make net (vpubOld.look h0) (vpubNew.look h0) (anchor.look h0) (nullifiers.look h0) (commitments.look h0)
      (ephemeralKey.look h0) (randomSeed.look h0) (vmacs.look h0) (zkproof h0) (encodedNotes.look h0)
  .ok fun h =>
    { t with
      vpubOld := vpubOld.look h, vpubNew := vpubNew.look h, anchor := anchor.look h, nullifiers := nullifiers.look h,
      commitments := commitments.look h, ephemeralKey := ephemeralKey.look h, randomSeed := randomSeed.look h, vmacs := vmacs.look h,
      zkproof := zkproof h, encodedNotes := encodedNotes.look h }

/-- tx/sapling.py:16-31, `SaplingZkproof.__init__`. -/
def SaplingZkproof.makeLive (net : Network) (h0 : Nat → Bytes) (piSubA piSubB piSubC : BArg) : Py (Live SaplingZkproof) := do
  let t ← SaplingZkproof.make net (piSubA.look h0) (piSubB.look h0) (piSubC.look h0)
  .ok fun h => { t with piSubA := piSubA.look h, piSubB := piSubB.look h, piSubC := piSubC.look h }

/-- tx/sapling.py:50-84, `SaplingShieldedSpend.__init__`. -/
def SaplingShieldedSpend.makeLive (net : Network) (h0 : Nat → Bytes) (cv anchor nullifier rk : BArg) (zkproof : Live SaplingZkproof)
    (spendAuthSig : BArg) : Py (Live SaplingShieldedSpend) := do
  let t ← SaplingShieldedSpend.make net (cv.look h0) (anchor.look h0) (nullifier.look h0) (rk.look h0) (zkproof h0) (spendAuthSig.look h0)
  .ok fun h =>
    { t with
      cv := cv.look h, anchor := anchor.look h, nullifier := nullifier.look h, rk := rk.look h, zkproof := zkproof h,
      spendAuthSig := spendAuthSig.look h }

/-- tx/sapling.py:107-141, `SaplingShieldedOutput.__init__`. -/
def SaplingShieldedOutput.makeLive (net : Network) (h0 : Nat → Bytes) (cv cmu ephemeralKey encCiphertext outCiphertext : BArg)
    (zkproof : Live SaplingZkproof) : Py (Live SaplingShieldedOutput) := do
  let t ← SaplingShieldedOutput.make net (cv.look h0) (cmu.look h0) (ephemeralKey.look h0) (encCiphertext.look h0) (outCiphertext.look h0)
    (zkproof h0)
  .ok fun h =>
    { t with
      cv := cv.look h, cmu := cmu.look h, ephemeralKey := ephemeralKey.look h, encCiphertext := encCiphertext.look h,
      outCiphertext := outCiphertext.look h, zkproof := zkproof h }

/-- tx/sapling.py:169-223, `SaplingJoinsplit.__init__`. -/
def SaplingJoinsplit.makeLive (net : Network) (h0 : Nat → Bytes)
    (vpubOld vpubNew anchor nullifiers commitments ephemeralKey randomSeed vmacs : BArg)
    (zkproof : Live SaplingZkproof) (encodedNotes : BArg) : Py (Live SaplingJoinsplit) := do
  let t ← SaplingJoinsplit.make net (vpubOld.look h0) (vpubNew.look h0) (anchor.look h0) (nullifiers.look h0) (commitments.look h0)
      (ephemeralKey.look h0) (randomSeed.look h0) (vmacs.look h0) (zkproof h0) (encodedNotes.look h0)
  .ok fun h =>
    { t with
      vpubOld := vpubOld.look h, vpubNew := vpubNew.look h, anchor := anchor.look h, nullifiers := nullifiers.look h,
      commitments := commitments.look h, ephemeralKey := ephemeralKey.look h, randomSeed := randomSeed.look h, vmacs := vmacs.look h,
      zkproof := zkproof h, encodedNotes := encodedNotes.look h }

/-- tx/sprout.py:96-114: a `SproutTx` with the references it stores; `rest` holds what is computed at construction. -/
structure HSproutTx where
  version : BArg
  txIns : SArg HTxIn
  txOuts : SArg HTxOut
  lockTime : BArg
  txJoinsplits : SArg (Live SproutJoinsplit)
  joinsplitPubkey : Option BArg
  joinsplitSig : Option BArg
  rest : SproutTx

/-- tx/sprout.py:24-119, `SproutTx.__init__`: the sequences are copied into tuples (lines 97-99), the rest is stored as it is; the
keys only in version 2 (lines 102-114). -/
def HSproutTx.make (E : Env) (m : Mem) (version : BArg) (txIns : SArg HTxIn) (txOuts : SArg HTxOut) (lockTime : BArg)
    (txJoinsplits : SArg (Live SproutJoinsplit)) (joinsplitPubkey joinsplitSig : Option BArg) : Py HSproutTx := do
  let t ← SproutTx.make E (version.get m) ((txIns.get m).map (·.view m)) ((txOuts.get m).map (·.view m)) (lockTime.get m)
    (some ((txJoinsplits.get m).map (· m.arr))) (joinsplitPubkey.map (·.get m)) (joinsplitSig.map (·.get m))
  let two ← i2lePadded 2 4
  .ok ⟨version, txIns.toTuple m, txOuts.toTuple m, lockTime, txJoinsplits.toTuple m, if version.get m = two then joinsplitPubkey else none,
      if version.get m = two then joinsplitSig else none, t⟩

/-- What methods see. -/
def HSproutTx.view (m : Mem) (t : HSproutTx) : SproutTx :=
  { t.rest with
    version := t.version.get m,
    txIns := (t.txIns.get m).map (·.view m),
    txOuts := (t.txOuts.get m).map (·.view m),
    lockTime := t.lockTime.get m,
    txJoinsplits := (t.txJoinsplits.get m).map (· m.arr),
    joinsplitPubkey := t.joinsplitPubkey.map (·.get m),
    joinsplitSig := t.joinsplitSig.map (·.get m) }

/-- tx/overwinter.py:97-119: an `OverwinterTx` with the references it stores; `rest` holds what is computed at construction. -/
structure HOverwinterTx where
  txIns : SArg HTxIn
  txOuts : SArg HTxOut
  lockTime : BArg
  expiryHeight : BArg
  txJoinsplits : SArg (Live SproutJoinsplit)
  joinsplitPubkey : Option BArg
  joinsplitSig : Option BArg
  rest : OverwinterTx

/-- tx/overwinter.py:26-124, `OverwinterTx.__init__`: the sequences are copied into tuples (lines 100, 101, 106), the keys are stored
when there are joinsplits. -/
def HOverwinterTx.make (E : Env) (m : Mem) (txIns : SArg HTxIn) (txOuts : SArg HTxOut) (lockTime expiryHeight : BArg)
    (txJoinsplits : SArg (Live SproutJoinsplit)) (joinsplitPubkey joinsplitSig : Option BArg) : Py HOverwinterTx := do
  let t ← OverwinterTx.make E ((txIns.get m).map (·.view m)) ((txOuts.get m).map (·.view m)) (lockTime.get m) (expiryHeight.get m)
    ((txJoinsplits.get m).map (· m.arr)) (joinsplitPubkey.map (·.get m)) (joinsplitSig.map (·.get m))
  .ok ⟨txIns.toTuple m, txOuts.toTuple m, lockTime, expiryHeight, if (txJoinsplits.get m).length ≠ 0 then txJoinsplits.toTuple m else .tuple [],
      if (txJoinsplits.get m).length ≠ 0 then joinsplitPubkey else none, if (txJoinsplits.get m).length ≠ 0 then joinsplitSig else none, t⟩

/-- What methods see. -/
def HOverwinterTx.view (m : Mem) (t : HOverwinterTx) : OverwinterTx :=
  { t.rest with
    txIns := (t.txIns.get m).map (·.view m),
    txOuts := (t.txOuts.get m).map (·.view m),
    lockTime := t.lockTime.get m,
    expiryHeight := t.expiryHeight.get m,
    txJoinsplits := (t.txJoinsplits.get m).map (· m.arr),
    joinsplitPubkey := t.joinsplitPubkey.map (·.get m),
    joinsplitSig := t.joinsplitSig.map (·.get m) }

/-- tx/sapling.py:370-406: a `SaplingTx` with the references it stores; `rest` holds what is computed at construction. -/
structure HSaplingTx where
  txIns : SArg HTxIn
  txOuts : SArg HTxOut
  lockTime : BArg
  expiryHeight : BArg
  valueBalance : BArg
  txShieldedSpends : SArg (Live SaplingShieldedSpend)
  txShieldedOutputs : SArg (Live SaplingShieldedOutput)
  txJoinsplits : SArg (Live SaplingJoinsplit)
  joinsplitPubkey : Option BArg
  joinsplitSig : Option BArg
  bindingSig : Option BArg
  rest : SaplingTx

/-- tx/sapling.py:258-411, `SaplingTx.__init__`: the sequences are copied into tuples (lines 376, 377, 383, 388, 393), the keys are
stored when there are joinsplits, the binding signature when there are shielded parts. -/
def HSaplingTx.make (E : Env) (m : Mem) (txIns : SArg HTxIn) (txOuts : SArg HTxOut) (lockTime expiryHeight valueBalance : BArg)
    (txShieldedSpends : SArg (Live SaplingShieldedSpend)) (txShieldedOutputs : SArg (Live SaplingShieldedOutput))
    (txJoinsplits : SArg (Live SaplingJoinsplit)) (joinsplitPubkey joinsplitSig bindingSig : Option BArg) : Py HSaplingTx := do
  let t ← SaplingTx.make E ((txIns.get m).map (·.view m)) ((txOuts.get m).map (·.view m)) (lockTime.get m) (expiryHeight.get m)
    (valueBalance.get m) ((txShieldedSpends.get m).map (· m.arr)) ((txShieldedOutputs.get m).map (· m.arr))
    ((txJoinsplits.get m).map (· m.arr)) (joinsplitPubkey.map (·.get m)) (joinsplitSig.map (·.get m)) (bindingSig.map (·.get m))
  .ok ⟨txIns.toTuple m, txOuts.toTuple m, lockTime, expiryHeight, valueBalance,
      if (txShieldedSpends.get m).length ≠ 0 then txShieldedSpends.toTuple m else .tuple [],
      if (txShieldedOutputs.get m).length ≠ 0 then txShieldedOutputs.toTuple m else .tuple [],
      if (txJoinsplits.get m).length ≠ 0 then txJoinsplits.toTuple m else .tuple [],
      if (txJoinsplits.get m).length ≠ 0 then joinsplitPubkey else none, if (txJoinsplits.get m).length ≠ 0 then joinsplitSig else none,
      if (txShieldedOutputs.get m).length + (txShieldedSpends.get m).length ≠ 0 then bindingSig else none, t⟩

/-- What methods see. -/
def HSaplingTx.view (m : Mem) (t : HSaplingTx) : SaplingTx :=
  { t.rest with
    txIns := (t.txIns.get m).map (·.view m),
    txOuts := (t.txOuts.get m).map (·.view m),
    lockTime := t.lockTime.get m,
    expiryHeight := t.expiryHeight.get m,
    valueBalance := t.valueBalance.get m,
    txShieldedSpends := (t.txShieldedSpends.get m).map (· m.arr),
    txShieldedOutputs := (t.txShieldedOutputs.get m).map (· m.arr),
    txJoinsplits := (t.txJoinsplits.get m).map (· m.arr),
    joinsplitPubkey := t.joinsplitPubkey.map (·.get m),
    joinsplitSig := t.joinsplitSig.map (·.get m),
    bindingSig := t.bindingSig.map (·.get m) }

/-- tx/decred.py:24-39, `DecredOutpoint.__init__`. -/
def DecredOutpoint.makeLive (net : Network) (h0 : Nat → Bytes) (txId index tree : BArg) : Py (Live DecredOutpoint) := do
  let t ← DecredOutpoint.make net (txId.look h0) (index.look h0) (tree.look h0)
  .ok fun h => { t with txId := txId.look h, index := index.look h, tree := tree.look h }

/-- tx/decred.py:63-75, `DecredTxIn.__init__`. -/
def DecredTxIn.makeLive (net : Network) (h0 : Nat → Bytes) (outpoint : Live DecredOutpoint) (sequence : BArg) : Py (Live DecredTxIn) := do
  let t ← DecredTxIn.make net (outpoint h0) (sequence.look h0)
  .ok fun h => { t with outpoint := outpoint h, sequence := sequence.look h }

/-- tx/decred.py:97-114, `DecredTxOut.__init__`: the length of the script is stored as a number (line 111). -/
def DecredTxOut.makeLive (net : Network) (h0 : Nat → Bytes) (value version outputScript : BArg) : Py (Live DecredTxOut) := do
  let t ← DecredTxOut.make net (value.look h0) (version.look h0) (outputScript.look h0)
  .ok fun h => { t with value := value.look h, version := version.look h, outputScript := outputScript.look h }

/-- tx/decred.py:149-178, `DecredInputWitness.__init__`: `script_sig` is a new object, the sum of two (line 176). -/
def DecredInputWitness.makeLive (net : Network) (h0 : Nat → Bytes) (value height index stackScript redeemScript : BArg) :
    Py (Live DecredInputWitness) := do
  let t ← DecredInputWitness.make net (value.look h0) (height.look h0) (index.look h0) (stackScript.look h0) (redeemScript.look h0)
  .ok fun h =>
    { t with
      value := value.look h, height := height.look h, index := index.look h, stackScript := stackScript.look h,
      redeemScript := redeemScript.look h }

/-- tx/decred.py:253-258: a `DecredTx` with the references it stores; `rest` holds what is computed at construction. -/
structure HDecredTx where
  version : BArg
  txIns : SArg (Live DecredTxIn)
  txOuts : SArg (Live DecredTxOut)
  lockTime : BArg
  expiry : BArg
  txWitnesses : SArg (Live DecredInputWitness)
  rest : DecredTx

/-- tx/decred.py:203-274, `DecredTx.__init__`: everything is stored as it is, the sequences too (lines 254, 255, 258). -/
def HDecredTx.make (net : Network) (m : Mem) (version : BArg) (txIns : SArg (Live DecredTxIn)) (txOuts : SArg (Live DecredTxOut))
    (lockTime expiry : BArg) (txWitnesses : SArg (Live DecredInputWitness)) : Py HDecredTx := do
  let t ← DecredTx.make net (version.get m) ((txIns.get m).map (· m.arr)) ((txOuts.get m).map (· m.arr)) (lockTime.get m) (expiry.get m)
    ((txWitnesses.get m).map (· m.arr))
  .ok ⟨version, txIns, txOuts, lockTime, expiry, txWitnesses, t⟩

/-- What methods see. -/
def HDecredTx.view (m : Mem) (t : HDecredTx) : DecredTx :=
  { t.rest with
    version := t.version.get m,
    txIns := (t.txIns.get m).map (· m.arr),
    txOuts := (t.txOuts.get m).map (· m.arr),
    lockTime := t.lockTime.get m,
    expiry := t.expiry.get m,
    txWitnesses := (t.txWitnesses.get m).map (· m.arr) }

end Verif
