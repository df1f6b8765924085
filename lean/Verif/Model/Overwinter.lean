import Verif.Model.Zcash

/-! # tx/overwinter.py: OverwinterTx -/

namespace Verif

/-- tx/overwinter.py:10-24. The constants `header`, `group_id` and `version` (lines 97-99) are the same for all objects. -/
structure OverwinterTx where
  txIns : List TxIn
  txOuts : List TxOut
  lockTime : Bytes
  expiryHeight : Bytes
  txJoinsplits : List SproutJoinsplit
  joinsplitPubkey : Option Bytes
  joinsplitSig : Option Bytes
  header : Bytes
  groupId : Bytes
  hsigs : List Bytes
  primaryInputs : List Bytes
  txIdLe : Bytes
  txId : Bytes
  bytes : Bytes
  deriving DecidableEq, Repr

/-- tx/overwinter.py:72-74: the tests when there are joinsplits. -/
def OverwinterTx.checkJs (js : List SproutJoinsplit) (pk sig : Option Bytes) : Py Unit :=
  if js.length ≠ 0 then do
    validateOpt pk 32
    validateOpt sig 64
  else .ok ()

/-- tx/overwinter.py:90-95: the joinsplit part of the serialization. -/
def OverwinterTx.jsPart (js : List SproutJoinsplit) (pk sig : Option Bytes) : Py Bytes := do
  let n ← VarInt.make (js.length : Int)
  if js.length ≠ 0 then do
    let pk ← appendOpt pk
    let sig ← appendOpt sig
    .ok (n.bytes ++ js.flatMap (·.bytes) ++ pk ++ sig)
  else .ok n.bytes

/-- tx/overwinter.py:26-129, `OverwinterTx.__init__`. -/
def OverwinterTx.make (E : Env) (txIns : List TxIn) (txOuts : List TxOut) (lockTime expiryHeight : Bytes)
    (txJoinsplits : List SproutJoinsplit) (joinsplitPubkey joinsplitSig : Option Bytes) : Py OverwinterTx := do
  zcashGate E.net
  check E.net.isOverwinter .valueError
  validateBytes lockTime (some 4)
  validateBytes expiryHeight (some 4)
  check (¬ le2i expiryHeight > 499999999) .valueError
  check (¬ txJoinsplits.length > 5) .valueError
  OverwinterTx.checkJs txJoinsplits joinsplitPubkey joinsplitSig
  check (¬ (txJoinsplits.length = 0 ∧ txIns.length = 0)) .valueError
  let ni ← VarInt.make (txIns.length : Int)
  let no ← VarInt.make (txOuts.length : Int)
  let jsPart ← OverwinterTx.jsPart txJoinsplits joinsplitPubkey joinsplitSig
  let bytes := [0x03, 0x00, 0x00, 0x80] ++ [0x70, 0x82, 0xc4, 0x03] ++ ni.bytes ++ txIns.flatMap (·.bytes) ++ no.bytes
    ++ txOuts.flatMap (·.bytes) ++ lockTime ++ expiryHeight ++ jsPart
  let has := txJoinsplits.length ≠ 0
  let hsigs := if has then txJoinsplits.map fun j => hsig E j.randomSeed j.nullifiers (joinsplitPubkey.getD []) else []
  let primaryInputs := if has then
      List.zipWith (fun j h => primaryInput j.anchor j.nullifiers j.commitments j.vpubOld j.vpubNew h j.vmacs) txJoinsplits hsigs
    else []
  let txIdLe := E.hash256 bytes
  check (¬ bytes.length > 100000) .valueError
  .ok ⟨txIns, txOuts, lockTime, expiryHeight, txJoinsplits, if has then joinsplitPubkey else none, if has then joinsplitSig else none,
    [0x03, 0x00, 0x00, 0x80], [0x70, 0x82, 0xc4, 0x03], hsigs, primaryInputs, txIdLe, changeEndianness txIdLe, bytes⟩

/-- tx/overwinter.py:131-140, `OverwinterTx.calculate_fee`. -/
def OverwinterTx.calculateFee (t : OverwinterTx) (inputValues : List Int) : Int :=
  (t.txJoinsplits.foldl (fun s js => s + (le2i js.vpubNew : Int)) inputValues.sum)
    - (t.txJoinsplits.foldl (fun s js => s + le2i js.vpubOld) (t.txOuts.map fun o => le2i o.value).sum : Nat)

/-- tx/overwinter.py:142-167, `OverwinterTx.copy`. -/
def OverwinterTx.copy (E : Env) (t : OverwinterTx) (txIns : Option (List TxIn) := none) (txOuts : Option (List TxOut) := none)
    (lockTime expiryHeight : Option Bytes := none) (txJoinsplits : Option (List SproutJoinsplit) := none)
    (joinsplitPubkey joinsplitSig : Option Bytes := none) : Py OverwinterTx :=
  OverwinterTx.make E (txIns.getD t.txIns) (txOuts.getD t.txOuts) (lockTime.getD t.lockTime) (expiryHeight.getD t.expiryHeight)
    (txJoinsplits.getD t.txJoinsplits) (joinsplitPubkey.orElse fun _ => t.joinsplitPubkey)
    (joinsplitSig.orElse fun _ => t.joinsplitSig)

/-- The joinsplit part of `from_bytes` (tx/overwinter.py:240-257). The cursor advances by the length of the *outputs'* VarInt. -/
def OverwinterTx.parseJs (net : Network) (b : Bytes) (outsNumLen current : Nat) :
    Py (List SproutJoinsplit × Option Bytes × Option Bytes) :=
  if current = b.length then .ok ([], none, none)
  else do
    let n ← VarInt.fromBytes net (b.drop current)
    let (js, current) ← parseMany (SproutJoinsplit.fromBytes net) (·.bytes.length) b n.number (current + outsNumLen)
    .ok (js, some (slice b current (current + 32)), some (slice b (current + 32) (current + 32 + 64)))

/-- tx/overwinter.py:199-265, `OverwinterTx.from_bytes`. -/
def OverwinterTx.fromBytes (E : Env) (b : Bytes) : Py OverwinterTx := do
  check (¬ (slice b 0 4 ≠ [0x03, 0x00, 0x00, 0x80] ∨ slice b 4 8 ≠ [0x70, 0x82, 0xc4, 0x03])) .valueError
  let p ← parseInsOuts E.net b 8
  let lockTime := slice b p.current (p.current + 4)
  let expiryHeight := slice b (p.current + 4) (p.current + 4 + 4)
  let (js, pk, sig) ← OverwinterTx.parseJs E.net b p.outsNumLen (p.current + 4 + 4)
  OverwinterTx.make E p.txIns p.txOuts lockTime expiryHeight js pk sig

/-- tx/overwinter.py:318-329, `OverwinterTx._hash_prevouts`. -/
def OverwinterTx.hashPrevouts (E : Env) (t : OverwinterTx) (anyoneCanPay : Bool) : Bytes :=
  if anyoneCanPay then List.replicate 32 0
  else E.H.blake2b (ascii (pystr "ZcashPrevoutHash")) (t.txIns.flatMap (·.outpoint.bytes))

/-- tx/overwinter.py:331-342, `OverwinterTx._hash_sequence`. -/
def OverwinterTx.hashSequence (E : Env) (t : OverwinterTx) (sighashType : Nat) (anyoneCanPay : Bool) : Bytes :=
  if anyoneCanPay ∨ sighashType = SIGHASH_SINGLE then List.replicate 32 0
  else E.H.blake2b (ascii (pystr "ZcashSequencHash")) (t.txIns.flatMap (·.sequence))

/-- tx/overwinter.py:344-363, `OverwinterTx._hash_outputs`. -/
def OverwinterTx.hashOutputs (E : Env) (t : OverwinterTx) (sighashType : Nat) (index : Int) : Py Bytes :=
  if ¬ (sighashType = SIGHASH_ALL ∨ sighashType = SIGHASH_SINGLE) then .ok (List.replicate 32 0)
  else if sighashType = SIGHASH_ALL then .ok (E.H.blake2b (ascii (pystr "ZcashOutputsHash")) (t.txOuts.flatMap (·.bytes)))
  else if index > t.txOuts.length then .error .notImplementedError
  else do
    let o ← getItem t.txOuts index
    .ok (E.H.blake2b (ascii (pystr "ZcashOutputsHash")) o.bytes)

/-- tx/overwinter.py:365-379, `OverwinterTx._hash_joinsplits`. -/
def OverwinterTx.hashJoinsplits (E : Env) (t : OverwinterTx) : Py Bytes :=
  if t.txJoinsplits.length = 0 then .ok (List.replicate 32 0)
  else do
    let pk ← appendOpt t.joinsplitPubkey
    .ok (E.H.blake2b (ascii (pystr "ZcashJSplitsHash")) (t.txJoinsplits.flatMap (·.bytes) ++ pk))

/-- tx/overwinter.py:306-310: the part of the preimage about the input being signed. -/
def OverwinterTx.inputPart (t : OverwinterTx) (prevoutValue scriptCode : Bytes) (index : Int) (joinsplit : Bool) : Py Bytes :=
  if ¬ joinsplit then do
    let cur ← getItem t.txIns index
    .ok (cur.outpoint.bytes ++ scriptCode ++ prevoutValue ++ cur.sequence)
  else .ok []

/-- tx/overwinter.py:276-316, `OverwinterTx.sighash`. -/
def OverwinterTx.sighash (E : Env) (t : OverwinterTx) (sighashType : Nat) (prevoutValue scriptCode : Bytes) (index : Int := 0)
    (joinsplit : Bool := false) (anyoneCanPay : Bool := false) : Py Bytes := do
  check (¬ (joinsplit ∧ anyoneCanPay)) .valueError
  zcashGate E.net
  let outs ← t.hashOutputs E sighashType index
  let js ← t.hashJoinsplits E
  let ty ← i2lePadded (if anyoneCanPay then sighashType ||| SIGHASH_ANYONECANPAY else sighashType : Nat) 4
  let inp ← t.inputPart prevoutValue scriptCode index joinsplit
  .ok (E.H.blake2b (ascii (pystr "ZcashSigHash") ++ [0x19, 0x1b, 0xa8, 0x5b])
    (t.header ++ t.groupId ++ t.hashPrevouts E anyoneCanPay ++ t.hashSequence E sighashType anyoneCanPay ++ outs ++ js
      ++ t.lockTime ++ t.expiryHeight ++ ty ++ inp))

/-- tx/overwinter.py:270-271, `OverwinterTx.sighash_all`: `anyone_can_pay` is a named parameter, hence not in `kwargs`. -/
def OverwinterTx.sighashAll (E : Env) (t : OverwinterTx) (prevoutValue scriptCode : Bytes) (index : Int := 0)
    (joinsplit : Bool := false) (_anyoneCanPay : Bool := false) : Py Bytes :=
  t.sighash E SIGHASH_ALL prevoutValue scriptCode index joinsplit

/-- tx/overwinter.py:273-274, `OverwinterTx.sighash_single`. -/
def OverwinterTx.sighashSingle (E : Env) (t : OverwinterTx) (prevoutValue scriptCode : Bytes) (index : Int := 0)
    (joinsplit : Bool := false) (_anyoneCanPay : Bool := false) : Py Bytes :=
  t.sighash E SIGHASH_SINGLE prevoutValue scriptCode index joinsplit

end Verif
