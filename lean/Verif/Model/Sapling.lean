import Verif.Model.Zcash

/-! # tx/sapling.py: SaplingTx -/

namespace Verif

/-- tx/sapling.py:240-256. -/
structure SaplingTx where
  txIns : List TxIn
  txOuts : List TxOut
  lockTime : Bytes
  expiryHeight : Bytes
  valueBalance : Bytes
  txShieldedSpends : List SaplingShieldedSpend
  txShieldedOutputs : List SaplingShieldedOutput
  txJoinsplits : List SaplingJoinsplit
  joinsplitPubkey : Option Bytes
  joinsplitSig : Option Bytes
  bindingSig : Option Bytes
  header : Bytes
  groupId : Bytes
  hsigs : List Bytes
  primaryInputs : List Bytes
  txIdLe : Bytes
  txId : Bytes
  bytes : Bytes
  deriving DecidableEq, Repr

/-- tx/sapling.py:287-294: without shielded parts the balance is zero; otherwise a given binding signature has 64 bytes (also
tested when the balance is zero). -/
def SaplingTx.checkBalance (valueBalance : Bytes) (nSpends nOutputs : Nat) (bindingSig : Option Bytes) : Py Unit :=
  if nSpends + nOutputs = 0 ∧ valueBalance ≠ List.replicate 8 0 then .error .valueError
  else match bindingSig with
    | some s => validateBytes s (some 64)
    | none => .ok ()

/-- tx/sapling.py:334-336. -/
def SaplingTx.checkJs (js : List SaplingJoinsplit) (pk sig : Option Bytes) : Py Unit :=
  if js.length ≠ 0 then do
    validateOpt pk 32
    validateOpt sig 64
  else .ok ()

/-- tx/sapling.py:363-368. -/
def SaplingTx.jsPart (js : List SaplingJoinsplit) (pk sig : Option Bytes) : Py Bytes := do
  let n ← VarInt.make (js.length : Int)
  if js.length ≠ 0 then do
    let pk ← appendOpt pk
    let sig ← appendOpt sig
    .ok (n.bytes ++ js.flatMap (·.bytes) ++ pk ++ sig)
  else .ok n.bytes

/-- tx/sapling.py:370-374: the binding signature, last in the serialization. -/
def SaplingTx.bindingPart (nSpends nOutputs : Nat) (bindingSig : Option Bytes) : Py Bytes :=
  if nOutputs + nSpends ≠ 0 then appendOpt bindingSig else .ok []

/-- tx/sapling.py:258-416, `SaplingTx.__init__`. -/
def SaplingTx.make (E : Env) (txIns : List TxIn) (txOuts : List TxOut) (lockTime expiryHeight valueBalance : Bytes)
    (txShieldedSpends : List SaplingShieldedSpend) (txShieldedOutputs : List SaplingShieldedOutput)
    (txJoinsplits : List SaplingJoinsplit) (joinsplitPubkey joinsplitSig bindingSig : Option Bytes) : Py SaplingTx := do
  zcashGate E.net
  check E.net.isSapling .valueError
  validateBytes lockTime (some 4)
  validateBytes expiryHeight (some 4)
  validateBytes valueBalance (some 8)
  check (¬ le2i expiryHeight > 499999999) .valueError
  SaplingTx.checkBalance valueBalance txShieldedSpends.length txShieldedOutputs.length bindingSig
  check (¬ txJoinsplits.length > 5) .valueError
  SaplingTx.checkJs txJoinsplits joinsplitPubkey joinsplitSig
  check (txJoinsplits.length + txIns.length + txShieldedSpends.length ≠ 0) .valueError
  let ni ← VarInt.make (txIns.length : Int)
  let no ← VarInt.make (txOuts.length : Int)
  let ns ← VarInt.make (txShieldedSpends.length : Int)
  let nso ← VarInt.make (txShieldedOutputs.length : Int)
  let jsPart ← SaplingTx.jsPart txJoinsplits joinsplitPubkey joinsplitSig
  let bindingPart ← SaplingTx.bindingPart txShieldedSpends.length txShieldedOutputs.length bindingSig
  let bytes := [0x04, 0x00, 0x00, 0x80] ++ [0x85, 0x20, 0x2f, 0x89] ++ ni.bytes ++ txIns.flatMap (·.bytes) ++ no.bytes
    ++ txOuts.flatMap (·.bytes) ++ lockTime ++ expiryHeight ++ valueBalance
    ++ ns.bytes ++ txShieldedSpends.flatMap (·.bytes) ++ nso.bytes ++ txShieldedOutputs.flatMap (·.bytes) ++ jsPart ++ bindingPart
  let has := txJoinsplits.length ≠ 0
  let hsigs := if has then txJoinsplits.map fun j => hsig E j.randomSeed j.nullifiers (joinsplitPubkey.getD []) else []
  let primaryInputs := if has then
      List.zipWith (fun j h => primaryInput j.anchor j.nullifiers j.commitments j.vpubOld j.vpubNew h j.vmacs) txJoinsplits hsigs
    else []
  let txIdLe := E.hash256 bytes
  check (¬ bytes.length > 100000) .valueError
  .ok ⟨txIns, txOuts, lockTime, expiryHeight, valueBalance, txShieldedSpends, txShieldedOutputs, txJoinsplits,
    if has then joinsplitPubkey else none, if has then joinsplitSig else none,
    if txShieldedOutputs.length + txShieldedSpends.length ≠ 0 then bindingSig else none,
    [0x04, 0x00, 0x00, 0x80], [0x85, 0x20, 0x2f, 0x89], hsigs, primaryInputs, txIdLe, changeEndianness txIdLe, bytes⟩

/-- tx/sapling.py:418-428, `SaplingTx.calculate_fee`. -/
def SaplingTx.calculateFee (t : SaplingTx) (inputValues : List Int) : Int :=
  (t.txJoinsplits.foldl (fun s js => s + (le2i js.vpubNew : Int)) inputValues.sum)
    - (t.txJoinsplits.foldl (fun s js => s + le2i js.vpubOld) (t.txOuts.map fun o => le2i o.value).sum : Nat)
    + le2iSigned t.valueBalance

/-- tx/sapling.py:430-471, `SaplingTx.copy`. -/
def SaplingTx.copy (E : Env) (t : SaplingTx) (txIns : Option (List TxIn) := none) (txOuts : Option (List TxOut) := none)
    (lockTime expiryHeight valueBalance : Option Bytes := none) (txShieldedSpends : Option (List SaplingShieldedSpend) := none)
    (txShieldedOutputs : Option (List SaplingShieldedOutput) := none) (txJoinsplits : Option (List SaplingJoinsplit) := none)
    (joinsplitPubkey joinsplitSig bindingSig : Option Bytes := none) : Py SaplingTx :=
  SaplingTx.make E (txIns.getD t.txIns) (txOuts.getD t.txOuts) (lockTime.getD t.lockTime) (expiryHeight.getD t.expiryHeight)
    (valueBalance.getD t.valueBalance) (txShieldedSpends.getD t.txShieldedSpends) (txShieldedOutputs.getD t.txShieldedOutputs)
    (txJoinsplits.getD t.txJoinsplits) (joinsplitPubkey.orElse fun _ => t.joinsplitPubkey)
    (joinsplitSig.orElse fun _ => t.joinsplitSig) (bindingSig.orElse fun _ => t.bindingSig)

/-- What the end of `from_bytes` computes. -/
structure SaplingTx.Rest where
  spends : List SaplingShieldedSpend
  outputs : List SaplingShieldedOutput
  js : List SaplingJoinsplit
  pk : Option Bytes
  sig : Option Bytes
  binding : Option Bytes

/-- The shielded and joinsplit parts of `from_bytes` (tx/sapling.py:546-588). After the joinsplits' VarInt the cursor advances by the
length of the *outputs'* VarInt. -/
def SaplingTx.parseRest (net : Network) (b : Bytes) (outsNumLen current : Nat) : Py SaplingTx.Rest := do
  let ns ← VarInt.fromBytes net (b.drop current)
  let (spends, current) ← parseMany (SaplingShieldedSpend.fromBytes net) (·.bytes.length) b ns.number (current + ns.bytes.length)
  let nso ← VarInt.fromBytes net (b.drop current)
  let (outputs, current) ← parseMany (SaplingShieldedOutput.fromBytes net) (·.bytes.length) b nso.number (current + nso.bytes.length)
  let nj ← VarInt.fromBytes net (b.drop current)
  let (js, current) ← parseMany (SaplingJoinsplit.fromBytes net) (·.bytes.length) b nj.number (current + outsNumLen)
  let pk := if js.length > 0 then some (slice b current (current + 32)) else none
  let sig := if js.length > 0 then some (slice b (current + 32) (current + 32 + 64)) else none
  let current := if js.length > 0 then current + 32 + 64 else current
  let binding := if spends.length + outputs.length > 0 then some (slice b current (current + 64)) else none
  .ok ⟨spends, outputs, js, pk, sig, binding⟩

/-- tx/sapling.py:503-600, `SaplingTx.from_bytes`. -/
def SaplingTx.fromBytes (E : Env) (b : Bytes) : Py SaplingTx := do
  check (¬ (slice b 0 4 ≠ [0x04, 0x00, 0x00, 0x80] ∨ slice b 4 8 ≠ [0x85, 0x20, 0x2f, 0x89])) .valueError
  let p ← parseInsOuts E.net b 8
  let lockTime := slice b p.current (p.current + 4)
  let expiryHeight := slice b (p.current + 4) (p.current + 4 + 4)
  let valueBalance := slice b (p.current + 4 + 4) (p.current + 4 + 4 + 8)
  let r ← SaplingTx.parseRest E.net b p.outsNumLen (p.current + 4 + 4 + 8)
  SaplingTx.make E p.txIns p.txOuts lockTime expiryHeight valueBalance r.spends r.outputs r.js r.pk r.sig r.binding

/-- tx/sapling.py:657-667, `SaplingTx._hash_prevouts`. -/
def SaplingTx.hashPrevouts (E : Env) (t : SaplingTx) (anyoneCanPay : Bool) : Bytes :=
  if anyoneCanPay then List.replicate 32 0
  else E.H.blake2b (ascii (pystr "ZcashPrevoutHash")) (t.txIns.flatMap (·.outpoint.bytes))

/-- tx/sapling.py:669-680, `SaplingTx._hash_sequence`. -/
def SaplingTx.hashSequence (E : Env) (t : SaplingTx) (sighashType : Nat) (anyoneCanPay : Bool) : Bytes :=
  if anyoneCanPay ∨ sighashType = SIGHASH_SINGLE then List.replicate 32 0
  else E.H.blake2b (ascii (pystr "ZcashSequencHash")) (t.txIns.flatMap (·.sequence))

/-- tx/sapling.py:682-701, `SaplingTx._hash_outputs`. -/
def SaplingTx.hashOutputs (E : Env) (t : SaplingTx) (sighashType : Nat) (index : Int) : Py Bytes :=
  if ¬ (sighashType = SIGHASH_ALL ∨ sighashType = SIGHASH_SINGLE) then .ok (List.replicate 32 0)
  else if sighashType = SIGHASH_ALL then .ok (E.H.blake2b (ascii (pystr "ZcashOutputsHash")) (t.txOuts.flatMap (·.bytes)))
  else if index > t.txOuts.length then .error .notImplementedError
  else do
    let o ← getItem t.txOuts index
    .ok (E.H.blake2b (ascii (pystr "ZcashOutputsHash")) o.bytes)

/-- tx/sapling.py:703-717, `SaplingTx._hash_joinsplits`. -/
def SaplingTx.hashJoinsplits (E : Env) (t : SaplingTx) : Py Bytes :=
  if t.txJoinsplits.length = 0 then .ok (List.replicate 32 0)
  else do
    let pk ← appendOpt t.joinsplitPubkey
    .ok (E.H.blake2b (ascii (pystr "ZcashJSplitsHash")) (t.txJoinsplits.flatMap (·.bytes) ++ pk))

/-- tx/sapling.py:719-731, `SaplingTx._hash_shielded_spends`. -/
def SaplingTx.hashShieldedSpends (E : Env) (t : SaplingTx) : Bytes :=
  if t.txShieldedSpends.length = 0 then List.replicate 32 0
  else E.H.blake2b (ascii (pystr "ZcashSSpendsHash")) (t.txShieldedSpends.flatMap fun s => s.bytes.take 320)

/-- tx/sapling.py:733-745, `SaplingTx._hash_shielded_outputs`. -/
def SaplingTx.hashShieldedOutputs (E : Env) (t : SaplingTx) : Bytes :=
  if t.txShieldedOutputs.length = 0 then List.replicate 32 0
  else E.H.blake2b (ascii (pystr "ZcashSOutputHash")) (t.txShieldedOutputs.flatMap (·.bytes))

/-- tx/sapling.py:645-649: the part of the preimage about the input being signed. -/
def SaplingTx.inputPart (t : SaplingTx) (prevoutValue : Bytes) (scriptCode : Option Bytes) (index : Int) (joinsplit : Bool) : Py Bytes :=
  if ¬ joinsplit then do
    let cur ← getItem t.txIns index
    let code ← appendOpt scriptCode
    .ok (cur.outpoint.bytes ++ code ++ prevoutValue ++ cur.sequence)
  else .ok []

/-- tx/sapling.py:611-655, `SaplingTx.sighash`. -/
def SaplingTx.sighash (E : Env) (t : SaplingTx) (sighashType : Nat) (prevoutValue : Bytes) (index : Int := 0)
    (joinsplit : Bool := false) (scriptCode : Option Bytes := none) (anyoneCanPay : Bool := false) : Py Bytes := do
  check (¬ (joinsplit ∧ anyoneCanPay)) .valueError
  zcashGate E.net
  let outs ← t.hashOutputs E sighashType index
  let js ← t.hashJoinsplits E
  let ty ← i2lePadded (if anyoneCanPay then sighashType ||| SIGHASH_ANYONECANPAY else sighashType : Nat) 4
  let inp ← t.inputPart prevoutValue scriptCode index joinsplit
  .ok (E.H.blake2b (ascii (pystr "ZcashSigHash") ++ [0xbb, 0x09, 0xb8, 0x76])
    (t.header ++ t.groupId ++ t.hashPrevouts E anyoneCanPay ++ t.hashSequence E sighashType anyoneCanPay ++ outs ++ js
      ++ t.hashShieldedSpends E ++ t.hashShieldedOutputs E
      ++ t.lockTime ++ t.expiryHeight ++ t.valueBalance ++ ty ++ inp))

/-- tx/sapling.py:605-606, `SaplingTx.sighash_all`: `anyone_can_pay` is a named parameter, hence not in `kwargs`. -/
def SaplingTx.sighashAll (E : Env) (t : SaplingTx) (prevoutValue : Bytes) (index : Int := 0) (joinsplit : Bool := false)
    (scriptCode : Option Bytes := none) (_anyoneCanPay : Bool := false) : Py Bytes :=
  t.sighash E SIGHASH_ALL prevoutValue index joinsplit scriptCode

/-- tx/sapling.py:608-609, `SaplingTx.sighash_single`. -/
def SaplingTx.sighashSingle (E : Env) (t : SaplingTx) (prevoutValue : Bytes) (index : Int := 0) (joinsplit : Bool := false)
    (scriptCode : Option Bytes := none) (_anyoneCanPay : Bool := false) : Py Bytes :=
  t.sighash E SIGHASH_SINGLE prevoutValue index joinsplit scriptCode

end Verif
