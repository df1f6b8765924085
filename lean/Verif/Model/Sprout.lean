import Verif.Model.Zcash

/-! # tx/sprout.py: SproutTx -/

namespace Verif

/-- tx/sprout.py:10-22. -/
structure SproutTx where
  version : Bytes
  txIns : List TxIn
  txOuts : List TxOut
  lockTime : Bytes
  txJoinsplits : List SproutJoinsplit
  joinsplitPubkey : Option Bytes
  joinsplitSig : Option Bytes
  hsigs : List Bytes
  primaryInputs : List Bytes
  txIdLe : Bytes
  txId : Bytes
  bytes : Bytes
  deriving DecidableEq, Repr

/-- tx/sprout.py:57-61: the tests for version 1. -/
def SproutTx.checkV1 (version : Bytes) (txIns : List TxIn) (txJoinsplits : Option (List SproutJoinsplit)) : Py Unit :=
  if le2i version = 1 then do
    check (¬ ((txJoinsplits.getD []).length ≠ 0)) .valueError
    check (txIns.length ≠ 0) .valueError
  else .ok ()

/-- tx/sprout.py:73-74: the signature may be absent or empty. -/
def SproutTx.checkSig (joinsplitSig : Option Bytes) : Py Unit :=
  match joinsplitSig with
  | some s => if s ≠ [] then validateBytes s (some 64) else .ok ()
  | none => .ok ()

/-- tx/sprout.py:63-74: the tests for version 2. `len(None)` is a TypeError. -/
def SproutTx.checkV2 (version : Bytes) (txJoinsplits : Option (List SproutJoinsplit)) (joinsplitPubkey joinsplitSig : Option Bytes) :
    Py Unit :=
  if le2i version = 2 then
    match txJoinsplits with
    | none => .error .typeError
    | some js => do
      check (¬ js.length > 5) .valueError
      validateOpt joinsplitPubkey 32
      SproutTx.checkSig joinsplitSig
  else .ok ()

/-- tx/sprout.py:89-94: the joinsplit part of the serialization. -/
def SproutTx.jsPart (version : Bytes) (txJoinsplits : Option (List SproutJoinsplit)) (joinsplitPubkey joinsplitSig : Option Bytes) :
    Py Bytes := do
  let two ← i2lePadded 2 4
  if version = two then do
    let js := txJoinsplits.getD []
    let n ← VarInt.make (js.length : Int)
    let pk ← appendOpt joinsplitPubkey
    let sig ← appendOpt joinsplitSig
    .ok (n.bytes ++ js.flatMap (·.bytes) ++ pk ++ sig)
  else .ok []

/-- tx/sprout.py:99, `tuple(js for js in tx_joinsplits)`: a TypeError for `None`. -/
def SproutTx.jsTuple (txJoinsplits : Option (List SproutJoinsplit)) : Py (List SproutJoinsplit) :=
  match txJoinsplits with
  | some js => .ok js
  | none => .error .typeError

/-- tx/sprout.py:24-124, `SproutTx.__init__`. -/
def SproutTx.make (E : Env) (version : Bytes) (txIns : List TxIn) (txOuts : List TxOut) (lockTime : Bytes)
    (txJoinsplits : Option (List SproutJoinsplit)) (joinsplitPubkey joinsplitSig : Option Bytes) : Py SproutTx := do
  zcashGate E.net
  check E.net.isSprout .valueError
  validateBytes version (some 4)
  validateBytes lockTime (some 4)
  SproutTx.checkV1 version txIns txJoinsplits
  SproutTx.checkV2 version txJoinsplits joinsplitPubkey joinsplitSig
  check (le2i version = 1 ∨ le2i version = 2) .valueError
  let ni ← VarInt.make (txIns.length : Int)
  let no ← VarInt.make (txOuts.length : Int)
  let jsPart ← SproutTx.jsPart version txJoinsplits joinsplitPubkey joinsplitSig
  let bytes := version ++ ni.bytes ++ txIns.flatMap (·.bytes) ++ no.bytes ++ txOuts.flatMap (·.bytes) ++ lockTime ++ jsPart
  let js ← SproutTx.jsTuple txJoinsplits
  let two ← i2lePadded 2 4
  let isV2 := version = two
  let hsigs := if isV2 then js.map fun j => hsig E j.randomSeed j.nullifiers (joinsplitPubkey.getD []) else []
  let primaryInputs := if isV2 then
      List.zipWith (fun j h => primaryInput j.anchor j.nullifiers j.commitments j.vpubOld j.vpubNew h j.vmacs) js hsigs
    else []
  let txIdLe := E.hash256 bytes
  check (¬ bytes.length > 100000) .valueError
  .ok ⟨version, txIns, txOuts, lockTime, js, if isV2 then joinsplitPubkey else none, if isV2 then joinsplitSig else none,
    hsigs, primaryInputs, txIdLe, changeEndianness (E.hash256 bytes), bytes⟩

/-- The joinsplit part of `from_bytes` (tx/sprout.py:186-198). -/
def SproutTx.parseJs (net : Network) (b version : Bytes) (current : Nat) :
    Py (Option (List SproutJoinsplit) × Option Bytes × Option Bytes) :=
  if le2i version = 2 then do
    let n ← VarInt.fromBytes net (b.drop current)
    let (js, current) ← parseMany (SproutJoinsplit.fromBytes net) (·.bytes.length) b n.number (current + n.bytes.length)
    .ok (some js, some (slice b current (current + 32)), some (slice b (current + 32) (current + 32 + 64)))
  else .ok (none, none, none)

/-- tx/sprout.py:156-206, `SproutTx.from_bytes`. -/
def SproutTx.fromBytes (E : Env) (b : Bytes) : Py SproutTx := do
  let version := slice b 0 4
  let p ← parseInsOuts E.net b 4
  let lockTime := slice b p.current (p.current + 4)
  let (js, pk, sig) ← SproutTx.parseJs E.net b version (p.current + 4)
  SproutTx.make E version p.txIns p.txOuts lockTime js pk sig

/-- tx/sprout.py:208-217, `SproutTx.calculate_fee`. -/
def SproutTx.calculateFee (t : SproutTx) (inputValues : List Int) : Int :=
  (t.txJoinsplits.foldl (fun s js => s + (le2i js.vpubNew : Int)) inputValues.sum)
    - (t.txJoinsplits.foldl (fun s js => s + le2i js.vpubOld) (t.txOuts.map fun o => le2i o.value).sum : Nat)

/-- tx/sprout.py:219-243, `SproutTx.copy`. -/
def SproutTx.copy (E : Env) (t : SproutTx) (version : Option Bytes := none) (txIns : Option (List TxIn) := none)
    (txOuts : Option (List TxOut) := none) (lockTime : Option Bytes := none) (txJoinsplits : Option (List SproutJoinsplit) := none)
    (joinsplitPubkey joinsplitSig : Option Bytes := none) : Py SproutTx :=
  SproutTx.make E (version.getD t.version) (txIns.getD t.txIns) (txOuts.getD t.txOuts) (lockTime.getD t.lockTime)
    (some (txJoinsplits.getD t.txJoinsplits)) (joinsplitPubkey.orElse fun _ => t.joinsplitPubkey)
    (joinsplitSig.orElse fun _ => t.joinsplitSig)

/-- tx/sprout.py:245-267, `SproutTx._sighash_prep`. -/
def SproutTx.sighashPrep (E : Env) (t : SproutTx) (index : Int) (script : Bytes) : Py SproutTx :=
  if t.txIns.length = 0 then t.copy E (joinsplitSig := some [])
  else do
    let copyTxIns ← mapPy (fun i => i.copy (stackScript := some []) (redeemScript := some [])) t.txIns
    let toStrip ← VarInt.fromBytes E.net script
    let cur ← getItem copyTxIns index
    let cur ← cur.copy (redeemScript := some (script.drop toStrip.bytes.length))
    let copyTxIns ← setItem copyTxIns index cur
    t.copy E (txIns := some copyTxIns) (joinsplitSig := some [])

/-- tx/sprout.py:355-367, `SproutTx._sighash_final_hashing`. -/
def SproutTx.sighashFinalHashing (E : Env) (copyTx : SproutTx) (sighashType : Nat) : Py Bytes := do
  zcashGate E.net
  let ty ← i2lePadded sighashType 4
  .ok (E.hash256 (copyTx.bytes ++ ty))

/-- `self.tx_joinsplits is not None` (tx/sprout.py:300, 345): the constructor always assigns a tuple (line 99). -/
def SproutTx.joinsplitsNotNone (_t : SproutTx) : Bool := true

/-- tx/sprout.py:331-353, `SproutTx._sighash_anyone_can_pay`. -/
def SproutTx.sighashAnyoneCanPay (E : Env) (t : SproutTx) (index : Int) (copyTx : SproutTx) (sighashType : Nat) : Py Bytes :=
  if t.joinsplitsNotNone then .error .valueError
  else do
    let cur ← getItem copyTx.txIns index
    let copyTx ← copyTx.copy E (txIns := some [cur])
    SproutTx.sighashFinalHashing E copyTx (sighashType ||| SIGHASH_ANYONECANPAY)

/-- tx/sprout.py:269-285, `SproutTx.sighash_all`. -/
def SproutTx.sighashAll (E : Env) (t : SproutTx) (index : Int) (script : Bytes) (anyoneCanPay : Bool := false) : Py Bytes := do
  let copyTx ← t.sighashPrep E index script
  if anyoneCanPay then t.sighashAnyoneCanPay E index copyTx SIGHASH_ALL
  else SproutTx.sighashFinalHashing E copyTx SIGHASH_ALL

/-- tx/sprout.py:307-329: `sighash_single` after its tests. -/
def SproutTx.sighashSingle' (E : Env) (t : SproutTx) (index : Int) (script : Bytes) (anyoneCanPay : Bool) : Py Bytes := do
  let copyTx ← t.sighashPrep E index script
  let copyTxOuts ← mapPy (fun _ => TxOut.make (List.replicate 8 0xff) []) copyTx.txIns
  let curOut ← getItem copyTx.txOuts index
  let copyTxOuts ← setItem copyTxOuts index curOut
  let copyTxIns ← mapPy (fun i => i.copy (sequence := some [0, 0, 0, 0])) copyTx.txIns
  let curIn ← getItem copyTx.txIns index
  let copyTxIns ← setItem copyTxIns index curIn
  let copyTx ← copyTx.copy E (txIns := some copyTxIns) (txOuts := some copyTxOuts)
  if anyoneCanPay then t.sighashAnyoneCanPay E index copyTx SIGHASH_SINGLE
  else SproutTx.sighashFinalHashing E copyTx SIGHASH_SINGLE

/-- tx/sprout.py:287-329, `SproutTx.sighash_single`. -/
def SproutTx.sighashSingle (E : Env) (t : SproutTx) (index : Int) (script : Bytes) (anyoneCanPay : Bool := false) : Py Bytes :=
  if t.joinsplitsNotNone then .error .valueError
  else if index ≥ t.txOuts.length then .error .notImplementedError
  else t.sighashSingle' E index script anyoneCanPay

end Verif
