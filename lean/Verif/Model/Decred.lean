import Verif.Model.Tx
import Verif.Model.Sighash

/-! # tx/decred.py

Arguments are of the annotated types, so the `isinstance` tests are met and not written. `DecredTx` stores the lists it is given;
that a caller later mutates such a list is not modelled. -/

namespace Verif

/-- tx/decred.py:10-15, `DecredByteData.__init__`: the network must be a Decred one. -/
def decredGate (net : Network) : Py Unit := check net.isDecred .valueError

/-! ### DecredOutpoint -/

/-- tx/decred.py:18-39. -/
structure DecredOutpoint where
  txId : Bytes
  index : Bytes
  tree : Bytes
  bytes : Bytes
  deriving DecidableEq, Repr

/-- tx/decred.py:24-39, `DecredOutpoint.__init__`. -/
def DecredOutpoint.make (net : Network) (txId index tree : Bytes) : Py DecredOutpoint := do
  decredGate net
  validateBytes txId (some 32)
  validateBytes index (some 4)
  validateBytes tree (some 1)
  .ok ⟨txId, index, tree, txId ++ index ++ tree⟩

/-- tx/decred.py:41-48, `DecredOutpoint.copy`. -/
def DecredOutpoint.copy (net : Network) (o : DecredOutpoint) (txId index tree : Option Bytes := none) : Py DecredOutpoint :=
  DecredOutpoint.make net (txId.getD o.txId) (index.getD o.index) (tree.getD o.tree)

/-- tx/decred.py:50-55, `DecredOutpoint.from_bytes`. -/
def DecredOutpoint.fromBytes (net : Network) (b : Bytes) : Py DecredOutpoint :=
  DecredOutpoint.make net (slice b 0 32) (slice b 32 36) (slice b 36 37)

/-! ### DecredTxIn -/

/-- tx/decred.py:58-75. -/
structure DecredTxIn where
  outpoint : DecredOutpoint
  sequence : Bytes
  bytes : Bytes
  deriving DecidableEq, Repr

/-- tx/decred.py:63-75, `DecredTxIn.__init__`. -/
def DecredTxIn.make (net : Network) (outpoint : DecredOutpoint) (sequence : Bytes) : Py DecredTxIn := do
  decredGate net
  validateBytes outpoint.bytes (some 37)
  validateBytes sequence (some 4)
  .ok ⟨outpoint, sequence, outpoint.bytes ++ sequence⟩

/-- tx/decred.py:77-82, `DecredTxIn.copy`. -/
def DecredTxIn.copy (net : Network) (t : DecredTxIn) (outpoint : Option DecredOutpoint := none) (sequence : Option Bytes := none) :
    Py DecredTxIn :=
  DecredTxIn.make net (outpoint.getD t.outpoint) (sequence.getD t.sequence)

/-- tx/decred.py:84-88, `DecredTxIn.from_bytes`. -/
def DecredTxIn.fromBytes (net : Network) (b : Bytes) : Py DecredTxIn := do
  let outpoint ← DecredOutpoint.fromBytes net (slice b 0 37)
  DecredTxIn.make net outpoint (slice b 37 41)

/-! ### DecredTxOut -/

/-- tx/decred.py:91-114. -/
structure DecredTxOut where
  value : Bytes
  version : Bytes
  outputScript : Bytes
  outputScriptLen : Nat
  bytes : Bytes
  deriving DecidableEq, Repr

/-- tx/decred.py:97-114, `DecredTxOut.__init__`. -/
def DecredTxOut.make (net : Network) (value version outputScript : Bytes) : Py DecredTxOut := do
  decredGate net
  validateBytes value (some 8)
  validateBytes version (some 2)
  validateBytes outputScript none
  let n ← VarInt.make (outputScript.length : Int)
  .ok ⟨value, version, outputScript, outputScript.length, value ++ version ++ n.bytes ++ outputScript⟩

/-- tx/decred.py:116-124, `DecredTxOut.copy`. -/
def DecredTxOut.copy (net : Network) (o : DecredTxOut) (value version outputScript : Option Bytes := none) : Py DecredTxOut :=
  DecredTxOut.make net (value.getD o.value) (version.getD o.version) (outputScript.getD o.outputScript)

/-- tx/decred.py:126-138, `DecredTxOut.from_bytes`. -/
def DecredTxOut.fromBytes (net : Network) (b : Bytes) : Py DecredTxOut := do
  let n ← VarInt.fromBytes net (b.drop 10)
  let scriptStart := 10 + n.bytes.length
  let scriptEnd := scriptStart + n.number
  if n.number < 0xfc then DecredTxOut.make net (slice b 0 8) (slice b 8 10) (slice b scriptStart scriptEnd)
  else .error .notImplementedError

/-! ### DecredInputWitness -/

/-- tx/decred.py:141-178. -/
structure DecredInputWitness where
  value : Bytes
  height : Bytes
  index : Bytes
  scriptLen : Nat
  stackScript : Bytes
  redeemScript : Bytes
  scriptSig : Bytes
  bytes : Bytes
  deriving DecidableEq, Repr

/-- tx/decred.py:149-178, `DecredInputWitness.__init__`. -/
def DecredInputWitness.make (net : Network) (value height index stackScript redeemScript : Bytes) : Py DecredInputWitness := do
  decredGate net
  validateBytes value (some 8)
  validateBytes height (some 4)
  validateBytes index (some 4)
  validateBytes stackScript none
  validateBytes redeemScript none
  let n ← VarInt.make ((stackScript.length + redeemScript.length : Nat) : Int)
  .ok ⟨value, height, index, (stackScript ++ redeemScript).length, stackScript, redeemScript, stackScript ++ redeemScript,
    value ++ height ++ index ++ n.bytes ++ stackScript ++ redeemScript⟩

/-- tx/decred.py:180-193, `DecredInputWitness.copy`. -/
def DecredInputWitness.copy (net : Network) (w : DecredInputWitness)
    (value height index stackScript redeemScript : Option Bytes := none) : Py DecredInputWitness :=
  DecredInputWitness.make net (value.getD w.value) (height.getD w.height) (index.getD w.index) (stackScript.getD w.stackScript)
    (redeemScript.getD w.redeemScript)

/-- tx/decred.py:195-198, `DecredInputWitness.from_bytes`. -/
def DecredInputWitness.fromBytes (_net : Network) (_b : Bytes) : Py DecredInputWitness := .error .notImplementedError

/-! ### DecredTx -/

/-- tx/decred.py:201-274. -/
structure DecredTx where
  version : Bytes
  txIns : List DecredTxIn
  txOuts : List DecredTxOut
  lockTime : Bytes
  expiry : Bytes
  txWitnesses : List DecredInputWitness
  txIdLe : Bytes
  txId : Bytes
  bytes : Bytes
  deriving DecidableEq, Repr

/-- tx/decred.py:292-304, `DecredTx.prefix`, on the attributes it reads. -/
def DecredTx.prefixOf (net : Network) (version : Bytes) (txIns : List DecredTxIn) (txOuts : List DecredTxOut) (lockTime expiry : Bytes) :
    Py Bytes := do
  decredGate net
  let nIn ← VarInt.make (txIns.length : Int)
  let nOut ← VarInt.make (txOuts.length : Int)
  .ok (slice version 0 2 ++ [0x01, 0x00] ++ nIn.bytes ++ txIns.flatMap (·.bytes) ++ nOut.bytes ++ txOuts.flatMap (·.bytes)
    ++ lockTime ++ expiry)

/-- tx/decred.py:203-274, `DecredTx.__init__`. -/
def DecredTx.make (net : Network) (version : Bytes) (txIns : List DecredTxIn) (txOuts : List DecredTxOut) (lockTime expiry : Bytes)
    (txWitnesses : List DecredInputWitness) : Py DecredTx := do
  decredGate net
  validateBytes version (some 4)
  validateBytes lockTime (some 4)
  validateBytes expiry (some 4)
  check (¬ min txIns.length txOuts.length = 0) .valueError
  let nIn ← VarInt.make (txIns.length : Int)
  let nOut ← VarInt.make (txOuts.length : Int)
  let nWit ← VarInt.make (txWitnesses.length : Int)
  let bytes := version ++ nIn.bytes ++ txIns.flatMap (·.bytes) ++ nOut.bytes ++ txOuts.flatMap (·.bytes) ++ lockTime ++ expiry
    ++ nWit.bytes ++ txWitnesses.flatMap (·.bytes)
  check (¬ bytes.length > 100000) .valueError
  let pre ← DecredTx.prefixOf net version txIns txOuts lockTime expiry
  .ok ⟨version, txIns, txOuts, lockTime, expiry, txWitnesses, blake256 pre, changeEndianness (blake256 pre), bytes⟩

/-- tx/decred.py:276-278, `DecredTx.from_bytes`. -/
def DecredTx.fromBytes (_net : Network) (_b : Bytes) : Py DecredTx := .error .notImplementedError

/-- tx/decred.py:292-304, `DecredTx.prefix`. -/
def DecredTx.prefix (net : Network) (t : DecredTx) : Py Bytes :=
  DecredTx.prefixOf net t.version t.txIns t.txOuts t.lockTime t.expiry

/-- tx/decred.py:280-284, `DecredTx.prefix_hash` after construction: the attribute is there. -/
def DecredTx.prefixHash (t : DecredTx) : Bytes := t.txIdLe

/-- tx/decred.py:306-313, `DecredTx.witness`. -/
def DecredTx.witness (net : Network) (t : DecredTx) : Py Bytes := do
  decredGate net
  let n ← VarInt.make (t.txWitnesses.length : Int)
  .ok (slice t.version 0 2 ++ [0x02, 0x00] ++ n.bytes ++ t.txWitnesses.flatMap (·.bytes))

/-- tx/decred.py:320-322: one turn of the loop in `witness_signing`. -/
def DecredTx.signingPart (w : DecredInputWitness) : Py Bytes := do
  let n ← VarInt.make (w.scriptLen : Int)
  .ok (n.bytes ++ w.scriptSig)

/-- tx/decred.py:315-323, `DecredTx.witness_signing`. -/
def DecredTx.witnessSigning (net : Network) (t : DecredTx) : Py Bytes := do
  decredGate net
  let n ← VarInt.make (t.txWitnesses.length : Int)
  let parts ← mapPy DecredTx.signingPart t.txWitnesses
  .ok (slice t.version 0 2 ++ [0x03, 0x00] ++ n.bytes ++ parts.flatten)

/-- tx/decred.py:286-287, `DecredTx.witness_hash`. -/
def DecredTx.witnessHash (net : Network) (t : DecredTx) : Py Bytes := do
  let w ← t.witness net
  .ok (blake256 w)

/-- tx/decred.py:289-290, `DecredTx.witness_signing_hash`. -/
def DecredTx.witnessSigningHash (net : Network) (t : DecredTx) : Py Bytes := do
  let w ← t.witnessSigning net
  .ok (blake256 w)

/-- tx/decred.py:325-328, `DecredTx.calculate_fee`. -/
def DecredTx.calculateFee (t : DecredTx) : Int :=
  ((t.txWitnesses.map fun w => le2i w.value).sum : Nat) - ((t.txOuts.map fun o => le2i o.value).sum : Nat)

/-- tx/decred.py:330-340, `DecredTx.copy`. -/
def DecredTx.copy (net : Network) (t : DecredTx) (version : Option Bytes := none) (txIns : Option (List DecredTxIn) := none)
    (txOuts : Option (List DecredTxOut) := none) (lockTime expiry : Option Bytes := none)
    (txWitnesses : Option (List DecredInputWitness) := none) : Py DecredTx :=
  DecredTx.make net (version.getD t.version) (txIns.getD t.txIns) (txOuts.getD t.txOuts) (lockTime.getD t.lockTime)
    (expiry.getD t.expiry) (txWitnesses.getD t.txWitnesses)

/-- tx/decred.py:342-343, `DecredTx.sighash_none`. -/
def DecredTx.sighashNone (_t : DecredTx) : Py Bytes := .error .notImplementedError

/-- tx/decred.py:345-354, `DecredTx._sighash_prep`. -/
def DecredTx.sighashPrep (net : Network) (t : DecredTx) (index : Int) (script : Option Bytes) : Py DecredTx := do
  let ws ← mapPy (fun w => w.copy net (stackScript := some []) (redeemScript := some [])) t.txWitnesses
  let cur ← getItem ws index
  let cur ← cur.copy net (stackScript := script) (redeemScript := some [])
  let ws ← setItem ws index cur
  t.copy net (txWitnesses := some ws)

/-- tx/decred.py:431-440, `DecredTx._sighash_final_hashing`. -/
def DecredTx.sighashFinalHashing (net : Network) (copyTx : DecredTx) (sighashType : Nat) : Py Bytes := do
  decredGate net
  let ty ← i2lePadded sighashType 4
  let ws ← copyTx.witnessSigningHash net
  .ok (blake256 (ty ++ copyTx.prefixHash ++ ws))

/-- tx/decred.py:416-429, `DecredTx._sighash_anyone_can_pay`. -/
def DecredTx.sighashAnyoneCanPay (net : Network) (index : Int) (copyTx : DecredTx) (sighashType : Nat) : Py Bytes := do
  let ws ← mapPy (fun w => w.copy net (stackScript := some []) (redeemScript := some [])) copyTx.txWitnesses
  let cur ← getItem copyTx.txWitnesses index
  let ws ← setItem ws index cur
  let copyTx ← copyTx.copy net (txWitnesses := some ws)
  DecredTx.sighashFinalHashing net copyTx (sighashType ||| SIGHASH_ANYONECANPAY)

/-- tx/decred.py:395-414, `DecredTx.sighash_all`. -/
def DecredTx.sighashAll (net : Network) (t : DecredTx) (index : Int) (script : Option Bytes := none) (anyoneCanPay : Bool := false) :
    Py Bytes := do
  let copyTx ← t.sighashPrep net index script
  if anyoneCanPay then DecredTx.sighashAnyoneCanPay net index copyTx SIGHASH_ALL
  else DecredTx.sighashFinalHashing net copyTx SIGHASH_ALL

/-- tx/decred.py:367-377: the outputs of the copy for SINGLE; any IndexError becomes NotImplementedError. -/
def DecredTx.singleOuts (net : Network) (copyTx : DecredTx) (index : Int) : Py (List DecredTxOut) :=
  tryCatchPy (do
    let outs ← mapPy (fun _ => DecredTxOut.make net (List.replicate 8 0xff) [0, 0] []) copyTx.txIns
    let cur ← getItem copyTx.txOuts index
    setItem outs index cur) (fun e => e == .indexError) (.error .notImplementedError)

/-- tx/decred.py:356-393, `DecredTx.sighash_single`. -/
def DecredTx.sighashSingle (net : Network) (t : DecredTx) (index : Int) (script : Option Bytes := none) (anyoneCanPay : Bool := false) :
    Py Bytes := do
  let copyTx ← t.sighashPrep net index script
  let outs ← DecredTx.singleOuts net copyTx index
  let ins ← mapPy (fun i => i.copy net (sequence := some [0, 0, 0, 0])) copyTx.txIns
  let cur ← getItem copyTx.txIns index
  let ins ← setItem ins index cur
  let copyTx ← copyTx.copy net (txIns := some ins) (txOuts := some outs)
  if anyoneCanPay then DecredTx.sighashAnyoneCanPay net index copyTx SIGHASH_SINGLE
  else DecredTx.sighashFinalHashing net copyTx SIGHASH_SINGLE

end Verif
