import Verif.Model.Addresses
import Verif.Model.Tx
import Verif.Model.Sighash

/-! # networks/standard.py -/

namespace Verif.Standard

/-- networks/standard.py:7. -/
def MAX_STANDARD_TX_WEIGHT : Nat := 400000
/-- networks/standard.py:8. -/
def MIN_STANDARD_TX_NONWITNESS_SIZE : Nat := 82

/-- `int(c)` of a string of one character (only ASCII occurs in tokens). -/
def intOfChar (c : Char) : Py Nat :=
  if '0' ≤ c ∧ c ≤ '9' then .ok (c.toNat - '0'.toNat) else .error .valueError

/-- The loop of `is_push_only` over the tokens found (networks/standard.py:57-62). -/
def pushOnlyLoop : List PyStr → Py Bool
  | [] => .ok true
  | token :: ts => do
    let op ← codeToIntOrKeyError token
    if op = 79 ∨ op = 80 ∨ op ≥ 97 then .ok false else pushOnlyLoop ts

/-- networks/standard.py:46-62, `is_push_only`. `for t in script` runs over the characters of the text, and `t[0:3]` is the
character itself. -/
def isPushOnly (net : Network) (scriptSig : Bytes) : Py Bool := do
  let script ← deserialize net scriptSig
  let nonDataOpcodes := (script.map fun c => ([c] : PyStr)).filter fun t => slice t 0 3 = pystr "OP_"
  pushOnlyLoop nonDataOpcodes

/-- networks/standard.py:90-106, `is_op_return`. -/
def isOpReturn (net : Network) (o : TxOut) : Py Bool := do
  let script ← deserialize net o.outputScript
  let splitScript := pySplit script
  if le2i o.value = 0 then do
    let first ← getItem splitScript 0
    .ok (first = pystr "OP_RETURN" ∧ script.length < 80)
  else .ok false

/-- The loop over the public keys of a multisig script (networks/standard.py:146-149). -/
def pubkeysOk : List PyStr → Py Bool
  | [] => .ok true
  | p :: ps => do
    let b ← fromHex p
    if b.length = 33 ∨ b.length = 65 then pubkeysOk ps else .ok false

/-- networks/standard.py:130-134: the test for pay-to-pubkey. -/
def isPubkeyScript (splitScript : List PyStr) : Py Bool := do
  let last ← getItem splitScript (-1)
  if last = pystr "OP_CHECKSIG" ∧ splitScript.length = 2 then do
    let second ← getItem splitScript 1
    let b ← fromHex second
    .ok (b.length = 33 ∨ b.length = 65)
  else .ok false

/-- networks/standard.py:140-149: the inside of the multisig test. -/
def multisigOk (splitScript : List PyStr) (n : PyStr) : Py Bool := do
  let c ← getItem n (-1)
  let numPubkeys ← intOfChar c
  let first ← getItem splitScript 0
  let d ← getItem first (-1)
  let numSigs ← intOfChar d
  if numSigs > numPubkeys ∨ splitScript.length ≠ numPubkeys + 3 then .ok false
  else pubkeysOk (dropLastN (splitScript.drop 1) 2)

/-- networks/standard.py:136-152: the test for multisig. -/
def isMultisigScript (splitScript : List PyStr) : Py Bool := do
  let last ← getItem splitScript (-1)
  if last = pystr "OP_CHECKMULTISIG" then do
    let n ← getItem splitScript (-2)
    if n = pystr "OP_1" ∨ n = pystr "OP_2" ∨ n = pystr "OP_3" then multisigOk splitScript n else .ok false
  else .ok false

/-- networks/standard.py:127-152: what follows when `from_output_script` has raised ValueError. -/
def isOtherStandard (net : Network) (script : Bytes) : Py Bool := do
  let text ← deserialize net script
  let splitScript := pySplit text
  let p ← isPubkeyScript splitScript
  if p then .ok true else isMultisigScript splitScript

/-- networks/standard.py:109-152, `is_standard_output_type`. -/
def isStandardOutputType (E : Env) (o : TxOut) : Py Bool :=
  tryCatchPy ((Addresses.fromOutputScript E o.outputScript).map fun _ => true) (· = .valueError) (isOtherStandard E.net o.outputScript)

/-- networks/standard.py:73-81: the loop over the outputs. -/
def outputsOk (E : Env) : List TxOut → Py Bool
  | [] => .ok true
  | o :: os => do
    let s ← isStandardOutputType E o
    if ¬ s then .ok false
    else if le2i o.value < 550 ∧ slice o.outputScript 0 2 ≠ [0x00, 0x14] then .ok false
    else outputsOk E os

/-- networks/standard.py:65-87, `check_is_standard`. The comprehension of line 84 lists one truth value per output. -/
def checkIsStandard (E : Env) (t : Tx) : Py Bool := do
  let ok ← outputsOk E t.txOuts
  if ¬ ok then .ok false
  else do
    let l ← mapPy (isOpReturn E.net) t.txOuts
    .ok (¬ l.length > 1)

/-- networks/standard.py:27-35: one input; any exception is caught. -/
def inputOk (E : Env) (i : TxIn) : Bool :=
  if i.scriptSig.length > 1650 then false
  else match isPushOnly E.net i.scriptSig with
    | .ok b => b
    | .error _ => false

/-- networks/standard.py:11-43, `check_is_standard_tx`. -/
def checkIsStandardTx (E : Env) (t : Tx) : Py Bool := do
  let v ← getItem t.version 0
  if ¬ (v = 1 ∨ v = 2) then .ok false
  else do
    let nw ← t.noWitness
    if nw.length * 3 + t.bytes.length > MAX_STANDARD_TX_WEIGHT then .ok false
    else if t.txIns.all (inputOk E) then checkIsStandard E t
    else .ok false

/-- networks/standard.py:155-162, `check_tx_size_small`. -/
def checkTxSizeSmall (t : Tx) : Py Bool := do
  let nw ← t.noWitness
  .ok (nw.length ≥ MIN_STANDARD_TX_NONWITNESS_SIZE)

/-- networks/standard.py:165-181, `check_final`. -/
def checkFinal (t : Tx) (bestHeight : Int := 0) (bestTimestamp : Int := 0) : Bool :=
  let lock := le2i t.lockTime
  if lock ≥ 500000000 then decide ((lock : Int) ≤ bestTimestamp) else decide ((lock : Int) ≤ bestHeight)

end Verif.Standard
