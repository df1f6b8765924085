import Verif.Model.Addresses
import Verif.Model.Sprout
import Verif.Model.Overwinter
import Verif.Model.Sapling
import Verif.Model.Decred

/-! # tx/tx_builder.py (the output scripts are in `Model/Addresses`) and simple.py

Python returns an object of the current network's class: the result types below are sums of the classes. Inputs and outputs
passed to these functions are of the classes of the current network; other arguments have the annotated types. A parameter whose
default is `None` is an `Option`. -/

namespace Verif

/-- The result of `make_outpoint`. -/
inductive AnyOutpoint where
  | std (o : Outpoint)
  | decred (o : DecredOutpoint)
  deriving DecidableEq, Repr

/-- The result of `make_legacy_input` and `make_witness_input`. -/
inductive AnyTxIn where
  | std (t : TxIn)
  | decred (t : DecredTxIn)
  deriving DecidableEq, Repr

/-- The result of `_make_output`. -/
inductive AnyTxOut where
  | std (o : TxOut)
  | decred (o : DecredTxOut)
  deriving DecidableEq, Repr

/-- The result of `make_tx`. -/
inductive AnyTx where
  | std (t : Tx)
  | decred (t : DecredTx)
  | sprout (t : SproutTx)
  | overwinter (t : OverwinterTx)
  | sapling (t : SaplingTx)
  deriving DecidableEq, Repr

/-- The argument `tx_joinsplits`. -/
inductive Joinsplits where
  | sprout (js : List SproutJoinsplit)
  | sapling (js : List SaplingJoinsplit)
  deriving DecidableEq, Repr

/-- The argument `tx_witnesses` on Decred. `one` is a witness not put in a list (against the annotation). -/
inductive DecredWits where
  | absent
  | list (ws : List DecredInputWitness)
  | one (w : DecredInputWitness)
  deriving DecidableEq, Repr

namespace Builder

/-- `utils.i2le_padded` of an argument that may be `None` (`None.to_bytes` is an AttributeError). -/
def i2leOpt (n : Option Int) (k : Nat) : Py Bytes :=
  match n with
  | some n => i2lePadded n k
  | none => .error .attributeError

/-- tx/tx_builder.py:153-173, `_make_output`. -/
def makeOutput (E : Env) (value outputScript : Bytes) (version : Option Bytes := none) : Py AnyTxOut :=
  if E.net.isDecred then
    match version with
    | some v => (DecredTxOut.make E.net value v outputScript).map .decred
    | none => do
      decredGate E.net
      validateBytes value (some 8)
      .error .valueError
  else (TxOut.make value outputScript).map .std

/-- tx/tx_builder.py:176-192, `make_sh_output`. -/
def makeShOutput (E : Env) (value : Int) (outputScript : PyStr) (witness : Bool := false) : Py AnyTxOut := do
  let v ← i2lePadded value 8
  let s ← Addresses.makeShOutputScript E outputScript witness
  makeOutput E v s

/-- tx/tx_builder.py:195-205, `make_p2sh_output`. -/
def makeP2shOutput (E : Env) (value : Int) (outputScript : PyStr) : Py AnyTxOut := makeShOutput E value outputScript false
/-- tx/tx_builder.py:208-218, `make_p2wsh_output`. -/
def makeP2wshOutput (E : Env) (value : Int) (outputScript : PyStr) : Py AnyTxOut := makeShOutput E value outputScript true

/-- tx/tx_builder.py:221-237, `make_pkh_output`. -/
def makePkhOutput (E : Env) (value : Int) (pubkey : Bytes) (witness : Bool := false) : Py AnyTxOut := do
  let v ← i2lePadded value 8
  let s ← Addresses.makePkhOutputScript E pubkey witness
  makeOutput E v s

/-- tx/tx_builder.py:240-250, `make_p2pkh_output`. -/
def makeP2pkhOutput (E : Env) (value : Int) (pubkey : Bytes) : Py AnyTxOut := makePkhOutput E value pubkey false
/-- tx/tx_builder.py:253-263, `make_p2wpkh_output`. -/
def makeP2wpkhOutput (E : Env) (value : Int) (pubkey : Bytes) : Py AnyTxOut := makePkhOutput E value pubkey true

/-- tx/tx_builder.py:266-291, `make_op_return_output`. -/
def makeOpReturnOutput (E : Env) (data : Bytes) : Py AnyTxOut := do
  check (¬ data.length > 77) .valueError
  let pkScript : Bytes := [0x6a] ++ (if data.length = 76 ∨ data.length = 77 then [0x4c] else []) ++ [UInt8.ofNat data.length] ++ data
  let zero ← i2lePadded 0 8
  makeOutput E zero pkScript

/-- tx/tx_builder.py:303-307, `make_witness_stack_item`. -/
def makeWitnessStackItem (data : Bytes) : Py WitnessStackItem := WitnessStackItem.make data

/-- tx/tx_builder.py:310-316, `make_witness`. -/
def makeWitness (dataList : List Bytes) : Py InputWitness := do
  let stack ← mapPy makeWitnessStackItem dataList
  InputWitness.make stack

/-- tx/tx_builder.py:294-300, `make_empty_witness`. -/
def makeEmptyWitness : Py InputWitness := makeWitness []

/-- tx/tx_builder.py:319-333, `make_decred_witness`. -/
def makeDecredWitness (E : Env) (value height index stackScript redeemScript : Bytes) : Py DecredInputWitness :=
  DecredInputWitness.make E.net value height index stackScript redeemScript

/-- tx/tx_builder.py:347-366, `make_outpoint`. -/
def makeOutpoint (E : Env) (txIdLe : Bytes) (index : Int) (tree : Option Int := none) : Py AnyOutpoint :=
  if E.net.isDecred then do
    let treeBytes ← (match tree with
      | none => .ok [0x00]
      | some t => i2lePadded t 1)
    let i ← i2lePadded index 4
    let o ← DecredOutpoint.make E.net txIdLe i treeBytes
    .ok (.decred o)
  else do
    let i ← i2lePadded index 4
    let o ← Outpoint.make txIdLe i
    .ok (.std o)

/-- tx/tx_builder.py:369-377, `make_script_sig`. -/
def makeScriptSig (E : Env) (stackScript redeemScript : PyStr) : Py Bytes := do
  let r ← hexSerialize E.net redeemScript
  serialize E.net (stackScript ++ ' ' :: r)

/-- tx/tx_builder.py:398-423, `make_legacy_input`, on networks other than Decred. -/
def makeLegacyInput (outpoint : Outpoint) (stackScript redeemScript : Bytes) (sequence : Int) : Py TxIn := do
  let s ← i2lePadded sequence 4
  TxIn.make outpoint stackScript redeemScript s

/-- tx/tx_builder.py:440-458, `make_witness_input`, on networks other than Decred. -/
def makeWitnessInput (outpoint : Outpoint) (sequence : Int) : Py TxIn := do
  let s ← i2lePadded sequence 4
  TxIn.make outpoint [] [] s

/-- tx/tx_builder.py:461-466, `make_decred_input`; `make_legacy_input` and `make_witness_input` are the same on Decred. -/
def makeDecredInput (E : Env) (outpoint : DecredOutpoint) (sequence : Int) : Py DecredTxIn := do
  let s ← i2lePadded sequence 4
  DecredTxIn.make E.net outpoint s

/-- tx/tx_builder.py:398-423, `make_legacy_input`, on any network; an outpoint of the other class has the wrong length (36 or 37 bytes). -/
def makeAnyLegacyInput (E : Env) (outpoint : AnyOutpoint) (stackScript redeemScript : Bytes) (sequence : Int) : Py AnyTxIn :=
  if E.net.isDecred then
    match outpoint with
    | .decred o => (makeDecredInput E o sequence).map .decred
    | .std _ => do
      let _ ← i2lePadded sequence 4
      .error .valueError
  else
    match outpoint with
    | .std o => (makeLegacyInput o stackScript redeemScript sequence).map .std
    | .decred _ => do
      let _ ← i2lePadded sequence 4
      .error .valueError

/-- `SproutTx`, `OverwinterTx`: joinsplits of the other class are a ValueError (as is everything tested before). -/
def asSprout (js : Joinsplits) : Py (List SproutJoinsplit) :=
  match js with
  | .sprout js => .ok js
  | .sapling [] => .ok []
  | .sapling (_ :: _) => .error .valueError

/-- `SaplingTx`: joinsplits of the other class are a ValueError. -/
def asSapling (js : Joinsplits) : Py (List SaplingJoinsplit) :=
  match js with
  | .sapling js => .ok js
  | .sprout [] => .ok []
  | .sprout (_ :: _) => .error .valueError

/-- tx/sapling.py:270-316 when a list is `None`: the tests before `len(None)`, then TypeError. -/
def saplingNone (E : Env) (expiryHeight valueBalance : Bytes) (spends : Option (List SaplingShieldedSpend))
    (outputs : Option (List SaplingShieldedOutput)) (bindingSig : Option Bytes) : Py SaplingTx := do
  zcashGate E.net
  check E.net.isSapling .valueError
  check (¬ le2i expiryHeight > 499999999) .valueError
  match spends, outputs with
  | some s, some o => do
    SaplingTx.checkBalance valueBalance s.length o.length bindingSig
    .error .typeError
  | _, _ => .error .typeError

/-- tx/tx_builder.py:599-611: the Sapling branch of `make_tx`. -/
def makeSapling (E : Env) (txIns : List TxIn) (txOuts : List TxOut) (lockTime : Bytes) (expiry : Bytes) (valueBalance : Bytes)
    (spends : Option (List SaplingShieldedSpend)) (outputs : Option (List SaplingShieldedOutput)) (joinsplits : Option Joinsplits)
    (pk sig bindingSig : Option Bytes) : Py SaplingTx :=
  match spends, outputs, joinsplits with
  | some s, some o, some js => do
    let js ← asSapling js
    SaplingTx.make E txIns txOuts lockTime expiry valueBalance s o js pk sig bindingSig
  | _, _, _ => saplingNone E expiry valueBalance spends outputs bindingSig

/-- tx/tx_builder.py:532-619, `make_tx`, on networks other than Decred. On Sprout with joinsplits, `version` is passed on as an
`int`, which is not bytes: ValueError. -/
def makeTx (E : Env) (version : Int) (txIns : List TxIn) (txOuts : List TxOut) (lockTime : Int) (expiry : Option Int := none)
    (valueBalance : Int := 0) (txShieldedSpends : Option (List SaplingShieldedSpend) := none)
    (txShieldedOutputs : Option (List SaplingShieldedOutput) := none) (txWitnesses : Option (List InputWitness) := none)
    (txJoinsplits : Option Joinsplits := none) (joinsplitPubkey joinsplitSig bindingSig : Option Bytes := none) : Py AnyTx :=
  if E.net.isSprout ∧ txJoinsplits.isSome then do
    let _ ← i2lePadded lockTime 4
    .error .valueError
  else if E.net.isOverwinter then do
    let lt ← i2lePadded lockTime 4
    let ex ← i2leOpt expiry 4
    let js ← asSprout (txJoinsplits.getD (.sprout []))
    let t ← OverwinterTx.make E txIns txOuts lt ex js joinsplitPubkey joinsplitSig
    .ok (.overwinter t)
  else if E.net.isSapling then do
    let lt ← i2lePadded lockTime 4
    let ex ← i2leOpt expiry 4
    let vb ← i2lePadded valueBalance 8
    let t ← makeSapling E txIns txOuts lt ex vb txShieldedSpends txShieldedOutputs txJoinsplits joinsplitPubkey joinsplitSig bindingSig
    .ok (.sapling t)
  else do
    let flag := if txWitnesses.isSome then some E.net.segwitTxFlag else none
    let v ← i2lePadded version 4
    let lt ← i2lePadded lockTime 4
    let t ← Tx.make E v flag txIns txOuts txWitnesses lt
    .ok (.std t)

/-- tx/tx_builder.py:573-580, `make_tx` on Decred: the argument `tx_witnesses` is put in a list, so that a list or `None` is
refused by the class test (a ValueError like the tests before it). -/
def makeTxDecred (E : Env) (version : Int) (txIns : List DecredTxIn) (txOuts : List DecredTxOut) (lockTime : Int) (expiry : Option Int := none)
    (txWitnesses : DecredWits := .absent) : Py AnyTx := do
  let v ← i2lePadded version 4
  let lt ← i2lePadded lockTime 4
  let ex ← i2leOpt expiry 4
  match txWitnesses with
  | .one w => do
    let t ← DecredTx.make E.net v txIns txOuts lt ex [w]
    .ok (.decred t)
  | _ => .error .valueError

/-- tx/tx_builder.py:622-625, `length_prepend`. -/
def lengthPrepend (b : Bytes) : Py Bytes := do
  let n ← VarInt.make (b.length : Int)
  .ok (n.bytes ++ b)

end Builder

/-! ### simple.py -/

namespace Simple

/-- simple.py:10-17, `output`. -/
def output (E : Env) (value : Int) (address : PyStr) : Py AnyTxOut := do
  let script ← Addresses.toOutputScript E address
  let v ← i2lePadded value 8
  Builder.makeOutput E v script

/-- simple.py:30-38, `outpoint`. -/
def outpoint (E : Env) (txId : PyStr) (index : Int) (tree : Option Int := none) : Py AnyOutpoint := do
  let b ← fromHex txId
  Builder.makeOutpoint E b.reverse index tree

/-- simple.py:67-77, `unsigned_input`. -/
def unsignedInput (E : Env) (outpoint : AnyOutpoint) (sequence : Int := 0xFFFFFFFE) : Py AnyTxIn :=
  Builder.makeAnyLegacyInput E outpoint [] [] sequence

/-- The keyword arguments of `unsigned_legacy_tx` and `unsigned_witness_tx`; `none` means not given. -/
structure Kwargs where
  version : Option Int := none
  lockTime : Option Int := none
  expiry : Option Int := none
  txJoinsplits : Option Joinsplits := none
  joinsplitPubkey : Option Bytes := none
  joinsplitSig : Option Bytes := none

/-- simple.py:80-112, `unsigned_legacy_tx`, on networks other than Decred. The default `[]` of the joinsplit key and signature is
only ever looked at by `validate_bytes`, which refuses it like empty bytes. -/
def unsignedLegacyTx (E : Env) (txIns : List TxIn) (txOuts : List TxOut) (k : Kwargs := {}) : Py AnyTx :=
  Builder.makeTx E (k.version.getD 2) txIns txOuts (k.lockTime.getD 0) (some (k.expiry.getD 0))
    (txJoinsplits := some (k.txJoinsplits.getD (.sprout []))) (joinsplitPubkey := some (k.joinsplitPubkey.getD []))
    (joinsplitSig := some (k.joinsplitSig.getD []))

/-- simple.py:80-112, `unsigned_legacy_tx` on Decred. -/
def unsignedLegacyTxDecred (E : Env) (txIns : List DecredTxIn) (txOuts : List DecredTxOut) (k : Kwargs := {}) : Py AnyTx :=
  Builder.makeTxDecred E (k.version.getD 2) txIns txOuts (k.lockTime.getD 0) (some (k.expiry.getD 0)) .absent

/-- simple.py:115-137, `unsigned_witness_tx`, on networks other than Decred. -/
def unsignedWitnessTx (E : Env) (txIns : List TxIn) (txOuts : List TxOut) (k : Kwargs := {}) : Py AnyTx := do
  let ws ← mapPy (fun _ => Builder.makeEmptyWitness) txIns
  Builder.makeTx E (k.version.getD 2) txIns txOuts (k.lockTime.getD 0) (txWitnesses := some ws)

end Simple

end Verif
