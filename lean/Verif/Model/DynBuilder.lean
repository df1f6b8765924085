import Verif.Model.Builder
import Verif.Model.DynEmbed

/-! # tx/tx_builder.py and simple.py on arguments of any type

The same values and simplifications as in `Model/Dyn.lean`. `make_sh_script_pubkey` and `make_script_sig` are in `Model/DynAddr`. `bytes.fromhex` of anything but a string is a TypeError (Python before 3.14). -/

namespace Verif

namespace Val

/-- utils.py:20-30, `i2le_padded(v, k)`, that is `v.to_bytes(k, 'little')`. The `to_bytes` of `ByteData` (tx/shared.py:100-104) takes no arguments: TypeError; other values than
integers have none. -/
def toLe (v : Val) (k : Nat) : Py Val :=
  match v with
  | .int n => do
    let b ← i2lePadded n k
    .ok (.bytes b)
  | .obj _ _ _ => .error .typeError
  | _ => .error .attributeError

/-- `bool(v)`. -/
def truthy : Val → Bool
  | .none => false
  | .int n => n != 0
  | .str s => !s.isEmpty
  | .bytes b => !b.isEmpty
  | .bytearray b => !b.isEmpty
  | .obj _ _ b => !b.isEmpty
  | .list l => !l.isEmpty
  | .tuple l => !l.isEmpty

/-- `v is not None`. -/
def given : Val → Bool
  | .none => false
  | _ => true

/-- The bytes that `bytes.split()` takes for spaces. -/
def spaceByte (b : UInt8) : Bool := b == 0x20 || (0x09 ≤ b && b ≤ 0x0d)

/-- script/serialization.py:6-62, `serialize(v)`: the script of a string. The tokens of bytes are bytes, which are not opcodes, and `bytes.fromhex` refuses them (a bytearray
is refused by the test before it, also with a TypeError); so only blank bytes pass, as the empty script. Other values have no `split`. -/
def serialize (net : Network) : Val → Py Bytes
  | .str s => Verif.serialize net s
  | .bytes b => if b.all spaceByte then .ok [] else .error .typeError
  | .bytearray b => if b.all spaceByte then .ok [] else .error .typeError
  | _ => .error .attributeError

end Val

namespace Dyn
open Val

/-- tx/tx_builder.py:34-51, `make_sh_output_script(script_string, witness)`. -/
def makeShOutputScript (E : Env) (scriptString witness : Val) : Py Val := do
  check (¬ (witness.truthy ∧ ¬ E.net.segwit)) .valueError
  let scriptBytes ← scriptString.serialize E.net
  .ok (.bytes (Addresses.makeShScriptPubkey E scriptBytes witness.truthy))

/-- tx/tx_builder.py:54-85, `make_pkh_output_script(pubkey, witness)`. -/
def makePkhOutputScript (E : Env) (pubkey witness : Val) : Py Val := do
  check (¬ (witness.truthy ∧ ¬ E.net.segwit)) .valueError
  let b ← (match pubkey with
    | .bytes b => .ok b
    | .bytearray b => .ok b
    | _ => .error .valueError : Py Bytes)
  let pubkeyHash := E.hash160 b
  if witness.truthy then .ok (.bytes (E.net.p2wpkhPrefix ++ pubkeyHash))
  else .ok (.bytes ([0x76, 0xa9, 0x14] ++ pubkeyHash ++ [0x88, 0xac]))

/-- tx/tx_builder.py:153-173, `_make_output(value, output_script, version)`. -/
def makeOutput (E : Env) (value outputScript version : Val) : Py Val :=
  if E.net.isDecred then dcrTxOut E.net value version outputScript
  else txOut value outputScript

/-- tx/tx_builder.py:176-192, `make_sh_output`; `make_p2sh_output` and `make_p2wsh_output` (lines 195-218) pass False and True. -/
def makeShOutput (E : Env) (value outputScript witness : Val) : Py Val := do
  let v ← value.toLe 8
  let s ← makeShOutputScript E outputScript witness
  makeOutput E v s .none

/-- tx/tx_builder.py:221-237, `make_pkh_output`; `make_p2pkh_output` and `make_p2wpkh_output` (lines 240-263) pass False and True. -/
def makePkhOutput (E : Env) (value pubkey witness : Val) : Py Val := do
  let v ← value.toLe 8
  let s ← makePkhOutputScript E pubkey witness
  makeOutput E v s .none

/-- tx/tx_builder.py:266-291, `make_op_return_output(data)`. `bytearray.extend` takes any iterable of integers from 0 to 255; the script stays a bytearray. -/
def makeOpReturnOutput (E : Env) (data : Val) : Py Val := do
  let n ← data.len
  check (¬ n > 77) .valueError
  let pkScript : Bytes := [0x6a] ++ (if n = 76 ∨ n = 77 then [0x4c] else []) ++ [UInt8.ofNat n]
  let xs ← data.iter
  let d ← byteList xs
  let zero ← (Val.int 0).toLe 8
  makeOutput E zero (.bytearray (pkScript ++ d)) .none

/-- tx/tx_builder.py:310-316, `make_witness(data_list)`; the items by `make_witness_stack_item` (lines 303-307). -/
def makeWitness (dataList : Val) : Py Val := do
  let xs ← dataList.iter
  let stack ← mapPy item xs
  witness (.list stack)

/-- tx/tx_builder.py:347-366, `make_outpoint(tx_id_le, index, tree)`. -/
def makeOutpoint (E : Env) (txIdLe index tree : Val) : Py Val :=
  if E.net.isDecred then do
    let treeBytes ← (if tree.given then tree.toLe 1 else .ok (.bytes [0x00]))
    let i ← index.toLe 4
    dcrOutpoint E.net txIdLe i treeBytes
  else do
    let i ← index.toLe 4
    outpoint txIdLe i

/-- tx/tx_builder.py:461-466, `make_decred_input(outpoint, sequence)`. -/
def makeDecredInput (E : Env) (outpoint sequence : Val) : Py Val := do
  let s ← sequence.toLe 4
  dcrTxIn E.net outpoint s

/-- tx/tx_builder.py:398-423, `make_legacy_input(outpoint, stack_script, redeem_script, sequence)`. -/
def makeLegacyInput (E : Env) (outpoint stackScript redeemScript sequence : Val) : Py Val :=
  if E.net.isDecred then makeDecredInput E outpoint sequence
  else do
    let s ← sequence.toLe 4
    txIn outpoint stackScript redeemScript s

/-- tx/tx_builder.py:440-458, `make_witness_input(outpoint, sequence)`. -/
def makeWitnessInput (E : Env) (outpoint sequence : Val) : Py Val :=
  if E.net.isDecred then makeDecredInput E outpoint sequence
  else do
    let s ← sequence.toLe 4
    txIn outpoint (.bytes []) (.bytes []) s

/-- The arguments of `make_tx` after the first four, with their defaults (tx/tx_builder.py:537-545). -/
structure TxKw where
  expiry : Val := .none
  valueBalance : Val := .int 0
  txShieldedSpends : Val := .none
  txShieldedOutputs : Val := .none
  txWitnesses : Val := .none
  txJoinsplits : Val := .none
  joinsplitPubkey : Val := .none
  joinsplitSig : Val := .none
  bindingSig : Val := .none

/-- tx/tx_builder.py:532-619, `make_tx(version, tx_ins, tx_outs, lock_time, …)`. -/
def makeTx (E : Env) (version txIns txOuts lockTime : Val) (k : TxKw) : Py Val :=
  if E.net.isDecred then do
    let v ← version.toLe 4
    let lt ← lockTime.toLe 4
    let ex ← k.expiry.toLe 4
    dcrTx E.net v txIns txOuts lt ex (.list [k.txWitnesses])
  else if E.net.isSprout ∧ k.txJoinsplits.given then do
    let lt ← lockTime.toLe 4
    sproutTx E version txIns txOuts lt k.txJoinsplits k.joinsplitPubkey k.joinsplitSig
  else if E.net.isOverwinter then do
    let lt ← lockTime.toLe 4
    let ex ← k.expiry.toLe 4
    overwinterTx E txIns txOuts lt ex (if k.txJoinsplits.given then k.txJoinsplits else .list []) k.joinsplitPubkey k.joinsplitSig
  else if E.net.isSapling then do
    let lt ← lockTime.toLe 4
    let ex ← k.expiry.toLe 4
    let vb ← k.valueBalance.toLe 8
    saplingTx E txIns txOuts lt ex vb k.txShieldedSpends k.txShieldedOutputs k.txJoinsplits k.joinsplitPubkey k.joinsplitSig k.bindingSig
  else do
    let v ← version.toLe 4
    let lt ← lockTime.toLe 4
    tx E v (if k.txWitnesses.given then .bytes E.net.segwitTxFlag else .none) txIns txOuts k.txWitnesses lt

/-- tx/tx_builder.py:622-625, `length_prepend(byte_string)`. -/
def lengthPrepend (b : Val) : Py Bytes := do
  let l ← b.len
  let n ← VarInt.make (l : Int)
  b.addTo n.bytes

/-! ### simple.py -/

/-- encoding/addresses.py:245-306, `to_output_script(address)`. `parse` (line 227) begins with `address.encode`, which only strings have, and does not catch the AttributeError.
The script of a witness address is the bytearray that `parse` returns, the others are `bytes + bytearray + bytes`, which is bytes. -/
def toOutputScript (E : Env) (address : Val) : Py Val :=
  match address with
  | .str s => do
    let parsed ← Addresses.parse E s
    let script ← Addresses.toOutputScript E s
    if (startsWith parsed E.net.p2wpkhPrefix ∧ parsed.length = 22) ∨ (startsWith parsed E.net.p2wshPrefix ∧ parsed.length = 34) then .ok (.bytearray script)
    else .ok (.bytes script)
  | _ => .error .attributeError

/-- simple.py:10-17, `output(value, address)`. -/
def simpleOutput (E : Env) (value address : Val) : Py Val := do
  let script ← toOutputScript E address
  let v ← value.toLe 8
  makeOutput E v script .none

/-- simple.py:30-38, `outpoint(tx_id, index, tree)`. -/
def simpleOutpoint (E : Env) (txId index tree : Val) : Py Val := do
  let b ← (match txId with
    | .str s => fromHex s
    | _ => .error .typeError : Py Bytes)
  makeOutpoint E (.bytes b.reverse) index tree

/-- simple.py:67-77, `unsigned_input(outpoint, sequence)`. -/
def simpleInput (E : Env) (outpoint : Val) (sequence : Val := .int 0xFFFFFFFE) : Py Val :=
  makeLegacyInput E outpoint (.bytes []) (.bytes []) sequence

/-- The keyword arguments of `unsigned_legacy_tx` with the values they have when not given (simple.py:100-112). -/
structure LegacyKw where
  version : Val := .int 2
  lockTime : Val := .int 0
  expiry : Val := .int 0
  txJoinsplits : Val := .list []
  joinsplitPubkey : Val := .list []
  joinsplitSig : Val := .list []

/-- simple.py:80-112, `unsigned_legacy_tx(tx_ins, tx_outs, **kwargs)`. -/
def simpleLegacyTx (E : Env) (txIns txOuts : Val) (k : LegacyKw) : Py Val :=
  makeTx E k.version txIns txOuts k.lockTime
    { expiry := k.expiry, txJoinsplits := k.txJoinsplits, joinsplitPubkey := k.joinsplitPubkey, joinsplitSig := k.joinsplitSig }

/-- simple.py:115-137, `unsigned_witness_tx(tx_ins, tx_outs, **kwargs)`, with the version (2 if not given) and lock time (0 if not given). -/
def simpleWitnessTx (E : Env) (txIns txOuts : Val) (version lockTime : Val) : Py Val := do
  let xs ← txIns.iter
  let ws ← mapPy (fun _ => makeWitness (.list [])) xs
  makeTx E version txIns txOuts lockTime { txWitnesses := .list ws }

end Dyn

end Verif
