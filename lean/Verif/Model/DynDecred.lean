import Verif.Model.DynZcash
import Verif.Model.Decred

/-! # The constructors of tx/decred.py on arguments of any type

The same values and simplifications as in `Model/Dyn.lean`. -/

namespace Verif

namespace Dyn
open Val

/-- tx/decred.py:24-39, `DecredOutpoint(tx_id, index, tree)`. -/
def dcrOutpoint (net : Network) (txId index tree : Val) : Py Val := do
  decredGate net
  validateAll [(txId, 32), (index, 4), (tree, 1)]
  let self ← iaddAll [] [txId, index, tree]
  .ok (.obj .dcrOutpoint [txId, index, tree] self)

/-- tx/decred.py:63-75, `DecredTxIn(outpoint, sequence)`. -/
def dcrTxIn (net : Network) (outpoint sequence : Val) : Py Val := do
  decredGate net
  validateAll [(outpoint, 37), (sequence, 4)]
  let self ← iaddAll [] [outpoint, sequence]
  .ok (.obj .dcrTxIn [outpoint, sequence] self)

/-- tx/decred.py:97-114, `DecredTxOut(value, version, output_script)`. The attributes are value, version, output_script_len, output_script. -/
def dcrTxOut (net : Network) (value version outputScript : Val) : Py Val := do
  decredGate net
  validateAll [(value, 8), (version, 2)]
  outputScript.validate Option.none
  let self ← iaddAll [] [value, version]
  let l ← outputScript.len
  let n ← VarInt.make (l : Int)
  let self ← iadd (self ++ n.bytes) outputScript
  .ok (.obj .dcrTxOut [value, version, .int l, outputScript] self)

/-- tx/decred.py:149-178, `DecredInputWitness(value, height, index, stack_script, redeem_script)`. The attributes are value, height, index, script_len, stack_script,
redeem_script, script_sig. -/
def dcrWitness (net : Network) (value height index stackScript redeemScript : Val) : Py Val := do
  decredGate net
  validateAll [(value, 8), (height, 4), (index, 4)]
  stackScript.validate Option.none
  redeemScript.validate Option.none
  let self ← iaddAll [] [value, height, index]
  let l1 ← stackScript.len
  let l2 ← redeemScript.len
  let n ← VarInt.make ((l1 + l2 : Nat) : Int)
  let self ← iadd (self ++ n.bytes) stackScript
  let self ← iadd self redeemScript
  let scriptSig ← add stackScript redeemScript
  let l ← scriptSig.len
  .ok (.obj .dcrWitness [value, height, index, .int l, stackScript, redeemScript, scriptSig] self)

/-- `v[:2]` of a bytes-like value: `bytes`, `bytearray`, or for `ByteData` objects (tx/shared.py:32-33) the bytes of the frozen object. -/
def firstTwo (v : Val) : Py Val :=
  match v with
  | .bytes b => .ok (.bytes (slice b 0 2))
  | .bytearray b => .ok (.bytearray (slice b 0 2))
  | .obj _ _ b => .ok (.bytes (slice b 0 2))
  | .str s => .ok (.str (s.take 2))
  | .list l => .ok (.list (l.take 2))
  | .tuple l => .ok (.tuple (l.take 2))
  | .none => .error .typeError
  | .int _ => .error .typeError

/-- tx/decred.py:292-304, `DecredTx.prefix` on the attributes. -/
def dcrPrefix (net : Network) (version txIns txOuts lockTime expiry : Val) : Py Bytes := do
  decredGate net
  let v ← firstTwo version
  let data ← iadd [] v
  let data ← addVector (data ++ [0x01, 0x00]) txIns
  let data ← addVector data txOuts
  let data ← iadd data lockTime
  iadd data expiry

/-- tx/decred.py:203-274, `DecredTx(version, tx_ins, tx_outs, lock_time, expiry, tx_witnesses)`. The attributes are version, tx_ins, tx_outs, lock_time, expiry, tx_witnesses (the
caller's sequences themselves), tx_id_le, tx_id. -/
def dcrTx (net : Network) (version txIns txOuts lockTime expiry txWitnesses : Val) : Py Val := do
  decredGate net
  validateAll [(version, 4), (lockTime, 4), (expiry, 4)]
  let ni ← txIns.len
  let no ← txOuts.len
  check (¬ min ni no = 0) .valueError
  txIns.allInstances .dcrTxIn
  txOuts.allInstances .dcrTxOut
  txWitnesses.allInstances .dcrWitness
  let self ← iadd [] version
  let self ← addVector self txIns
  let self ← addVector self txOuts
  let self ← iadd self lockTime
  let self ← iadd self expiry
  let self ← addVector self txWitnesses
  check (¬ self.length > 100000) .valueError
  let pre ← dcrPrefix net version txIns txOuts lockTime expiry
  let txIdLe := blake256 pre
  .ok (.obj .dcrTx [version, txIns, txOuts, lockTime, expiry, txWitnesses, .bytes txIdLe, .bytes (changeEndianness txIdLe)] self)

end Dyn

end Verif
