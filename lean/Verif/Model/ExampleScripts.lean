import Verif.Model.Builder
import Verif.Model.Sighash
import Verif.Model.Examples
import Verif.Model.DynCopy
import Verif.Model.DynEmbed

/-! # riemann/examples

The example programs, with the values written in them (keys, transaction ids, amounts, texts) as parameters. prep_tx_for_signing.py is not a
Python program (line 20 is a syntax error) and is not modelled. -/

namespace Verif.ExampleScripts
open Verif Addresses Builder

/-- `addr.to_output_script(a)` where `a` is what a `make_*_address` function returned; `None` has no `find` or `rfind` (never happens). -/
def scriptOf (E : Env) (a : Option PyStr) : Py Bytes :=
  match a with
  | none => .error .attributeError
  | some a => toOutputScript E a

/-- The values in examples/p2pkh_op_return.py:14-40. -/
structure OpReturnArgs where
  version : Int := 1
  sequence : Int := 0xFFFFFFFE
  locktime : Int := 0
  senderPubkey : PyStr
  receiverPubkey : PyStr
  txId : PyStr
  index : Int := 0
  senderValue : Int := 1000
  fee : Int := 10
  note : Bytes

/-- The ordinary transaction input, output, transaction among what a builder may return; on the networks of the examples nothing else is
returned. -/
def stdIn : AnyTxIn → Py TxIn
  | .std t => .ok t
  | _ => .error .typeError
/-- See `stdIn`. -/
def stdOut : AnyTxOut → Py TxOut
  | .std t => .ok t
  | _ => .error .typeError
/-- See `stdIn`. -/
def stdTx : AnyTx → Py Tx
  | .std t => .ok t
  | _ => .error .typeError

/-- examples/p2pkh_op_return.py:19-53: the unsigned transaction and the digest that is signed. -/
def opReturnUnsigned (E : Env) (p : OpReturnArgs) : Py (Tx × Bytes) := do
  let sender ← fromHex p.senderPubkey
  let senderAddr ← makeP2wpkhAddress E sender
  let receiver ← fromHex p.receiverPubkey
  let receiverAddr ← makeP2wpkhAddress E receiver
  let senderOutpoint ← Simple.outpoint E p.txId p.index
  let i ← Simple.unsignedInput E senderOutpoint p.sequence
  let senderInput ← stdIn i
  let o ← match receiverAddr with
    | none => .error .attributeError
    | some a => Simple.output E (p.senderValue - p.fee) a
  let senderOutput ← stdOut o
  let r ← makeOpReturnOutput E p.note
  let opReturnOutput ← stdOut r
  let t ← Simple.unsignedLegacyTx E [senderInput] [senderOutput, opReturnOutput] { version := some p.version, lockTime := some p.locktime }
  let unsignedTx ← stdTx t
  let script ← scriptOf E senderAddr
  let sighash ← unsignedTx.sighashAll E 0 script
  .ok (unsignedTx, sighash)

/-- examples/p2pkh_op_return.py, all of it: simple.py:1-137 has no `p2pkh_input`, so that line 60 raises AttributeError. -/
def opReturn (E : Env) (p : OpReturnArgs) : Py PyStr := do
  let _ ← opReturnUnsigned E p
  .error .attributeError

/-- examples/sapling_example.py:8-29: two inputs that spend `prev1`, `prev2`, one output of `value` to `address`. What follows line 29
is not reached. -/
def saplingExample (E : Env) (prevoutAddr1 prevoutAddr2 txId1 txId2 : PyStr) (index1 index2 : Int) (value : Int) (address : PyStr) :
    Py AnyTx := do
  let _ ← toOutputScript E prevoutAddr1
  let _ ← toOutputScript E prevoutAddr2
  let o1 ← Simple.outpoint E txId1 index1
  let i1 ← Simple.unsignedInput E o1
  let txIn1 ← stdIn i1
  let o2 ← Simple.outpoint E txId2 index2
  let i2 ← Simple.unsignedInput E o2
  let txIn2 ← stdIn i2
  let o ← Simple.output E value address
  let txOut ← stdOut o
  Simple.unsignedLegacyTx E [txIn1, txIn2] [txOut]

/-- examples/sapling_htlc_example.py:23, `htlc_stack_script_execute`. -/
def htlcExecute (sig pk secret : PyStr) : PyStr := sig ++ pystr " " ++ pk ++ pystr " " ++ secret ++ pystr " OP_1"

/-- examples/sapling_htlc_example.py:28, `htlc_stack_script_refund`. -/
def htlcRefund (sig pk : PyStr) : PyStr := sig ++ pystr " " ++ pk ++ pystr " OP_0"

/-- examples/sapling_htlc_example.py:31-56: the filled-in redeem script (the template of lines 9-18 is that of script/examples.py), its
address and an output that pays to it. -/
def htlcOutput (E : Env) (secret pkExecute pkRefund timeout : PyStr) (value : Int) : Py (PyStr × Option PyStr × AnyTxOut) := do
  let s ← fromHex secret
  let e ← fromHex pkExecute
  let r ← fromHex pkRefund
  let redeem := Examples.htlcRedeemScript (toHex (E.H.sha256 s)) (toHex (E.hash160 e)) timeout (toHex (E.hash160 r))
  let a ← makeShAddress E redeem
  let out ← match a with
    | none => .error .attributeError
    | some a => Simple.output E value a
  .ok (redeem, a, out)

/-- examples/sapling_htlc_example.py, all of it: simple.py:1-137 has no `empty_outpoint`, so that line 69 raises AttributeError. -/
def htlcExample (E : Env) (secret pkExecute pkRefund timeout : PyStr) (value : Int) : Py AnyTxIn := do
  let _ ← htlcOutput E secret pkExecute pkRefund timeout value
  .error .attributeError

/-- examples/sapling_tx_parsing.py:8-21, up to the print of the copy; the hex of the transaction and the argument of `copy` (line 19, `77` in the
program) are parameters. What is printed in between only reads the first shielded output and the first joinsplit. -/
def saplingParsing (E : Env) (txHex : PyStr) (expiryHeight : Val) : Py Val := do
  let b ← fromHex txHex
  let t ← SaplingTx.fromBytes E b
  let _ ← getItem t.txShieldedOutputs 0
  let _ ← getItem t.txJoinsplits 0
  Dyn.copySapling E (embSap t) .none .none .none expiryHeight .none .none .none .none .none .none .none

end Verif.ExampleScripts
