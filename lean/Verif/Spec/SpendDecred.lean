import Verif.Spec.Interp
import Verif.Spec.Decred

/-! # When does a Decred transaction spend an output?

As `Spec/SpendTx`, for Decred's transactions, and for outputs with script version 0. The script of an input is in its witness. Operation 168 is BLAKE-256.

The interpreter of `Spec/Interp` is used; dcrd's differs from it in OP_CHECKMULTISIG (which does not pop one more element), in the operations from 192 on
and in having wider limits, so only scripts without these are decided. Written from memory of dcrd. -/

namespace Verif.Spec

structure DcrWireIn where
  txId : Bytes
  index : Bytes
  tree : Bytes
  sequence : Bytes

structure DcrWireOut where
  value : Bytes
  version : Bytes
  script : Bytes

structure DcrWireWit where
  value : Bytes
  height : Bytes
  index : Bytes
  script : Bytes

/-- The fields of a Decred transaction. -/
structure DcrTx where
  version : Bytes
  ins : List DcrWireIn
  outs : List DcrWireOut
  lockTime : Bytes
  expiry : Bytes
  wits : List DcrWireWit

/-- The bytes that are sent over the network. -/
def DcrTx.bytes (w : DcrTx) : Bytes :=
  dcrFull w.version (w.ins.map fun i => dcrIn i.txId i.index i.tree i.sequence) (w.outs.map fun o => dcrOut o.value o.version o.script) w.lockTime w.expiry
    (w.wits.map fun x => dcrWitness x.value x.height x.index x.script)

/-- The widths of the fields; a witness for each input. -/
structure DcrTx.WF (w : DcrTx) : Prop where
  version : w.version.length = 4
  lockTime : w.lockTime.length = 4
  expiry : w.expiry.length = 4
  ins : w.ins ≠ [] ∧ w.ins.length < 2 ^ 64 ∧ ∀ i ∈ w.ins, i.txId.length = 32 ∧ i.index.length = 4 ∧ i.tree.length = 1 ∧ i.sequence.length = 4
  outs : w.outs ≠ [] ∧ w.outs.length < 2 ^ 64 ∧ ∀ o ∈ w.outs, o.value.length = 8 ∧ o.version.length = 2 ∧ o.script.length < 2 ^ 64
  wits : w.wits.length = w.ins.length ∧ ∀ x ∈ w.wits, x.value.length = 8 ∧ x.height.length = 4 ∧ x.index.length = 4 ∧ x.script.length < 2 ^ 64

/-- What signatures cover. -/
def DcrTx.sig (w : DcrTx) : DcrSigTx :=
  ⟨w.version, w.ins.map fun i => (i.txId ++ i.index ++ i.tree, i.sequence), w.outs.map fun o => (o.value, o.version, o.script), w.lockTime, w.expiry⟩

/-- The rules of Decred. -/
structure DcrRules where
  blake256 : Bytes → Bytes
  hash160 : Bytes → Bytes
  /-- `verify key digest signature` -/
  verify : Bytes → Bytes → Bytes → Bool

/-- Is the signature, whose last byte is the hash type, good? SINGLE needs an output of the same index. -/
def DcrRules.checkSig (R : DcrRules) (w : DcrTx) (i : Nat) (code sig key : Bytes) : Bool :=
  match sig.getLast? with
  | none => false
  | some ty => !(baseType ty.toNat == 3 && decide (w.outs.length ≤ i)) && R.verify key (dcrSighash R.blake256 w.sig i code ty.toNat) sig.dropLast

/-- The lock time of `OP_CHECKLOCKTIMEVERIFY`. -/
def DcrTx.lockOK (w : DcrTx) (i : DcrWireIn) (x : Bytes) : Bool :=
  match scriptNumber 5 x with
  | none => false
  | some n => decide ((n < 500000000 ↔ leValue w.lockTime < 500000000) ∧ n ≤ leValue w.lockTime ∧ leValue i.sequence ≠ 0xffffffff)

/-- Does input `i` of the transaction spend an output of script version 0 with this script? -/
def DcrTx.validInput (R : DcrRules) (w : DcrTx) (i : Nat) (script : Bytes) : Bool :=
  match w.ins[i]?, w.wits[i]? with
  | some inp, some wit => spends ⟨R.blake256, R.hash160, fun _ => R.checkSig w i, w.lockOK inp, false⟩ wit.script [] script
  | _, _ => false

end Verif.Spec
