import Verif.Spec.Interp
import Verif.Spec.Sighash
import Verif.Spec.WireTx

/-! # When does a transaction spend an output?

The signature check and the lock time of `Spec/Interp`, for a transaction as it is on the wire. The scheme of signatures is left abstract. -/

namespace Verif.Spec

/-- What signatures cover. -/
def WireTx.sig (w : WireTx) : SigTx :=
  ⟨w.version, w.ins.map fun i => (i.txId ++ i.index, i.sequence), w.outs.map WireOut.bytes, w.lockTime⟩

/-- The rules of a network. -/
structure Rules where
  sha256 : Bytes → Bytes
  hash160 : Bytes → Bytes
  hash256 : Bytes → Bytes
  /-- `verify key digest signature` -/
  verify : Bytes → Bytes → Bytes → Bool
  forkid : Option Nat
  segwit : Bool

/-- The digest that a signature of input `i` signs, for a script code, the amount that is spent and a hash type. -/
def Rules.digest (R : Rules) (w : WireTx) (i : Nat) (inp : WireIn) (amount : Bytes) (witness : Bool) (code : Bytes) (type : Nat) : Bytes :=
  match R.forkid with
  | some k => R.hash256 (bip143 R.hash256 w.sig i (inp.txId ++ inp.index) inp.sequence (varBytes code) amount (k * 256 + type))
  | none =>
    if witness then R.hash256 (bip143 R.hash256 w.sig i (inp.txId ++ inp.index) inp.sequence (varBytes code) amount type)
    else if baseType type = 3 ∧ w.outs.length ≤ i then 1 :: List.replicate 31 0
    else R.hash256 (legacyPreimage w.sig i code type)

/-- Is the signature, whose last byte is the hash type, good? With a fork id, bit 0x40 of the type must be set. -/
def Rules.checkSig (R : Rules) (w : WireTx) (i : Nat) (inp : WireIn) (amount : Bytes) (witness : Bool) (code sig key : Bytes) : Bool :=
  match sig.getLast? with
  | none => false
  | some ty => (R.forkid.isNone || ty.toNat / 64 % 2 == 1) && R.verify key (R.digest w i inp amount witness code ty.toNat) sig.dropLast

/-- BIP 65. -/
def WireTx.lockOK (w : WireTx) (inp : WireIn) (x : Bytes) : Bool :=
  match scriptNumber 5 x with
  | none => false
  | some n => decide ((n < 500000000 ↔ leValue w.lockTime < 500000000) ∧ n ≤ leValue w.lockTime ∧ leValue inp.sequence ≠ 0xffffffff)

/-- Does input `i` of the transaction spend the output `prev`? -/
def WireTx.validInput (R : Rules) (w : WireTx) (i : Nat) (prev : WireOut) : Bool :=
  match w.ins[i]? with
  | none => false
  | some inp => spends ⟨R.sha256, R.hash160, R.checkSig w i inp prev.value, w.lockOK inp, R.segwit⟩ inp.script
      ((w.wits.getD []).getD i []) prev.script

end Verif.Spec
