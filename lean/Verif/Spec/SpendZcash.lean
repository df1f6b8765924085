import Verif.Spec.SpendTx
import Verif.Spec.Zcash

/-! # When does a Zcash transaction spend a transparent output?

As `Spec/SpendTx`, for transactions of versions 1 to 4: the fields, their bytes, what a signature of a transparent input covers (the original
algorithm for versions 1 and 2, ZIP143 for version 3, ZIP243 for version 4), and when the input is valid. Zcash has no witnesses.

The branch id of version 4 is that of Sapling: later upgrades keep the format and change the id. Proofs, shielded signatures and values are not
checked here. -/

namespace Verif.Spec

/-- The fields of a Zcash transaction. -/
structure ZTx where
  /-- 1 to 4 -/
  version : Nat
  ins : List WireIn
  outs : List WireOut
  lockTime : Bytes
  /-- from version 3 on -/
  expiry : Bytes
  /-- in version 4 -/
  balance : Bytes
  /-- in version 4: each spend description, and its signature -/
  spends : List (Bytes × Bytes)
  /-- in version 4: each output description -/
  outputs : List Bytes
  /-- from version 2 on -/
  js : List Bytes
  jsPubkey : Bytes
  jsSig : Bytes
  /-- in version 4 -/
  binding : Bytes

/-- The bytes that are sent over the network. -/
def ZTx.bytes (w : ZTx) : Bytes :=
  if w.version = 3 then
    wireOverwinter (w.ins.map WireIn.bytes) (w.outs.map WireOut.bytes) w.lockTime w.expiry w.js w.jsPubkey w.jsSig
  else if w.version = 4 then
    wireSapling (w.ins.map WireIn.bytes) (w.outs.map WireOut.bytes) w.lockTime w.expiry w.balance (w.spends.map fun s => s.1 ++ s.2) w.outputs w.js
      w.jsPubkey w.jsSig w.binding
  else wireSprout (leBytes 4 w.version) (w.ins.map WireIn.bytes) (w.outs.map WireOut.bytes) w.lockTime w.js w.jsPubkey w.jsSig

/-- The widths of the fields of each version. -/
structure ZTx.WF (w : ZTx) : Prop where
  version : 1 ≤ w.version ∧ w.version ≤ 4
  lockTime : w.lockTime.length = 4
  ins : w.ins.length < 2 ^ 64 ∧ ∀ i ∈ w.ins, i.WF
  outs : w.outs.length < 2 ^ 64 ∧ ∀ o ∈ w.outs, o.WF
  expiry : 3 ≤ w.version → w.expiry.length = 4
  js : if w.version = 1 then w.js = [] else w.js.length < 2 ^ 64 ∧ ∀ j ∈ w.js, j.length = if w.version = 4 then 1698 else 1802
  jsKeys : w.js ≠ [] → w.jsPubkey.length = 32 ∧ w.jsSig.length = 64
  balance : w.version = 4 → w.balance.length = 8
  spends : if w.version = 4 then w.spends.length < 2 ^ 64 ∧ ∀ s ∈ w.spends, s.1.length = 320 ∧ s.2.length = 64 else w.spends = []
  outputs : if w.version = 4 then w.outputs.length < 2 ^ 64 ∧ ∀ s ∈ w.outputs, s.length = 948 else w.outputs = []
  binding : w.spends ≠ [] ∨ w.outputs ≠ [] → w.binding.length = 64

/-- What signatures cover in versions 1 and 2. -/
def ZTx.sig (w : ZTx) : SigTx :=
  ⟨leBytes 4 w.version, w.ins.map fun i => (i.txId ++ i.index, i.sequence), w.outs.map WireOut.bytes, w.lockTime⟩

/-- What signatures cover in versions 3 and 4. -/
def ZTx.zsig (w : ZTx) : ZSigTx where
  header := if w.version = 3 then [0x03, 0x00, 0x00, 0x80] else [0x04, 0x00, 0x00, 0x80]
  groupId := if w.version = 3 then [0x70, 0x82, 0xc4, 0x03] else [0x85, 0x20, 0x2f, 0x89]
  ins := w.ins.map fun i => (i.txId ++ i.index, i.sequence)
  outs := w.outs.map WireOut.bytes
  js := w.js
  jsPubkey := w.jsPubkey
  spends := w.spends.map (·.1)
  outputs := w.outputs
  lockTime := w.lockTime
  expiry := w.expiry
  balance := w.balance

/-- The preimage of a signature of input `i` in versions 1 and 2: the original algorithm; in version 2 the joinsplits follow the lock time, with the
public key and a signature of zeros. -/
def ZTx.sproutPreimage (w : ZTx) (i : Nat) (code : Bytes) (type : Nat) : Bytes :=
  wireLegacy (leBytes 4 w.version) (legacyIns w.sig i type code) (legacyOuts w.sig i type) w.lockTime
    ++ (if w.version = 2 then wireJoinsplits w.js w.jsPubkey (List.replicate 64 0) else []) ++ leBytes 4 type

/-- The rules of a network. -/
structure ZRules where
  sha256 : Bytes → Bytes
  hash160 : Bytes → Bytes
  hash256 : Bytes → Bytes
  /-- BLAKE2b with a personalization -/
  blake : Bytes → Bytes → Bytes
  /-- `verify key digest signature` -/
  verify : Bytes → Bytes → Bytes → Bool

/-- The digest that a signature of input `i` signs, for a script code, the amount that is spent and a hash type; none for SINGLE without an output in
versions 1 and 2. -/
def ZRules.digest (R : ZRules) (w : ZTx) (i : Nat) (inp : WireIn) (amount code : Bytes) (type : Nat) : Option Bytes :=
  if w.version = 3 then some (sighash143 R.blake w.zsig i (some ⟨inp.txId ++ inp.index, varBytes code, amount, inp.sequence⟩) type)
  else if w.version = 4 then some (sighash243 R.blake w.zsig i (some ⟨inp.txId ++ inp.index, varBytes code, amount, inp.sequence⟩) type)
  else if baseType type = 3 ∧ w.outs.length ≤ i then none
  else some (R.hash256 (w.sproutPreimage i code type))

/-- Is the signature, whose last byte is the hash type, good? -/
def ZRules.checkSig (R : ZRules) (w : ZTx) (i : Nat) (inp : WireIn) (amount code sig key : Bytes) : Bool :=
  match sig.getLast? with
  | none => false
  | some ty => match R.digest w i inp amount code ty.toNat with
    | none => false
    | some d => R.verify key d sig.dropLast

/-- BIP 65. -/
def ZTx.lockOK (w : ZTx) (inp : WireIn) (x : Bytes) : Bool :=
  match scriptNumber 5 x with
  | none => false
  | some n => decide ((n < 500000000 ↔ leValue w.lockTime < 500000000) ∧ n ≤ leValue w.lockTime ∧ leValue inp.sequence ≠ 0xffffffff)

/-- Does input `i` of the transaction spend the output `prev`? -/
def ZTx.validInput (R : ZRules) (w : ZTx) (i : Nat) (prev : WireOut) : Bool :=
  match w.ins[i]? with
  | none => false
  | some inp => Spec.spends ⟨R.sha256, R.hash160, fun _ => R.checkSig w i inp prev.value, w.lockOK inp, false⟩ inp.script [] prev.script

end Verif.Spec
