import Verif.Model.Dyn
import Verif.Model.Sprout
import Verif.Model.Overwinter
import Verif.Model.Sapling

/-! # The constructors of tx/zcash_shared.py, tx/sprout.py, tx/overwinter.py and tx/sapling.py on arguments of any type

The same values and simplifications as in `Model/Dyn.lean`. -/

namespace Verif

namespace Val

/-- The conversion of the elements of a list or tuple to bytes (`bytes([...])`): each must be an integer (TypeError) between 0 and 255 (ValueError). -/
def byteList : List Val → Py Bytes
  | [] => .ok []
  | .int n :: vs =>
    if 0 ≤ n ∧ n < 256 then do
      let bs ← byteList vs
      .ok (UInt8.ofNat n.toNat :: bs)
    else .error .valueError
  | _ :: _ => .error .typeError

/-- utils.py:56-66, `le2i(v)`, that is `int.from_bytes(v, 'little')`: the argument may be bytes-like, or iterable over integers; not a string. -/
def le2i : Val → Py Nat
  | .bytes b => .ok (Verif.le2i b)
  | .bytearray b => .ok (Verif.le2i b)
  | .obj _ _ b => .ok (Verif.le2i b)
  | .list l => do
    let b ← byteList l
    .ok (Verif.le2i b)
  | .tuple l => do
    let b ← byteList l
    .ok (Verif.le2i b)
  | .str _ => .error .typeError
  | .int _ => .error .typeError
  | .none => .error .typeError

/-- Consecutive lines `self.validate_bytes(x, n)`. -/
def validateAll : List (Val × Nat) → Py Unit
  | [] => .ok ()
  | (v, n) :: vs => do
    v.validate (some n)
    validateAll vs

/-- `v.name` for the attribute at the given position of the constructor's assignments. -/
def attr (k : Nat) : Val → Py Val
  | .obj _ attrs _ => match attrs[k]? with
    | some v => .ok v
    | Option.none => .error .attributeError
  | _ => .error .attributeError

end Val

namespace Dyn
open Val

/-- tx/zcash_shared.py:26-64, `SproutZkproof(…)`. -/
def sproutProof (net : Network) (a a' b b' c c' k h : Val) : Py Val := do
  zcashGate net
  validateAll [(a, 33), (a', 33), (b, 65), (b', 33), (c, 33), (c', 33), (k, 33), (h, 33)]
  let self ← iaddAll [] [a, a', b, b', c, c', k, h]
  .ok (.obj .sproutProof [a, a', b, b', c, c', k, h] self)

/-- tx/sapling.py:16-31, `SaplingZkproof(…)`. -/
def saplingProof (net : Network) (a b c : Val) : Py Val := do
  zcashGate net
  validateAll [(a, 48), (b, 96), (c, 48)]
  let self ← iaddAll [] [a, b, c]
  .ok (.obj .saplingProof [a, b, c] self)

/-- tx/zcash_shared.py:110-111 and tx/sapling.py:188-189: at most one of the values is not zero. The second is looked at only if the first is not zero. -/
def checkVpub (vpubOld vpubNew : Val) : Py Unit := do
  let x ← vpubOld.le2i
  if x ≠ 0 then do
    let y ← vpubNew.le2i
    check (¬ y ≠ 0) .valueError
  else .ok ()

/-- tx/zcash_shared.py:92-145, `SproutJoinsplit(…)`; tx/sapling.py:169-223, `SaplingJoinsplit(…)`: the same but for the class of the proof. -/
def joinsplit (cls proof : Cls) (net : Network) (vpubOld vpubNew anchor nullifiers commitments ephemeralKey randomSeed vmacs zkproof encodedNotes : Val) : Py Val := do
  zcashGate net
  check (zkproof.isInstance proof) .valueError
  checkVpub vpubOld vpubNew
  validateAll [(vpubOld, 8), (vpubNew, 8), (anchor, 32), (nullifiers, 64), (commitments, 64), (ephemeralKey, 32), (randomSeed, 32), (vmacs, 64), (encodedNotes, 1202)]
  let self ← iaddAll [] [vpubOld, vpubNew, anchor, nullifiers, commitments, ephemeralKey, randomSeed, vmacs, zkproof, encodedNotes]
  .ok (.obj cls [vpubOld, vpubNew, anchor, nullifiers, commitments, ephemeralKey, randomSeed, vmacs, zkproof, encodedNotes] self)

/-- tx/zcash_shared.py:92-145. -/
def sproutJs (net : Network) (vpubOld vpubNew anchor nullifiers commitments ephemeralKey randomSeed vmacs zkproof encodedNotes : Val) : Py Val :=
  joinsplit .sproutJs .sproutProof net vpubOld vpubNew anchor nullifiers commitments ephemeralKey randomSeed vmacs zkproof encodedNotes

/-- tx/sapling.py:169-223. -/
def saplingJs (net : Network) (vpubOld vpubNew anchor nullifiers commitments ephemeralKey randomSeed vmacs zkproof encodedNotes : Val) : Py Val :=
  joinsplit .saplingJs .saplingProof net vpubOld vpubNew anchor nullifiers commitments ephemeralKey randomSeed vmacs zkproof encodedNotes

/-- tx/sapling.py:50-84, `SaplingShieldedSpend(…)`. -/
def saplingSpend (net : Network) (cv anchor nullifier rk zkproof spendAuthSig : Val) : Py Val := do
  zcashGate net
  validateAll [(cv, 32), (anchor, 32), (nullifier, 32), (rk, 32), (spendAuthSig, 64)]
  check (zkproof.isInstance .saplingProof) .valueError
  let self ← iaddAll [] [cv, anchor, nullifier, rk, zkproof, spendAuthSig]
  .ok (.obj .saplingSpend [cv, anchor, nullifier, rk, zkproof, spendAuthSig] self)

/-- tx/sapling.py:107-141, `SaplingShieldedOutput(…)`. -/
def saplingOutput (net : Network) (cv cmu ephemeralKey encCiphertext outCiphertext zkproof : Val) : Py Val := do
  zcashGate net
  validateAll [(cv, 32), (cmu, 32), (ephemeralKey, 32), (encCiphertext, 580), (outCiphertext, 80)]
  check (zkproof.isInstance .saplingProof) .valueError
  let self ← iaddAll [] [cv, cmu, ephemeralKey, encCiphertext, outCiphertext, zkproof]
  .ok (.obj .saplingOutput [cv, cmu, ephemeralKey, encCiphertext, outCiphertext, zkproof] self)

/-! ### transactions -/

/-- `_hsig` and `_hsig_input` (tx/sprout.py:126-140, tx/overwinter.py:169-183, tx/sapling.py:473-487) of one joinsplit. -/
def hsig (E : Env) (pubkey js : Val) : Py Bytes := do
  let seed ← js.attr 6
  let h ← iadd [] seed
  let nullifiers ← js.attr 3
  let h ← iadd h nullifiers
  let h ← iadd h pubkey
  .ok (E.H.blake2b (ascii (pystr "ZcashComputehSig")) h)

/-- `_primary_input` (tx/sprout.py:142-154, tx/overwinter.py:185-197, tx/sapling.py:489-501) of one joinsplit and its hash. -/
def primaryInput (js : Val) (hsig : Bytes) : Py Bytes := do
  let anchor ← js.attr 2
  let p ← iadd [] anchor
  let nullifiers ← js.attr 3
  let p ← iadd p nullifiers
  let commitments ← js.attr 4
  let p ← iadd p commitments
  let vpubOld ← js.attr 0
  let p ← iadd p vpubOld
  let vpubNew ← js.attr 1
  let p ← iadd p vpubNew
  let vmacs ← js.attr 7
  iadd (p ++ hsig) vmacs

/-- The tuples `hsigs` and `primary_inputs` (tx/sprout.py:106-109, tx/overwinter.py:110-113, tx/sapling.py:399-402). -/
def hsigs (E : Env) (pubkey : Val) (js : List Val) : Py (List Bytes × List Bytes) := do
  let hs ← mapPy (hsig E pubkey) js
  let ps ← mapPy (fun p => primaryInput p.1 p.2) (js.zip hs)
  .ok (hs, ps)

/-- `len(v)`, for a value that has been iterated over, then the elements. -/
def addVector (self : Bytes) (v : Val) : Py Bytes := do
  let n ← v.len
  let vn ← VarInt.make (n : Int)
  let xs ← v.iter
  iaddAll (self ++ vn.bytes) xs

/-- tx/overwinter.py:72-74 and tx/sapling.py:334-336. -/
def checkJsSig (n : Nat) (pubkey sig : Val) : Py Unit :=
  if n ≠ 0 then do
    pubkey.validate (some 32)
    sig.validate (some 64)
  else .ok ()

/-- tx/overwinter.py:90-95 and tx/sapling.py:363-368. -/
def addJs (self : Bytes) (js pubkey sig : Val) : Py Bytes := do
  let n ← js.len
  let vn ← VarInt.make (n : Int)
  let self := self ++ vn.bytes
  if n ≠ 0 then do
    let xs ← js.iter
    let self ← iaddAll self xs
    let self ← iadd self pubkey
    iadd self sig
  else .ok self

/-- The attributes about joinsplits (tx/overwinter.py:105-120, tx/sapling.py:394-409): tx_joinsplits, joinsplit_pubkey, joinsplit_sig, hsigs, primary_inputs. -/
def jsAttrs (E : Env) (js pubkey sig : Val) : Py (List Val) := do
  let n ← js.len
  if n ≠ 0 then do
    let xs ← js.iter
    let (hs, ps) ← hsigs E pubkey xs
    .ok [.tuple xs, pubkey, sig, .tuple (hs.map .bytes), .tuple (ps.map .bytes)]
  else .ok [.tuple [], .none, .none, .tuple [], .tuple []]

/-- tx/overwinter.py:26-129, `OverwinterTx(…)`. The attributes are tx_ins, tx_outs, lock_time, expiry_height, tx_joinsplits, joinsplit_pubkey, joinsplit_sig, hsigs,
primary_inputs, tx_id_le, tx_id (header, group_id and version are constants). -/
def overwinterTx (E : Env) (txIns txOuts lockTime expiryHeight txJoinsplits joinsplitPubkey joinsplitSig : Val) : Py Val := do
  zcashGate E.net
  check E.net.isOverwinter .valueError
  lockTime.validate (some 4)
  expiryHeight.validate (some 4)
  let height ← expiryHeight.le2i
  check (¬ height > 499999999) .valueError
  txIns.allInstances .txIn
  txOuts.allInstances .txOut
  let nj ← txJoinsplits.len
  check (¬ nj > 5) .valueError
  txJoinsplits.allInstances .sproutJs
  checkJsSig nj joinsplitPubkey joinsplitSig
  let ni ← txIns.len
  check (¬ (nj = 0 ∧ ni = 0)) .valueError
  let self ← addVector ([0x03, 0x00, 0x00, 0x80] ++ [0x70, 0x82, 0xc4, 0x03]) txIns
  let self ← addVector self txOuts
  let self ← iadd self lockTime
  let self ← iadd self expiryHeight
  let self ← addJs self txJoinsplits joinsplitPubkey joinsplitSig
  let ins ← txIns.iter
  let outs ← txOuts.iter
  let js ← jsAttrs E txJoinsplits joinsplitPubkey joinsplitSig
  let txIdLe := E.hash256 self
  check (¬ self.length > 100000) .valueError
  .ok (.obj .overwinterTx ([.tuple ins, .tuple outs, lockTime, expiryHeight] ++ js ++ [.bytes txIdLe, .bytes txIdLe.reverse]) self)

/-- tx/sprout.py:57-61: the tests for version 1. `tx_ins is None` cannot be, the inputs have been iterated over. -/
def checkV1 (v : Nat) (txIns txJoinsplits : Val) : Py Unit :=
  if v = 1 then do
    match txJoinsplits with
    | .none => .ok ()
    | js => do
      let n ← js.len
      check (¬ n ≠ 0) .valueError
    let ni ← txIns.len
    check (ni ≠ 0) .valueError
  else .ok ()

/-- tx/sprout.py:73-74. -/
def checkSproutSig (sig : Val) : Py Unit :=
  match sig with
  | .none => .ok ()
  | s => if s.neBytes [] then s.validate (some 64) else .ok ()

/-- tx/sprout.py:63-74: the tests for version 2. -/
def checkV2 (v : Nat) (txJoinsplits pubkey sig : Val) : Py Unit :=
  if v = 2 then do
    let n ← txJoinsplits.len
    check (¬ n > 5) .valueError
    txJoinsplits.allInstances .sproutJs
    pubkey.validate (some 32)
    checkSproutSig sig
  else .ok ()

/-- tx/sprout.py:89-94. -/
def addSproutJs (isV2 : Bool) (self : Bytes) (js pubkey sig : Val) : Py Bytes :=
  if isV2 then do
    let self ← addVector self js
    let self ← iadd self pubkey
    iadd self sig
  else .ok self

/-- tx/sprout.py:102-114: joinsplit_pubkey, joinsplit_sig, hsigs, primary_inputs. -/
def sproutJsAttrs (E : Env) (isV2 : Bool) (js : List Val) (pubkey sig : Val) : Py (List Val) :=
  if isV2 then do
    let (hs, ps) ← hsigs E pubkey js
    .ok [pubkey, sig, .tuple (hs.map .bytes), .tuple (ps.map .bytes)]
  else .ok [.none, .none, .tuple [], .tuple []]

/-- tx/sprout.py:24-124, `SproutTx(…)`. The attributes are version, tx_ins, tx_outs, tx_joinsplits, lock_time, joinsplit_pubkey, joinsplit_sig, hsigs, primary_inputs, tx_id_le,
tx_id. `version == utils.i2le_padded(2, 4)` is equality of the bytes also for `ByteData` objects (tx/shared.py:52-71). -/
def sproutTx (E : Env) (version txIns txOuts lockTime txJoinsplits joinsplitPubkey joinsplitSig : Val) : Py Val := do
  zcashGate E.net
  check E.net.isSprout .valueError
  version.validate (some 4)
  lockTime.validate (some 4)
  txIns.allInstances .txIn
  txOuts.allInstances .txOut
  let v ← version.le2i
  checkV1 v txIns txJoinsplits
  checkV2 v txJoinsplits joinsplitPubkey joinsplitSig
  check (v = 1 ∨ v = 2) .valueError
  let self ← iadd [] version
  let self ← addVector self txIns
  let self ← addVector self txOuts
  let self ← iadd self lockTime
  let two ← i2lePadded 2 4
  let isV2 := !(version.neBytes two)
  let self ← addSproutJs isV2 self txJoinsplits joinsplitPubkey joinsplitSig
  let ins ← txIns.iter
  let outs ← txOuts.iter
  let js ← txJoinsplits.iter
  let rest ← sproutJsAttrs E isV2 js joinsplitPubkey joinsplitSig
  let txIdLe := E.hash256 self
  check (¬ self.length > 100000) .valueError
  .ok (.obj .sproutTx ([version, .tuple ins, .tuple outs, .tuple js, lockTime] ++ rest ++ [.bytes txIdLe, .bytes txIdLe.reverse]) self)

/-- tx/sapling.py:287-294. -/
def checkBalance (valueBalance spends outputs bindingSig : Val) : Py Unit := do
  let ns ← spends.len
  let no ← outputs.len
  if ns + no = 0 ∧ valueBalance.neBytes (List.replicate 8 0) then .error .valueError
  else match bindingSig with
    | .none => .ok ()
    | s => s.validate (some 64)

/-- tx/sapling.py:370-374: the binding signature in the bytes and as an attribute. -/
def addBinding (self : Bytes) (spends outputs bindingSig : Val) : Py (Bytes × Val) := do
  let no ← outputs.len
  let ns ← spends.len
  if no + ns ≠ 0 then do
    let self ← iadd self bindingSig
    .ok (self, bindingSig)
  else .ok (self, .none)

/-- tx/sapling.py:258-416, `SaplingTx(…)`. The attributes are binding_sig, tx_ins, tx_outs, lock_time, expiry_height, value_balance, tx_shielded_spends, tx_shielded_outputs,
tx_joinsplits, joinsplit_pubkey, joinsplit_sig, hsigs, primary_inputs, tx_id_le, tx_id (header and group_id are constants). -/
def saplingTx (E : Env) (txIns txOuts lockTime expiryHeight valueBalance txShieldedSpends txShieldedOutputs txJoinsplits joinsplitPubkey joinsplitSig
    bindingSig : Val) : Py Val := do
  zcashGate E.net
  check E.net.isSapling .valueError
  lockTime.validate (some 4)
  expiryHeight.validate (some 4)
  valueBalance.validate (some 8)
  let height ← expiryHeight.le2i
  check (¬ height > 499999999) .valueError
  checkBalance valueBalance txShieldedSpends txShieldedOutputs bindingSig
  txIns.allInstances .txIn
  txOuts.allInstances .txOut
  let nj ← txJoinsplits.len
  check (¬ nj > 5) .valueError
  txShieldedSpends.allInstances .saplingSpend
  txShieldedOutputs.allInstances .saplingOutput
  txJoinsplits.allInstances .saplingJs
  checkJsSig nj joinsplitPubkey joinsplitSig
  let ni ← txIns.len
  let ns ← txShieldedSpends.len
  check (nj + ni + ns ≠ 0) .valueError
  let self ← addVector ([0x04, 0x00, 0x00, 0x80] ++ [0x85, 0x20, 0x2f, 0x89]) txIns
  let self ← addVector self txOuts
  let self ← iadd self lockTime
  let self ← iadd self expiryHeight
  let self ← iadd self valueBalance
  let self ← addVector self txShieldedSpends
  let self ← addVector self txShieldedOutputs
  let self ← addJs self txJoinsplits joinsplitPubkey joinsplitSig
  let (self, binding) ← addBinding self txShieldedSpends txShieldedOutputs bindingSig
  let ins ← txIns.iter
  let outs ← txOuts.iter
  let spends ← txShieldedSpends.iter
  let outputs ← txShieldedOutputs.iter
  let js ← jsAttrs E txJoinsplits joinsplitPubkey joinsplitSig
  let txIdLe := E.hash256 self
  check (¬ self.length > 100000) .valueError
  .ok (.obj .saplingTx ([binding, .tuple ins, .tuple outs, lockTime, expiryHeight, valueBalance, .tuple spends, .tuple outputs] ++ js ++
    [.bytes txIdLe, .bytes txIdLe.reverse]) self)

end Dyn

end Verif
