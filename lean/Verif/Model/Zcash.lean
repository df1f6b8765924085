import Verif.Model.Tx
import Verif.Model.Sighash

/-! # tx/zcash_shared.py and the components of tx/sapling.py; parts common to the three Zcash transaction classes

Arguments are of the annotated types, so the `isinstance` tests are met and not written; `Optional` arguments are options. -/

namespace Verif

/-- tx/zcash_shared.py:6-12, `ZcashByteData.__init__`: the network must be a Zcash one. -/
def zcashGate (net : Network) : Py Unit := check net.isZcash .valueError

/-- `validate_bytes(x, n)` (tx/shared.py:128-149) where `x` may be `None`, which is not bytes-like. -/
def validateOpt (x : Option Bytes) (n : Nat) : Py Unit :=
  match x with
  | some b => validateBytes b (some n)
  | none => .error .valueError

/-- `self += x` (tx/shared.py:35-49) where `x` may be `None`: the bytes appended, or TypeError. -/
def appendOpt (x : Option Bytes) : Py Bytes :=
  match x with
  | some b => .ok b
  | none => .error .typeError

/-- A bytes literal `b'...'` of ASCII characters. -/
def ascii (s : PyStr) : Bytes := s.map fun c => UInt8.ofNat c.toNat

/-! ### SproutZkproof -/

/-- tx/zcash_shared.py:15-62. -/
structure SproutZkproof where
  piSubA : Bytes
  piPrimeSubA : Bytes
  piSubB : Bytes
  piPrimeSubB : Bytes
  piSubC : Bytes
  piPrimeSubC : Bytes
  piSubK : Bytes
  piSubH : Bytes
  bytes : Bytes
  deriving DecidableEq, Repr

/-- tx/zcash_shared.py:26-64, `SproutZkproof.__init__`. -/
def SproutZkproof.make (net : Network) (a a' b b' c c' k h : Bytes) : Py SproutZkproof := do
  zcashGate net
  validateBytes a (some 33)
  validateBytes a' (some 33)
  validateBytes b (some 65)
  validateBytes b' (some 33)
  validateBytes c (some 33)
  validateBytes c' (some 33)
  validateBytes k (some 33)
  validateBytes h (some 33)
  .ok ⟨a, a', b, b', c, c', k, h, a ++ a' ++ b ++ b' ++ c ++ c' ++ k ++ h⟩

/-- tx/zcash_shared.py:66-76, `SproutZkproof.from_bytes`. -/
def SproutZkproof.fromBytes (net : Network) (x : Bytes) : Py SproutZkproof :=
  SproutZkproof.make net (slice x 0 33) (slice x 33 66) (slice x 66 131) (slice x 131 164) (slice x 164 197) (slice x 197 230)
    (slice x 230 263) (slice x 263 296)

/-! ### SproutJoinsplit -/

/-- tx/zcash_shared.py:79-145. -/
structure SproutJoinsplit where
  vpubOld : Bytes
  vpubNew : Bytes
  anchor : Bytes
  nullifiers : Bytes
  commitments : Bytes
  ephemeralKey : Bytes
  randomSeed : Bytes
  vmacs : Bytes
  zkproof : SproutZkproof
  encodedNotes : Bytes
  bytes : Bytes
  deriving DecidableEq, Repr

/-- tx/zcash_shared.py:92-145, `SproutJoinsplit.__init__`. -/
def SproutJoinsplit.make (net : Network) (vpubOld vpubNew anchor nullifiers commitments ephemeralKey randomSeed vmacs : Bytes)
    (zkproof : SproutZkproof) (encodedNotes : Bytes) : Py SproutJoinsplit := do
  zcashGate net
  check (¬ (le2i vpubOld ≠ 0 ∧ le2i vpubNew ≠ 0)) .valueError
  validateBytes vpubOld (some 8)
  validateBytes vpubNew (some 8)
  validateBytes anchor (some 32)
  validateBytes nullifiers (some 64)
  validateBytes commitments (some 64)
  validateBytes ephemeralKey (some 32)
  validateBytes randomSeed (some 32)
  validateBytes vmacs (some 64)
  validateBytes encodedNotes (some 1202)
  .ok ⟨vpubOld, vpubNew, anchor, nullifiers, commitments, ephemeralKey, randomSeed, vmacs, zkproof, encodedNotes,
    vpubOld ++ vpubNew ++ anchor ++ nullifiers ++ commitments ++ ephemeralKey ++ randomSeed ++ vmacs ++ zkproof.bytes ++ encodedNotes⟩

/-- tx/zcash_shared.py:147-159, `SproutJoinsplit.from_bytes`. -/
def SproutJoinsplit.fromBytes (net : Network) (x : Bytes) : Py SproutJoinsplit := do
  let zkproof ← SproutZkproof.fromBytes net (slice x 304 600)
  SproutJoinsplit.make net (slice x 0 8) (slice x 8 16) (slice x 16 48) (slice x 48 112) (slice x 112 176) (slice x 176 208)
    (slice x 208 240) (slice x 240 304) zkproof (slice x 600 1802)

/-! ### SaplingZkproof -/

/-- tx/sapling.py:10-31. -/
structure SaplingZkproof where
  piSubA : Bytes
  piSubB : Bytes
  piSubC : Bytes
  bytes : Bytes
  deriving DecidableEq, Repr

/-- tx/sapling.py:16-31, `SaplingZkproof.__init__`. -/
def SaplingZkproof.make (net : Network) (a b c : Bytes) : Py SaplingZkproof := do
  zcashGate net
  validateBytes a (some 48)
  validateBytes b (some 96)
  validateBytes c (some 48)
  .ok ⟨a, b, c, a ++ b ++ c⟩

/-- tx/sapling.py:33-38, `SaplingZkproof.from_bytes`. -/
def SaplingZkproof.fromBytes (net : Network) (x : Bytes) : Py SaplingZkproof :=
  SaplingZkproof.make net (slice x 0 48) (slice x 48 144) (slice x 144 192)

/-! ### SaplingShieldedSpend -/

/-- tx/sapling.py:41-84. -/
structure SaplingShieldedSpend where
  cv : Bytes
  anchor : Bytes
  nullifier : Bytes
  rk : Bytes
  zkproof : SaplingZkproof
  spendAuthSig : Bytes
  bytes : Bytes
  deriving DecidableEq, Repr

/-- tx/sapling.py:50-84, `SaplingShieldedSpend.__init__`. -/
def SaplingShieldedSpend.make (net : Network) (cv anchor nullifier rk : Bytes) (zkproof : SaplingZkproof) (spendAuthSig : Bytes) :
    Py SaplingShieldedSpend := do
  zcashGate net
  validateBytes cv (some 32)
  validateBytes anchor (some 32)
  validateBytes nullifier (some 32)
  validateBytes rk (some 32)
  validateBytes spendAuthSig (some 64)
  .ok ⟨cv, anchor, nullifier, rk, zkproof, spendAuthSig, cv ++ anchor ++ nullifier ++ rk ++ zkproof.bytes ++ spendAuthSig⟩

/-- tx/sapling.py:86-95, `SaplingShieldedSpend.from_bytes`. -/
def SaplingShieldedSpend.fromBytes (net : Network) (x : Bytes) : Py SaplingShieldedSpend := do
  let zkproof ← SaplingZkproof.fromBytes net (slice x 128 320)
  SaplingShieldedSpend.make net (slice x 0 32) (slice x 32 64) (slice x 64 96) (slice x 96 128) zkproof (slice x 320 384)

/-! ### SaplingShieldedOutput -/

/-- tx/sapling.py:98-141. -/
structure SaplingShieldedOutput where
  cv : Bytes
  cmu : Bytes
  ephemeralKey : Bytes
  encCiphertext : Bytes
  outCiphertext : Bytes
  zkproof : SaplingZkproof
  bytes : Bytes
  deriving DecidableEq, Repr

/-- tx/sapling.py:107-141, `SaplingShieldedOutput.__init__`. -/
def SaplingShieldedOutput.make (net : Network) (cv cmu ephemeralKey encCiphertext outCiphertext : Bytes) (zkproof : SaplingZkproof) :
    Py SaplingShieldedOutput := do
  zcashGate net
  validateBytes cv (some 32)
  validateBytes cmu (some 32)
  validateBytes ephemeralKey (some 32)
  validateBytes encCiphertext (some 580)
  validateBytes outCiphertext (some 80)
  .ok ⟨cv, cmu, ephemeralKey, encCiphertext, outCiphertext, zkproof,
    cv ++ cmu ++ ephemeralKey ++ encCiphertext ++ outCiphertext ++ zkproof.bytes⟩

/-- tx/sapling.py:143-153, `SaplingShieldedOutput.from_bytes`. -/
def SaplingShieldedOutput.fromBytes (net : Network) (x : Bytes) : Py SaplingShieldedOutput := do
  let zkproof ← SaplingZkproof.fromBytes net (slice x 756 948)
  SaplingShieldedOutput.make net (slice x 0 32) (slice x 32 64) (slice x 64 96) (slice x 96 676) (slice x 676 756) zkproof

/-! ### SaplingJoinsplit -/

/-- tx/sapling.py:156-223. -/
structure SaplingJoinsplit where
  vpubOld : Bytes
  vpubNew : Bytes
  anchor : Bytes
  nullifiers : Bytes
  commitments : Bytes
  ephemeralKey : Bytes
  randomSeed : Bytes
  vmacs : Bytes
  zkproof : SaplingZkproof
  encodedNotes : Bytes
  bytes : Bytes
  deriving DecidableEq, Repr

/-- tx/sapling.py:169-223, `SaplingJoinsplit.__init__`. -/
def SaplingJoinsplit.make (net : Network) (vpubOld vpubNew anchor nullifiers commitments ephemeralKey randomSeed vmacs : Bytes)
    (zkproof : SaplingZkproof) (encodedNotes : Bytes) : Py SaplingJoinsplit := do
  zcashGate net
  check (¬ (le2i vpubOld ≠ 0 ∧ le2i vpubNew ≠ 0)) .valueError
  validateBytes vpubOld (some 8)
  validateBytes vpubNew (some 8)
  validateBytes anchor (some 32)
  validateBytes nullifiers (some 64)
  validateBytes commitments (some 64)
  validateBytes ephemeralKey (some 32)
  validateBytes randomSeed (some 32)
  validateBytes vmacs (some 64)
  validateBytes encodedNotes (some 1202)
  .ok ⟨vpubOld, vpubNew, anchor, nullifiers, commitments, ephemeralKey, randomSeed, vmacs, zkproof, encodedNotes,
    vpubOld ++ vpubNew ++ anchor ++ nullifiers ++ commitments ++ ephemeralKey ++ randomSeed ++ vmacs ++ zkproof.bytes ++ encodedNotes⟩

/-- tx/sapling.py:225-237, `SaplingJoinsplit.from_bytes`. -/
def SaplingJoinsplit.fromBytes (net : Network) (x : Bytes) : Py SaplingJoinsplit := do
  let zkproof ← SaplingZkproof.fromBytes net (slice x 304 496)
  SaplingJoinsplit.make net (slice x 0 8) (slice x 8 16) (slice x 16 48) (slice x 48 112) (slice x 112 176) (slice x 176 208)
    (slice x 208 240) (slice x 240 304) zkproof (slice x 496 1698)

/-! ### parts the transaction classes share -/

/-- `_hsig` and `_hsig_input` (tx/sprout.py:126-140, tx/overwinter.py:169-183, tx/sapling.py:473-487), on what they read. -/
def hsig (E : Env) (randomSeed nullifiers joinsplitPubkey : Bytes) : Bytes :=
  E.H.blake2b (ascii (pystr "ZcashComputehSig")) (randomSeed ++ nullifiers ++ joinsplitPubkey)

/-- `_primary_input` (tx/sprout.py:142-154, tx/overwinter.py:185-197, tx/sapling.py:489-501), on what it reads. -/
def primaryInput (anchor nullifiers commitments vpubOld vpubNew hsig vmacs : Bytes) : Bytes :=
  anchor ++ nullifiers ++ commitments ++ vpubOld ++ vpubNew ++ hsig ++ vmacs

/-- What the beginnings of the three `from_bytes` compute. -/
structure InsOuts where
  txIns : List TxIn
  txOuts : List TxOut
  /-- `len(tx_outs_num)` -/
  outsNumLen : Nat
  current : Nat

/-- The common beginning of the three `from_bytes` (tx/sprout.py:162-179, tx/overwinter.py:216-233, tx/sapling.py:520-537): inputs
and outputs from position `start`. -/
def parseInsOuts (net : Network) (b : Bytes) (start : Nat) : Py InsOuts := do
  let txInsNum ← VarInt.fromBytes net (b.drop start)
  let (txIns, current) ← parseMany (TxIn.fromBytes net) (·.bytes.length) b txInsNum.number (start + txInsNum.bytes.length)
  let txOutsNum ← VarInt.fromBytes net (b.drop current)
  let (txOuts, current) ← parseMany (TxOut.fromBytes net) (·.bytes.length) b txOutsNum.number (current + txOutsNum.bytes.length)
  .ok ⟨txIns, txOuts, txOutsNum.bytes.length, current⟩

end Verif
