import Verif.Lemmas.Sapling2
import Verif.Props.Tx

/-! Property C54: the components of Zcash transactions. -/

namespace Verif.Props
open Verif Spec

theorem ve_cases {α : Type} {x : Py α} (h : OnlyVE x) : x = .error .valueError ∨ ∃ a, x = .ok a := by
  cases hx : x with
  | ok a => exact .inr ⟨a, rfl⟩
  | error e => rw [h e hx]; exact .inl rfl

/-! ## C54 -/

/-- C54: `SproutZkproof` takes exactly fields of the right lengths on a Zcash network, and serializes to
their concatenation; anything else is a ValueError. -/
theorem C54_sprout_zkproof_make (net : Network) (a a' b b' c c' k e : Bytes) :
    (net.isZcash = true ∧ a.length = 33 ∧ a'.length = 33 ∧ b.length = 65 ∧ b'.length = 33 ∧ c.length = 33 ∧ c'.length = 33 ∧
      k.length = 33 ∧ e.length = 33 →
      ∃ t, SproutZkproof.make net a a' b b' c c' k e = .ok t ∧
      t.piSubA = a ∧ t.piPrimeSubA = a' ∧ t.piSubB = b ∧ t.piPrimeSubB = b' ∧ t.piSubC = c ∧ t.piPrimeSubC = c' ∧ t.piSubK = k ∧
      t.piSubH = e ∧
      t.bytes = a ++ a' ++ b ++ b' ++ c ++ c' ++ k ++ e) ∧
    (¬ (net.isZcash = true ∧ a.length = 33 ∧ a'.length = 33 ∧ b.length = 65 ∧ b'.length = 33 ∧ c.length = 33 ∧ c'.length = 33 ∧
      k.length = 33 ∧ e.length = 33) →
      SproutZkproof.make net a a' b b' c c' k e = .error .valueError) := by
  constructor
  · rintro ⟨h0, h1, h2, h3, h4, h5, h6, h7, h8⟩
    exact ⟨_, SproutZkproof.make_iff.2 ⟨h0, h1, h2, h3, h4, h5, h6, h7, h8, rfl⟩, rfl, rfl, rfl, rfl, rfl, rfl, rfl, rfl, rfl⟩
  · intro h
    rcases ve_cases (SproutZkproof.make_ve net a a' b b' c c' k e) with e1 | ⟨t, e1⟩
    · exact e1
    · exfalso
      have q := SproutZkproof.make_iff.1 e1
      obtain ⟨h0, h1, h2, h3, h4, h5, h6, h7, h8, -⟩ := q; exact h ⟨h0, h1, h2, h3, h4, h5, h6, h7, h8⟩

/-- C54: `SproutZkproof` objects have 296 bytes and parse back, whatever follows. -/
theorem C54_sprout_zkproof_roundtrip (net : Network) (t : SproutZkproof) (h : t.Built net) (rest : Bytes) :
    t.bytes.length = 296 ∧ SproutZkproof.fromBytes net (t.bytes ++ rest) = .ok t :=
  ⟨h.length, SproutZkproof.fromBytes_bytes h rest⟩

/-- C54: `from_bytes` accepts exactly the strings of at least 296 bytes (on a Zcash network) and returns the object
that serializes to the first 296; anything else is a ValueError. -/
theorem C54_sprout_zkproof_parse (net : Network) (x : Bytes) :
    (net.isZcash = true ∧ 296 ≤ x.length → ∃ t, SproutZkproof.fromBytes net x = .ok t ∧ t.Built net ∧ t.bytes = x.take 296) ∧
    (¬ (net.isZcash = true ∧ 296 ≤ x.length) → SproutZkproof.fromBytes net x = .error .valueError) := by
  constructor
  · rintro ⟨hz, hx⟩
    obtain ⟨t, e1⟩ := SproutZkproof.fromBytes_iff hz hx
    exact ⟨t, e1, (SproutZkproof.fromBytes_ok e1).1, (SproutZkproof.fromBytes_ok e1).2.2⟩
  · intro h
    rcases ve_cases (SproutZkproof.fromBytes_ve net x) with e1 | ⟨t, e1⟩
    · exact e1
    · exfalso
      have hl := (SproutZkproof.fromBytes_ok e1).2.1
      exact h ⟨(SproutZkproof.make_iff.1 e1).1, hl⟩

/-- C54: `SproutJoinsplit` takes exactly fields of the right lengths with at most one public value on a Zcash network, and serializes to
their concatenation; anything else is a ValueError. -/
theorem C54_sprout_joinsplit_make (net : Network) (vpubOld vpubNew anchor nullifiers commitments ephemeralKey randomSeed vmacs : Bytes) (zkproof : SproutZkproof) (encodedNotes : Bytes) :
    (net.isZcash = true ∧ vpubOld.length = 8 ∧ vpubNew.length = 8 ∧ anchor.length = 32 ∧ nullifiers.length = 64 ∧
      commitments.length = 64 ∧ ephemeralKey.length = 32 ∧ randomSeed.length = 32 ∧ vmacs.length = 64 ∧
      encodedNotes.length = 1202 ∧ ¬ (leToNat vpubOld ≠ 0 ∧ leToNat vpubNew ≠ 0) →
      ∃ t, SproutJoinsplit.make net vpubOld vpubNew anchor nullifiers commitments ephemeralKey randomSeed vmacs zkproof encodedNotes = .ok t ∧
      t.vpubOld = vpubOld ∧ t.vpubNew = vpubNew ∧ t.anchor = anchor ∧ t.nullifiers = nullifiers ∧ t.commitments = commitments ∧
      t.ephemeralKey = ephemeralKey ∧ t.randomSeed = randomSeed ∧ t.vmacs = vmacs ∧ t.zkproof = zkproof ∧
      t.encodedNotes = encodedNotes ∧
      t.bytes = vpubOld ++ vpubNew ++ anchor ++ nullifiers ++ commitments ++ ephemeralKey ++ randomSeed ++ vmacs ++ zkproof.bytes ++ encodedNotes) ∧
    (¬ (net.isZcash = true ∧ vpubOld.length = 8 ∧ vpubNew.length = 8 ∧ anchor.length = 32 ∧ nullifiers.length = 64 ∧
      commitments.length = 64 ∧ ephemeralKey.length = 32 ∧ randomSeed.length = 32 ∧ vmacs.length = 64 ∧
      encodedNotes.length = 1202 ∧ ¬ (leToNat vpubOld ≠ 0 ∧ leToNat vpubNew ≠ 0)) →
      SproutJoinsplit.make net vpubOld vpubNew anchor nullifiers commitments ephemeralKey randomSeed vmacs zkproof encodedNotes = .error .valueError) := by
  constructor
  · rintro ⟨h0, h1, h2, h3, h4, h5, h6, h7, h8, h9, hv⟩
    exact ⟨_, SproutJoinsplit.make_iff.2 ⟨h0, hv, ⟨h1, h2, h3, h4, h5, h6, h7, h8, h9⟩, rfl⟩, rfl, rfl, rfl, rfl, rfl, rfl, rfl, rfl, rfl, rfl, rfl⟩
  · intro h
    rcases ve_cases (SproutJoinsplit.make_ve net vpubOld vpubNew anchor nullifiers commitments ephemeralKey randomSeed vmacs zkproof encodedNotes) with e1 | ⟨t, e1⟩
    · exact e1
    · exfalso
      have q := SproutJoinsplit.make_iff.1 e1
      exact h ⟨q.1, q.2.2.1.vo, q.2.2.1.vn, q.2.2.1.an, q.2.2.1.nf, q.2.2.1.cm, q.2.2.1.ek, q.2.2.1.rs, q.2.2.1.vm, q.2.2.1.en, q.2.1⟩

/-- C54: `SproutJoinsplit` objects have 1802 bytes and parse back, whatever follows. -/
theorem C54_sprout_joinsplit_roundtrip (net : Network) (t : SproutJoinsplit) (h : t.Built net) (rest : Bytes) :
    t.bytes.length = 1802 ∧ SproutJoinsplit.fromBytes net (t.bytes ++ rest) = .ok t :=
  ⟨h.length, SproutJoinsplit.fromBytes_bytes h rest⟩

/-- C54: `from_bytes` accepts exactly the strings of at least 1802 bytes (on a Zcash network, with at most one public value) and returns the object
that serializes to the first 1802; anything else is a ValueError. -/
theorem C54_sprout_joinsplit_parse (net : Network) (x : Bytes) :
    (net.isZcash = true ∧ 1802 ≤ x.length ∧ ¬ (leToNat (x.take 8) ≠ 0 ∧ leToNat ((x.drop 8).take 8) ≠ 0) → ∃ t, SproutJoinsplit.fromBytes net x = .ok t ∧ t.Built net ∧ t.bytes = x.take 1802) ∧
    (¬ (net.isZcash = true ∧ 1802 ≤ x.length ∧ ¬ (leToNat (x.take 8) ≠ 0 ∧ leToNat ((x.drop 8).take 8) ≠ 0)) → SproutJoinsplit.fromBytes net x = .error .valueError) := by
  have hs : slice x 0 8 = x.take 8 ∧ slice x 8 16 = (x.drop 8).take 8 := ⟨by simp [slice], by unfold slice; rw [List.drop_take]⟩
  constructor
  · rintro ⟨hz, hx, hv⟩
    obtain ⟨t, e1⟩ := SproutJoinsplit.fromBytes_iff hz hx (by rw [hs.1, hs.2]; exact hv)
    exact ⟨t, e1, (SproutJoinsplit.fromBytes_ok e1).1, (SproutJoinsplit.fromBytes_ok e1).2.2⟩
  · intro h
    rcases ve_cases (SproutJoinsplit.fromBytes_ve net x) with e1 | ⟨t, e1⟩
    · exact e1
    · exfalso
      have hl := (SproutJoinsplit.fromBytes_ok e1).2.1
      obtain ⟨zk, _, e1⟩ := bind_ok_iff.1 e1
      have q := SproutJoinsplit.make_iff.1 e1
      rw [hs.1, hs.2] at q
      exact h ⟨q.1, hl, q.2.1⟩

/-- C54: `SaplingZkproof` takes exactly fields of the right lengths on a Zcash network, and serializes to
their concatenation; anything else is a ValueError. -/
theorem C54_sapling_zkproof_make (net : Network) (a b c : Bytes) :
    (net.isZcash = true ∧ a.length = 48 ∧ b.length = 96 ∧ c.length = 48 →
      ∃ t, SaplingZkproof.make net a b c = .ok t ∧
      t.piSubA = a ∧ t.piSubB = b ∧ t.piSubC = c ∧
      t.bytes = a ++ b ++ c) ∧
    (¬ (net.isZcash = true ∧ a.length = 48 ∧ b.length = 96 ∧ c.length = 48) →
      SaplingZkproof.make net a b c = .error .valueError) := by
  constructor
  · rintro ⟨h0, h1, h2, h3⟩
    exact ⟨_, SaplingZkproof.make_iff.2 ⟨h0, h1, h2, h3, rfl⟩, rfl, rfl, rfl, rfl⟩
  · intro h
    rcases ve_cases (SaplingZkproof.make_ve net a b c) with e1 | ⟨t, e1⟩
    · exact e1
    · exfalso
      have q := SaplingZkproof.make_iff.1 e1
      obtain ⟨h0, h1, h2, h3, -⟩ := q; exact h ⟨h0, h1, h2, h3⟩

/-- C54: `SaplingZkproof` objects have 192 bytes and parse back, whatever follows. -/
theorem C54_sapling_zkproof_roundtrip (net : Network) (t : SaplingZkproof) (h : t.Built net) (rest : Bytes) :
    t.bytes.length = 192 ∧ SaplingZkproof.fromBytes net (t.bytes ++ rest) = .ok t :=
  ⟨h.length, SaplingZkproof.fromBytes_bytes h rest⟩

/-- C54: `from_bytes` accepts exactly the strings of at least 192 bytes (on a Zcash network) and returns the object
that serializes to the first 192; anything else is a ValueError. -/
theorem C54_sapling_zkproof_parse (net : Network) (x : Bytes) :
    (net.isZcash = true ∧ 192 ≤ x.length → ∃ t, SaplingZkproof.fromBytes net x = .ok t ∧ t.Built net ∧ t.bytes = x.take 192) ∧
    (¬ (net.isZcash = true ∧ 192 ≤ x.length) → SaplingZkproof.fromBytes net x = .error .valueError) := by
  constructor
  · rintro ⟨hz, hx⟩
    obtain ⟨t, e1⟩ := SaplingZkproof.fromBytes_iff hz hx
    exact ⟨t, e1, (SaplingZkproof.fromBytes_ok e1).1, (SaplingZkproof.fromBytes_ok e1).2.2⟩
  · intro h
    rcases ve_cases (SaplingZkproof.fromBytes_ve net x) with e1 | ⟨t, e1⟩
    · exact e1
    · exfalso
      have hl := (SaplingZkproof.fromBytes_ok e1).2.1
      exact h ⟨(SaplingZkproof.make_iff.1 e1).1, hl⟩

/-- C54: `SaplingShieldedSpend` takes exactly fields of the right lengths on a Zcash network, and serializes to
their concatenation; anything else is a ValueError. -/
theorem C54_shielded_spend_make (net : Network) (cv anchor nullifier rk : Bytes) (zkproof : SaplingZkproof) (sig : Bytes) :
    (net.isZcash = true ∧ cv.length = 32 ∧ anchor.length = 32 ∧ nullifier.length = 32 ∧ rk.length = 32 ∧ sig.length = 64 →
      ∃ t, SaplingShieldedSpend.make net cv anchor nullifier rk zkproof sig = .ok t ∧
      t.cv = cv ∧ t.anchor = anchor ∧ t.nullifier = nullifier ∧ t.rk = rk ∧ t.zkproof = zkproof ∧ t.spendAuthSig = sig ∧
      t.bytes = cv ++ anchor ++ nullifier ++ rk ++ zkproof.bytes ++ sig) ∧
    (¬ (net.isZcash = true ∧ cv.length = 32 ∧ anchor.length = 32 ∧ nullifier.length = 32 ∧ rk.length = 32 ∧ sig.length = 64) →
      SaplingShieldedSpend.make net cv anchor nullifier rk zkproof sig = .error .valueError) := by
  constructor
  · rintro ⟨h0, h1, h2, h3, h4, h5⟩
    exact ⟨_, SaplingShieldedSpend.make_iff.2 ⟨h0, h1, h2, h3, h4, h5, rfl⟩, rfl, rfl, rfl, rfl, rfl, rfl, rfl⟩
  · intro h
    rcases ve_cases (SaplingShieldedSpend.make_ve net cv anchor nullifier rk zkproof sig) with e1 | ⟨t, e1⟩
    · exact e1
    · exfalso
      have q := SaplingShieldedSpend.make_iff.1 e1
      obtain ⟨h0, h1, h2, h3, h4, h5, -⟩ := q; exact h ⟨h0, h1, h2, h3, h4, h5⟩

/-- C54: `SaplingShieldedSpend` objects have 384 bytes and parse back, whatever follows. -/
theorem C54_shielded_spend_roundtrip (net : Network) (t : SaplingShieldedSpend) (h : t.Built net) (rest : Bytes) :
    t.bytes.length = 384 ∧ SaplingShieldedSpend.fromBytes net (t.bytes ++ rest) = .ok t :=
  ⟨h.length, SaplingShieldedSpend.fromBytes_bytes h rest⟩

/-- C54: `from_bytes` accepts exactly the strings of at least 384 bytes (on a Zcash network) and returns the object
that serializes to the first 384; anything else is a ValueError. -/
theorem C54_shielded_spend_parse (net : Network) (x : Bytes) :
    (net.isZcash = true ∧ 384 ≤ x.length → ∃ t, SaplingShieldedSpend.fromBytes net x = .ok t ∧ t.Built net ∧ t.bytes = x.take 384) ∧
    (¬ (net.isZcash = true ∧ 384 ≤ x.length) → SaplingShieldedSpend.fromBytes net x = .error .valueError) := by
  constructor
  · rintro ⟨hz, hx⟩
    obtain ⟨t, e1⟩ := SaplingShieldedSpend.fromBytes_iff hz hx
    exact ⟨t, e1, (SaplingShieldedSpend.fromBytes_ok e1).1, (SaplingShieldedSpend.fromBytes_ok e1).2.2⟩
  · intro h
    rcases ve_cases (SaplingShieldedSpend.fromBytes_ve net x) with e1 | ⟨t, e1⟩
    · exact e1
    · exfalso
      have hl := (SaplingShieldedSpend.fromBytes_ok e1).2.1
      obtain ⟨zk, _, e1⟩ := bind_ok_iff.1 e1
      exact h ⟨(SaplingShieldedSpend.make_iff.1 e1).1, hl⟩

/-- C54: `SaplingShieldedOutput` takes exactly fields of the right lengths on a Zcash network, and serializes to
their concatenation; anything else is a ValueError. -/
theorem C54_shielded_output_make (net : Network) (cv cmu ek enc out : Bytes) (zkproof : SaplingZkproof) :
    (net.isZcash = true ∧ cv.length = 32 ∧ cmu.length = 32 ∧ ek.length = 32 ∧ enc.length = 580 ∧ out.length = 80 →
      ∃ t, SaplingShieldedOutput.make net cv cmu ek enc out zkproof = .ok t ∧
      t.cv = cv ∧ t.cmu = cmu ∧ t.ephemeralKey = ek ∧ t.encCiphertext = enc ∧ t.outCiphertext = out ∧ t.zkproof = zkproof ∧
      t.bytes = cv ++ cmu ++ ek ++ enc ++ out ++ zkproof.bytes) ∧
    (¬ (net.isZcash = true ∧ cv.length = 32 ∧ cmu.length = 32 ∧ ek.length = 32 ∧ enc.length = 580 ∧ out.length = 80) →
      SaplingShieldedOutput.make net cv cmu ek enc out zkproof = .error .valueError) := by
  constructor
  · rintro ⟨h0, h1, h2, h3, h4, h5⟩
    exact ⟨_, SaplingShieldedOutput.make_iff.2 ⟨h0, h1, h2, h3, h4, h5, rfl⟩, rfl, rfl, rfl, rfl, rfl, rfl, rfl⟩
  · intro h
    rcases ve_cases (SaplingShieldedOutput.make_ve net cv cmu ek enc out zkproof) with e1 | ⟨t, e1⟩
    · exact e1
    · exfalso
      have q := SaplingShieldedOutput.make_iff.1 e1
      obtain ⟨h0, h1, h2, h3, h4, h5, -⟩ := q; exact h ⟨h0, h1, h2, h3, h4, h5⟩

/-- C54: `SaplingShieldedOutput` objects have 948 bytes and parse back, whatever follows. -/
theorem C54_shielded_output_roundtrip (net : Network) (t : SaplingShieldedOutput) (h : t.Built net) (rest : Bytes) :
    t.bytes.length = 948 ∧ SaplingShieldedOutput.fromBytes net (t.bytes ++ rest) = .ok t :=
  ⟨h.length, SaplingShieldedOutput.fromBytes_bytes h rest⟩

/-- C54: `from_bytes` accepts exactly the strings of at least 948 bytes (on a Zcash network) and returns the object
that serializes to the first 948; anything else is a ValueError. -/
theorem C54_shielded_output_parse (net : Network) (x : Bytes) :
    (net.isZcash = true ∧ 948 ≤ x.length → ∃ t, SaplingShieldedOutput.fromBytes net x = .ok t ∧ t.Built net ∧ t.bytes = x.take 948) ∧
    (¬ (net.isZcash = true ∧ 948 ≤ x.length) → SaplingShieldedOutput.fromBytes net x = .error .valueError) := by
  constructor
  · rintro ⟨hz, hx⟩
    obtain ⟨t, e1⟩ := SaplingShieldedOutput.fromBytes_iff hz hx
    exact ⟨t, e1, (SaplingShieldedOutput.fromBytes_ok e1).1, (SaplingShieldedOutput.fromBytes_ok e1).2.2⟩
  · intro h
    rcases ve_cases (SaplingShieldedOutput.fromBytes_ve net x) with e1 | ⟨t, e1⟩
    · exact e1
    · exfalso
      have hl := (SaplingShieldedOutput.fromBytes_ok e1).2.1
      obtain ⟨zk, _, e1⟩ := bind_ok_iff.1 e1
      exact h ⟨(SaplingShieldedOutput.make_iff.1 e1).1, hl⟩

/-- C54: `SaplingJoinsplit` takes exactly fields of the right lengths with at most one public value on a Zcash network, and serializes to
their concatenation; anything else is a ValueError. -/
theorem C54_sapling_joinsplit_make (net : Network) (vpubOld vpubNew anchor nullifiers commitments ephemeralKey randomSeed vmacs : Bytes) (zkproof : SaplingZkproof) (encodedNotes : Bytes) :
    (net.isZcash = true ∧ vpubOld.length = 8 ∧ vpubNew.length = 8 ∧ anchor.length = 32 ∧ nullifiers.length = 64 ∧
      commitments.length = 64 ∧ ephemeralKey.length = 32 ∧ randomSeed.length = 32 ∧ vmacs.length = 64 ∧
      encodedNotes.length = 1202 ∧ ¬ (leToNat vpubOld ≠ 0 ∧ leToNat vpubNew ≠ 0) →
      ∃ t, SaplingJoinsplit.make net vpubOld vpubNew anchor nullifiers commitments ephemeralKey randomSeed vmacs zkproof encodedNotes = .ok t ∧
      t.vpubOld = vpubOld ∧ t.vpubNew = vpubNew ∧ t.anchor = anchor ∧ t.nullifiers = nullifiers ∧ t.commitments = commitments ∧
      t.ephemeralKey = ephemeralKey ∧ t.randomSeed = randomSeed ∧ t.vmacs = vmacs ∧ t.zkproof = zkproof ∧
      t.encodedNotes = encodedNotes ∧
      t.bytes = vpubOld ++ vpubNew ++ anchor ++ nullifiers ++ commitments ++ ephemeralKey ++ randomSeed ++ vmacs ++ zkproof.bytes ++ encodedNotes) ∧
    (¬ (net.isZcash = true ∧ vpubOld.length = 8 ∧ vpubNew.length = 8 ∧ anchor.length = 32 ∧ nullifiers.length = 64 ∧
      commitments.length = 64 ∧ ephemeralKey.length = 32 ∧ randomSeed.length = 32 ∧ vmacs.length = 64 ∧
      encodedNotes.length = 1202 ∧ ¬ (leToNat vpubOld ≠ 0 ∧ leToNat vpubNew ≠ 0)) →
      SaplingJoinsplit.make net vpubOld vpubNew anchor nullifiers commitments ephemeralKey randomSeed vmacs zkproof encodedNotes = .error .valueError) := by
  constructor
  · rintro ⟨h0, h1, h2, h3, h4, h5, h6, h7, h8, h9, hv⟩
    exact ⟨_, SaplingJoinsplit.make_iff.2 ⟨h0, hv, ⟨h1, h2, h3, h4, h5, h6, h7, h8, h9⟩, rfl⟩, rfl, rfl, rfl, rfl, rfl, rfl, rfl, rfl, rfl, rfl, rfl⟩
  · intro h
    rcases ve_cases (SaplingJoinsplit.make_ve net vpubOld vpubNew anchor nullifiers commitments ephemeralKey randomSeed vmacs zkproof encodedNotes) with e1 | ⟨t, e1⟩
    · exact e1
    · exfalso
      have q := SaplingJoinsplit.make_iff.1 e1
      exact h ⟨q.1, q.2.2.1.vo, q.2.2.1.vn, q.2.2.1.an, q.2.2.1.nf, q.2.2.1.cm, q.2.2.1.ek, q.2.2.1.rs, q.2.2.1.vm, q.2.2.1.en, q.2.1⟩

/-- C54: `SaplingJoinsplit` objects have 1698 bytes and parse back, whatever follows. -/
theorem C54_sapling_joinsplit_roundtrip (net : Network) (t : SaplingJoinsplit) (h : t.Built net) (rest : Bytes) :
    t.bytes.length = 1698 ∧ SaplingJoinsplit.fromBytes net (t.bytes ++ rest) = .ok t :=
  ⟨h.length, SaplingJoinsplit.fromBytes_bytes h rest⟩

/-- C54: `from_bytes` accepts exactly the strings of at least 1698 bytes (on a Zcash network, with at most one public value) and returns the object
that serializes to the first 1698; anything else is a ValueError. -/
theorem C54_sapling_joinsplit_parse (net : Network) (x : Bytes) :
    (net.isZcash = true ∧ 1698 ≤ x.length ∧ ¬ (leToNat (x.take 8) ≠ 0 ∧ leToNat ((x.drop 8).take 8) ≠ 0) → ∃ t, SaplingJoinsplit.fromBytes net x = .ok t ∧ t.Built net ∧ t.bytes = x.take 1698) ∧
    (¬ (net.isZcash = true ∧ 1698 ≤ x.length ∧ ¬ (leToNat (x.take 8) ≠ 0 ∧ leToNat ((x.drop 8).take 8) ≠ 0)) → SaplingJoinsplit.fromBytes net x = .error .valueError) := by
  have hs : slice x 0 8 = x.take 8 ∧ slice x 8 16 = (x.drop 8).take 8 := ⟨by simp [slice], by unfold slice; rw [List.drop_take]⟩
  constructor
  · rintro ⟨hz, hx, hv⟩
    obtain ⟨t, e1⟩ := SaplingJoinsplit.fromBytes_iff hz hx (by rw [hs.1, hs.2]; exact hv)
    exact ⟨t, e1, (SaplingJoinsplit.fromBytes_ok e1).1, (SaplingJoinsplit.fromBytes_ok e1).2.2⟩
  · intro h
    rcases ve_cases (SaplingJoinsplit.fromBytes_ve net x) with e1 | ⟨t, e1⟩
    · exact e1
    · exfalso
      have hl := (SaplingJoinsplit.fromBytes_ok e1).2.1
      obtain ⟨zk, _, e1⟩ := bind_ok_iff.1 e1
      have q := SaplingJoinsplit.make_iff.1 e1
      rw [hs.1, hs.2] at q
      exact h ⟨q.1, hl, q.2.1⟩

/-! Concrete components for the examples here and in the files that follow. -/

/-- A network's proof with distinct parts. -/
def exSproutProof : SproutZkproof :=
  ⟨List.replicate 33 1, List.replicate 33 2, List.replicate 65 3, List.replicate 33 4, List.replicate 33 5, List.replicate 33 6,
    List.replicate 33 7, List.replicate 33 8, List.replicate 33 1 ++ List.replicate 33 2 ++ List.replicate 65 3 ++ List.replicate 33 4
      ++ List.replicate 33 5 ++ List.replicate 33 6 ++ List.replicate 33 7 ++ List.replicate 33 8⟩

theorem exSproutProof_built {net : Network} (h : net.isZcash = true) : exSproutProof.Built net := by
  refine ⟨_, _, _, _, _, _, _, _, SproutZkproof.make_iff.2 ⟨h, ?_, ?_, ?_, ?_, ?_, ?_, ?_, ?_, rfl⟩⟩ <;> exact List.length_replicate

def exSaplingProof : SaplingZkproof :=
  ⟨List.replicate 48 1, List.replicate 96 2, List.replicate 48 3, List.replicate 48 1 ++ List.replicate 96 2 ++ List.replicate 48 3⟩

theorem exSaplingProof_built {net : Network} (h : net.isZcash = true) : exSaplingProof.Built net := by
  refine ⟨_, _, _, SaplingZkproof.make_iff.2 ⟨h, ?_, ?_, ?_, rfl⟩⟩ <;> exact List.length_replicate

/-- `vpub_new` is 5, `vpub_old` is 0. -/
def exSproutJs : SproutJoinsplit :=
  ⟨List.replicate 8 0, 5 :: List.replicate 7 0, List.replicate 32 1, List.replicate 64 2, List.replicate 64 3, List.replicate 32 4,
    List.replicate 32 5, List.replicate 64 6, exSproutProof, List.replicate 1202 7,
    List.replicate 8 0 ++ (5 :: List.replicate 7 0) ++ List.replicate 32 1 ++ List.replicate 64 2 ++ List.replicate 64 3
      ++ List.replicate 32 4 ++ List.replicate 32 5 ++ List.replicate 64 6 ++ exSproutProof.bytes ++ List.replicate 1202 7⟩

theorem exSproutJs_built {net : Network} (h : net.isZcash = true) : exSproutJs.Built net := by
  refine ⟨_, _, _, _, _, _, _, _, _, _, exSproutProof_built h, SproutJoinsplit.make_iff.2 ⟨h, by decide, ⟨?_, ?_, ?_, ?_, ?_, ?_, ?_, ?_, ?_⟩, rfl⟩⟩
  case refine_2 => rfl
  all_goals exact List.length_replicate

def exSaplingJs : SaplingJoinsplit :=
  ⟨List.replicate 8 0, 5 :: List.replicate 7 0, List.replicate 32 1, List.replicate 64 2, List.replicate 64 3, List.replicate 32 4,
    List.replicate 32 5, List.replicate 64 6, exSaplingProof, List.replicate 1202 7,
    List.replicate 8 0 ++ (5 :: List.replicate 7 0) ++ List.replicate 32 1 ++ List.replicate 64 2 ++ List.replicate 64 3
      ++ List.replicate 32 4 ++ List.replicate 32 5 ++ List.replicate 64 6 ++ exSaplingProof.bytes ++ List.replicate 1202 7⟩

theorem exSaplingJs_built {net : Network} (h : net.isZcash = true) : exSaplingJs.Built net := by
  refine ⟨_, _, _, _, _, _, _, _, _, _, exSaplingProof_built h, SaplingJoinsplit.make_iff.2 ⟨h, by decide, ⟨?_, ?_, ?_, ?_, ?_, ?_, ?_, ?_, ?_⟩, rfl⟩⟩
  case refine_2 => rfl
  all_goals exact List.length_replicate

def exSpend : SaplingShieldedSpend :=
  ⟨List.replicate 32 1, List.replicate 32 2, List.replicate 32 3, List.replicate 32 4, exSaplingProof, List.replicate 64 5,
    List.replicate 32 1 ++ List.replicate 32 2 ++ List.replicate 32 3 ++ List.replicate 32 4 ++ exSaplingProof.bytes ++ List.replicate 64 5⟩

theorem exSpend_built {net : Network} (h : net.isZcash = true) : exSpend.Built net := by
  refine ⟨_, _, _, _, _, _, exSaplingProof_built h, SaplingShieldedSpend.make_iff.2 ⟨h, ?_, ?_, ?_, ?_, ?_, rfl⟩⟩ <;> exact List.length_replicate

def exShieldedOut : SaplingShieldedOutput :=
  ⟨List.replicate 32 1, List.replicate 32 2, List.replicate 32 3, List.replicate 580 4, List.replicate 80 5, exSaplingProof,
    List.replicate 32 1 ++ List.replicate 32 2 ++ List.replicate 32 3 ++ List.replicate 580 4 ++ List.replicate 80 5 ++ exSaplingProof.bytes⟩

theorem exShieldedOut_built {net : Network} (h : net.isZcash = true) : exShieldedOut.Built net := by
  refine ⟨_, _, _, _, _, _, exSaplingProof_built h, SaplingShieldedOutput.make_iff.2 ⟨h, ?_, ?_, ?_, ?_, ?_, rfl⟩⟩ <;> exact List.length_replicate

example : exSproutProof.Built zcashSproutMain ∧ exSproutJs.Built zcashOverwinterMain ∧ exSaplingProof.Built zcashSaplingMain ∧
    exSpend.Built zcashSaplingMain ∧ exShieldedOut.Built zcashSaplingMain ∧ exSaplingJs.Built zcashSaplingTest :=
  ⟨exSproutProof_built (by decide), exSproutJs_built (by decide), exSaplingProof_built (by decide), exSpend_built (by decide),
    exShieldedOut_built (by decide), exSaplingJs_built (by decide)⟩

end Verif.Props
