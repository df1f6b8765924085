import Verif.Lemmas.Ints

/-! Properties C01–C05: integer encodings of `utils.py`. -/

namespace Verif.Props
open Verif Spec

/-! ## C01 -/

/-- C01: `i2le_padded(n, k)` returns exactly the `k`-byte string whose little-endian value is `n`. -/
theorem C01_i2le_padded_spec (n : Int) (k : Nat) (b : Bytes) :
    i2lePadded n k = .ok b ↔ b.length = k ∧ (leValue b : Int) = n := by
  rw [← leToNat_eq_leValue]; exact toBytesLE_ok_iff

/-- C01: it succeeds exactly on `0 ≤ n < 256^k`, and fails only with OverflowError. -/
theorem C01_i2le_padded_range (n : Int) (k : Nat) :
    ((∃ b, i2lePadded n k = .ok b) ↔ 0 ≤ n ∧ n < (256 ^ k : Nat)) ∧
    (¬ (0 ≤ n ∧ n < (256 ^ k : Nat)) → i2lePadded n k = .error .overflowError) := by
  unfold i2lePadded toBytesLE
  constructor
  · constructor
    · rintro ⟨b, h⟩; split at h
      · assumption
      · cases h
    · intro h; exact ⟨_, if_pos h⟩
  · intro h; exact if_neg h

/-- C01: `le2i` is the little-endian value, below `256^len`, and `i2le_padded` inverts it. -/
theorem C01_le2i_roundtrip (b : Bytes) :
    le2i b = leValue b ∧ leValue b < 256 ^ b.length ∧ i2lePadded (le2i b) b.length = .ok b := by
  refine ⟨leToNat_eq_leValue b, ?_, ?_⟩
  · rw [← leToNat_eq_leValue]; exact leToNat_lt b
  · rw [C01_i2le_padded_spec]; exact ⟨rfl, by rw [← leToNat_eq_leValue]; rfl⟩

example : i2lePadded 0x1234 4 = .ok [0x34, 0x12, 0, 0] := by decide
example : i2lePadded 65536 2 = .error .overflowError := by decide

/-! ## C02 -/

/-- C02: `i2be_padded(n, k)` returns exactly the `k`-byte string whose big-endian value is `n`. -/
theorem C02_i2be_padded_spec (n : Int) (k : Nat) (b : Bytes) :
    i2bePadded n k = .ok b ↔ b.length = k ∧ (beValue b : Int) = n := by
  unfold i2bePadded
  rw [toBytesBE_ok_iff, toBytesLE_ok_iff, ← be_eq_beValue]; simp

/-- C02: out of range is OverflowError. -/
theorem C02_i2be_padded_range (n : Int) (k : Nat) :
    ((∃ b, i2bePadded n k = .ok b) ↔ 0 ≤ n ∧ n < (256 ^ k : Nat)) ∧
    (¬ (0 ≤ n ∧ n < (256 ^ k : Nat)) → i2bePadded n k = .error .overflowError) := by
  unfold i2bePadded toBytesBE
  constructor
  · constructor
    · rintro ⟨b, h⟩; split at h
      · assumption
      · cases h
    · intro h; exact ⟨_, if_pos h⟩
  · intro h; exact if_neg h

/-- C02: big-endian is the reversal of little-endian. -/
theorem C02_mirror (n : Int) (k : Nat) (b : Bytes) :
    i2bePadded n k = .ok b ↔ i2lePadded n k = .ok (changeEndianness b) :=
  toBytesBE_ok_iff

/-- C02: `be2i` is the big-endian value and is inverted by `i2be_padded`; `change_endianness` is an involution
exchanging `be2i` and `le2i`. -/
theorem C02_be2i_roundtrip (b : Bytes) :
    be2i b = beValue b ∧ i2bePadded (be2i b) b.length = .ok b ∧
    changeEndianness (changeEndianness b) = b ∧ be2i (changeEndianness b) = le2i b := by
  refine ⟨be_eq_beValue b, ?_, ?_, ?_⟩
  · rw [C02_i2be_padded_spec]; exact ⟨rfl, by rw [← be_eq_beValue]; rfl⟩
  · simp [changeEndianness]
  · simp [changeEndianness, be2i, le2i]

example : i2bePadded 0x1234 3 = .ok [0, 0x12, 0x34] ∧ be2i [0, 0x12, 0x34] = 0x1234 := by decide

/-! ## C03 -/

/-- C03: `i2le` on non-negative numbers: value preserved, `00` for zero, no shorter non-empty byte string has the same
value, so no superfluous top byte. -/
theorem C03_i2le_minimal (n : Nat) :
    ∃ b, i2le (n : Int) = .ok b ∧ leValue b = n ∧ (n = 0 → b = [0x00]) ∧
      (0 < n → b.getLast? ≠ some 0) ∧ ∀ b', b' ≠ [] → leValue b' = n → b.length ≤ b'.length := by
  rcases Nat.eq_zero_or_pos n with rfl | h
  · refine ⟨[0], rfl, by decide, fun _ => rfl, fun h => absurd h (by omega), ?_⟩
    intro b' hb _; exact List.length_pos_iff.2 hb
  · have hb := byteLen_bounds h
    refine ⟨_, i2le_pos h, ?_, fun e => absurd e (by omega), ?_, ?_⟩
    · rw [← leToNat_eq_leValue, leToNat_natToLE_of_lt hb.2.2]
    · intro _ hlast
      generalize (bitLength (n : Int) + 7) / 8 = k at *
      obtain ⟨j, rfl⟩ : ∃ j, k = j + 1 := ⟨k - 1, by omega⟩
      rw [natToLE_add, List.getLast?_append] at hlast
      simp only [natToLE, List.getLast?_singleton, Option.some_or, Option.some.injEq, Nat.add_sub_cancel] at hlast hb
      have h1 : n / 256 ^ j < 256 := by
        rw [Nat.div_lt_iff_lt_mul (Nat.pow_pos (by omega)), Nat.mul_comm]
        simpa [Nat.pow_succ] using hb.2.2
      have h2 : 0 < n / 256 ^ j := Nat.div_pos hb.2.1 (Nat.pow_pos (by omega))
      have h3 := congrArg UInt8.toNat hlast
      simp [UInt8.toNat_ofNat'] at h3
      omega
    · intro b' _ hv
      rw [natToLE_length]
      have h1 := leToNat_lt b'
      rw [leToNat_eq_leValue, hv] at h1
      have := (Nat.pow_lt_pow_iff_right (by omega : 1 < 256)).1 (Nat.lt_of_le_of_lt hb.2.1 h1)
      omega

/-- C03: `i2be` is the reversal of `i2le`, so it inherits value and minimality. -/
theorem C03_i2be (n : Int) (b : Bytes) : i2be n = .ok b ↔ i2le n = .ok (changeEndianness b) := by
  unfold i2be i2le changeEndianness
  split
  · simp only [Except.ok.injEq]; constructor
    · rintro rfl; rfl
    · intro h; have := congrArg List.reverse h; simpa using this
  · exact toBytesBE_ok_iff

/-- C03: negative numbers are refused by both. -/
theorem C03_negative (n : Int) (h : n < 0) :
    i2le n = .error .overflowError ∧ i2be n = .error .overflowError := by
  refine ⟨i2le_neg h, ?_⟩
  unfold i2be toBytesBE
  rw [if_neg (by omega), if_neg (by omega)]

example : i2le 256 = .ok [0x00, 0x01] ∧ i2be 256 = .ok [0x01, 0x00] := by decide

/-! ## C04 -/

/-- C04 (partial): for every integer except 0 and −1 that fits 519 signed bytes, `i2le_script` is the hex of the
shortest two's-complement little-endian byte string with that value, and `le2i(·, signed=True)` gives it back.
Missing from the full statement: `n = −1` (see `C04_minus_one`); for `n = 0` see `C04_zero`. -/
theorem C04_i2le_script_partial (n : Int) (h0 : n ≠ 0) (h1 : n ≠ -1)
    (hr : -((256 ^ 519 : Nat) : Int) ≤ 2 * n ∧ 2 * n < (256 ^ 519 : Nat)) :
    ∃ b, i2leScript n = .ok (toHex b) ∧ leSignedValue b = n ∧ le2iSigned b = n ∧
      ∀ b', leSignedValue b' = n → b.length ≤ b'.length := by
  unfold i2leScript
  rw [if_neg h0]
  rcases i2leScriptLoop_spec n h1 520 0 (by simp) with ⟨k, _, hk, hmin, he⟩ | ⟨hno, _⟩
  · refine ⟨_, he, leSignedValue_natToLE hk, ?_, ?_⟩
    · rw [le2iSigned, ← leSignedValue_eq]; exact leSignedValue_natToLE hk
    · intro b' hb'
      rw [natToLE_length]
      refine Nat.le_of_not_lt fun hlt => hmin _ hlt ?_
      rw [← hb']; exact fitsSigned_leSignedValue b'
  · exact absurd hr (hno 519 (by omega))

/-- C04: numbers that do not fit 519 signed bytes raise ValueError (the loop stops at 519, not 520). -/
theorem C04_too_big (n : Int) (hr : ¬ (-((256 ^ 519 : Nat) : Int) ≤ 2 * n ∧ 2 * n < (256 ^ 519 : Nat))) :
    i2leScript n = .error .valueError := by
  have hp : 256 ^ 0 ≤ 256 ^ 519 := Nat.pow_le_pow_right (by omega) (by omega)
  have h0 : n ≠ 0 := by rintro rfl; apply hr; generalize 256 ^ 519 = P at *; omega
  have h1 : n ≠ -1 := by
    rintro rfl; apply hr
    have : 256 ^ 1 ≤ 256 ^ 519 := Nat.pow_le_pow_right (by omega) (by omega)
    generalize 256 ^ 519 = P at *; omega
  unfold i2leScript
  rw [if_neg h0]
  rcases i2leScriptLoop_spec n h1 520 0 (by simp) with ⟨k, hk1, hk, hmin, he⟩ | ⟨_, he⟩
  · exact absurd (fitsSigned_mono hk (by omega : k ≤ 519)) hr
  · exact he

/-- C04: zero is `00`. -/
theorem C04_zero : i2leScript 0 = .ok (toHex [0x00]) ∧ leSignedValue [0x00] = 0 := by decide

/-- C04: the full statement is false at −1: the code returns the empty string, whose value is 0. -/
theorem C04_minus_one : i2leScript (-1) = .ok (toHex []) ∧ le2iSigned [] ≠ -1 := by
  refine ⟨?_, by decide⟩
  decide

/-- C04: hence the property as a whole does not hold. -/
theorem C04_false : ¬ ∀ n : Int, -((256 ^ 519 : Nat) : Int) ≤ 2 * n ∧ 2 * n < (256 ^ 519 : Nat) →
    ∃ b, i2leScript n = .ok (toHex b) ∧ leSignedValue b = n := by
  intro h
  obtain ⟨b, hb, hv⟩ := h (-1) (by
    have : 256 ^ 1 ≤ 256 ^ 519 := Nat.pow_le_pow_right (by omega) (by omega)
    generalize 256 ^ 519 = P at *; omega)
  rw [C04_minus_one.1, Except.ok.injEq] at hb
  have := toHex_injective hb
  subst this
  revert hv; decide

example : i2leScript 300 = .ok (pystr "2c01") ∧ i2leScript (-300) = .ok (pystr "d4fe") := by decide

/-! ## C05 -/

/-- C05 (partial): for `n > 0` (fitting 519 signed bytes) the result is Bitcoin's minimal script number for `n`.
The full statement (all integers) is false, see `C05_zero` and `C05_negative`. -/
theorem C05_positive_partial (n : Int) (h0 : 0 < n) (hr : 2 * n < (256 ^ 519 : Nat)) :
    ∃ b, i2leScript n = .ok (toHex b) ∧ scriptNumValue b = n ∧ scriptNumMinimal b := by
  obtain ⟨b, he, hv, -, hmin⟩ := C04_i2le_script_partial n (by omega) (by omega) ⟨by
    have := Nat.zero_le (256 ^ 519); generalize 256 ^ 519 = P at *; omega, hr⟩
  refine ⟨b, he, ?_⟩
  rcases List.eq_nil_or_concat b with rfl | ⟨i, t, rfl⟩
  · exfalso; revert hv; simp [leSignedValue]; omega
  rw [List.concat_eq_append] at *
  have hi := leToNat_lt i
  have ht := t.toNat_lt
  rw [leSignedValue_concat] at hv
  have hlt : ¬ 128 ≤ t.toNat := by
    intro h; rw [if_pos h] at hv
    have : 256 ^ i.length * t.toNat ≤ 256 ^ i.length * 255 := Nat.mul_le_mul_left _ (by omega)
    generalize 256 ^ i.length = P at *
    omega
  rw [if_neg hlt] at hv
  refine ⟨by rw [scriptNumValue_concat, if_neg hlt]; exact hv, ?_⟩
  -- minimality
  unfold scriptNumMinimal
  rw [List.reverse_append, List.reverse_singleton, List.singleton_append]
  rcases List.eq_nil_or_concat i with rfl | ⟨i', u, rfl⟩
  · simp only [List.reverse_nil]
    simp [leToNat] at hv; omega
  · rw [List.concat_eq_append] at *
    rw [List.reverse_append, List.reverse_singleton, List.singleton_append]
    by_cases h128 : 128 ≤ u.toNat
    · exact .inr h128
    · left
      intro hz
      have hz' : t.toNat = 0 := by omega
      have := hmin (i' ++ [u]) (by
        rw [leSignedValue_concat, if_neg h128]
        rw [hz'] at hv
        simpa [leToNat_append, leToNat] using hv)
      simp at this

/-- C05: zero is not encoded as a script number (the minimal one is empty). -/
theorem C05_zero : i2leScript 0 = .ok (toHex [0x00]) ∧ ¬ scriptNumMinimal [0x00] := by
  refine ⟨by decide, ?_⟩
  simp [scriptNumMinimal]

/-- C05: for negative numbers (other than −1) the produced bytes, read as a script number, give `n` only for
`n = -64 * 256^j`; in every other case the script interpreter would see a different number. -/
theorem C05_negative (n : Int) (h0 : n < -1) (hr : -((256 ^ 519 : Nat) : Int) ≤ 2 * n) :
    ∃ b, i2leScript n = .ok (toHex b) ∧ (scriptNumValue b = n ↔ n = -(64 * 256 ^ (b.length - 1) : Nat)) := by
  obtain ⟨b, he, hv, -, hmin⟩ := C04_i2le_script_partial n (by omega) (by omega) ⟨hr, by
    have := Nat.zero_le (256 ^ 519); generalize 256 ^ 519 = P at *; omega⟩
  refine ⟨b, he, ?_⟩
  rcases List.eq_nil_or_concat b with rfl | ⟨i, t, rfl⟩
  · exfalso; revert hv; simp [leSignedValue]; omega
  rw [List.concat_eq_append] at *
  rw [leSignedValue_concat] at hv
  rw [scriptNumValue_concat]
  simp only [List.length_append, List.length_singleton, Nat.add_sub_cancel]
  split at hv
  · rename_i h
    rw [if_pos h]
    generalize 256 ^ i.length * t.toNat = Q at *
    generalize 256 ^ i.length = P at *
    omega
  · omega

/-- C05: concrete disagreement: −5 becomes `fb`, which a script interpreter reads as −123. -/
theorem C05_minus_five : i2leScript (-5) = .ok (toHex [0xfb]) ∧ scriptNumValue [0xfb] = -123 := by decide

example : i2leScript 128 = .ok (pystr "8000") := by decide

end Verif.Props
