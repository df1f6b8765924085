import Verif.Lemmas.Bytes
import Verif.Model.Utils
import Verif.Spec.Ints

namespace Verif
open Spec

theorem leValue_nil : leValue [] = 0 := rfl

theorem leValue_cons (x : UInt8) (xs : Bytes) : leValue (x :: xs) = x.toNat + 256 * leValue xs := by
  unfold leValue
  rw [List.length_cons, List.range_succ_eq_map, List.map_cons, List.map_map, List.sum_cons]
  congr 1
  · simp
  · generalize List.range xs.length = l
    induction l with
    | nil => simp
    | cons i is ih =>
      simp only [List.map_cons, List.sum_cons, ih, Nat.mul_add, Function.comp]
      congr 1
      simp [Nat.pow_succ, Nat.mul_comm, Nat.mul_assoc]

theorem leToNat_eq_leValue (b : Bytes) : leToNat b = leValue b := by
  induction b with
  | nil => rfl
  | cons x xs ih => rw [leValue_cons, leToNat, ih]

theorem beValue_aux (b : Bytes) (a : Nat) :
    b.foldl (fun a x => 256 * a + x.toNat) a = 256 ^ b.length * a + leToNat b.reverse := by
  induction b generalizing a with
  | nil => simp [leToNat]
  | cons x xs ih =>
    rw [List.foldl_cons, ih, List.reverse_cons, leToNat_append]
    simp only [leToNat, List.length_reverse, List.length_cons, Nat.pow_succ, Nat.mul_add, Nat.mul_zero, Nat.add_zero]
    rw [Nat.mul_assoc]; omega

theorem be_eq_beValue (b : Bytes) : leToNat b.reverse = beValue b := by
  unfold beValue; rw [beValue_aux]; simp

theorem toBytesBE_ok_iff {n : Int} {k : Nat} {b : Bytes} :
    toBytesBE n k = .ok b ↔ toBytesLE n k = .ok b.reverse := by
  unfold toBytesBE toBytesLE
  split
  · simp only [Except.ok.injEq]; constructor
    · rintro rfl; simp
    · intro h; rw [h]; simp
  · simp

/-- minimal byte length of `n > 0` -/
theorem byteLen_bounds {n : Nat} (h : 0 < n) :
    let k := (bitLength (n : Int) + 7) / 8
    1 ≤ k ∧ 256 ^ (k - 1) ≤ n ∧ n < 256 ^ k := by
  intro k
  have hb : bitLength (n : Int) = n.log2 + 1 := by
    unfold bitLength; rw [if_neg]; · simp
    · simp; omega
  have hk : k = (n.log2 + 1 + 7) / 8 := by simp only [k, hb]
  have h1 : 2 ^ n.log2 ≤ n := Nat.log2_self_le (by omega)
  have h2 : n < 2 ^ (n.log2 + 1) := Nat.lt_log2_self
  have e : ∀ j, 256 ^ j = 2 ^ (8 * j) := fun j => by rw [Nat.pow_mul]
  refine ⟨by omega, ?_, ?_⟩
  · rw [e]; refine Nat.le_trans (Nat.pow_le_pow_right (by omega) ?_) h1; omega
  · rw [e]; refine Nat.lt_of_lt_of_le h2 (Nat.pow_le_pow_right (by omega) ?_); omega

theorem i2le_pos {n : Nat} (h : 0 < n) :
    i2le (n : Int) = .ok (natToLE ((bitLength (n : Int) + 7) / 8) n) := by
  have hb := byteLen_bounds h
  unfold i2le
  rw [if_neg (by omega), toBytesLE_natCast hb.2.2]

theorem i2le_neg {n : Int} (h : n < 0) : i2le n = .error .overflowError := by
  unfold i2le
  rw [if_neg (by omega), toBytesLE_error_iff]; exact ⟨rfl, .inl h⟩

/-- `i2le n` of a number in `[256^(k-1), 256^k)` has exactly `k` bytes. -/
theorem i2le_eq {n k : Nat} (hk : 0 < k) (h1 : 256 ^ (k - 1) ≤ n) (h2 : n < 256 ^ k) :
    i2le (n : Int) = .ok (natToLE k n) := by
  have hn : 0 < n := Nat.lt_of_lt_of_le (Nat.pow_pos (by omega)) h1
  have hb := byteLen_bounds hn
  rw [i2le_pos hn]
  generalize (bitLength (n : Int) + 7) / 8 = j at hb ⊢
  obtain ⟨hj, a, b⟩ := hb
  have : j = k := by
    have l1 : k - 1 < j := (Nat.pow_lt_pow_iff_right (by omega : 1 < 256)).1 (Nat.lt_of_le_of_lt h1 b)
    have l2 : j - 1 < k := (Nat.pow_lt_pow_iff_right (by omega : 1 < 256)).1 (Nat.lt_of_le_of_lt a h2)
    omega
  rw [this]

theorem i2le_byte {n : Nat} (h2 : n < 256) : i2le (n : Int) = .ok [UInt8.ofNat n] := by
  rcases Nat.eq_zero_or_pos n with rfl | h
  · rfl
  · rw [i2le_eq (k := 1) (by omega) (by simp; omega) (by simpa using h2)]
    simp [natToLE, Nat.mod_eq_of_lt h2]

end Verif

/-! ### two's complement -/
namespace Verif
open Spec

theorem leSignedValue_eq (b : Bytes) : leSignedValue b = leToIntSigned b := by
  unfold leSignedValue leToIntSigned
  rcases List.eq_nil_or_concat b with rfl | ⟨i, t, rfl⟩
  · simp [leToNat]
  · have hi := leToNat_lt i
    have ht := t.toNat_lt
    rw [List.concat_eq_append, List.getLast?_append, List.getLast?_singleton]
    simp only [Option.some_or, ← leToNat_eq_leValue, leToNat_append, List.length_append, List.length_singleton, Nat.pow_succ, leToNat,
      Nat.mul_zero, Nat.add_zero]
    generalize 256 ^ i.length = P at *
    by_cases h : 128 ≤ t.toNat
    · have : P * 128 ≤ P * t.toNat := Nat.mul_le_mul_left _ h
      rw [if_pos h, if_neg (by omega)]
    · have : P * t.toNat ≤ P * 127 := Nat.mul_le_mul_left _ (by omega)
      rw [if_neg h, if_pos (by omega)]

/-- the numbers that fit `k ≥ 1` signed bytes -/
def fitsSigned (n : Int) (k : Nat) : Prop := -((256 ^ k : Nat) : Int) ≤ 2 * n ∧ 2 * n < (256 ^ k : Nat)

theorem fitsSigned_leSignedValue (b : Bytes) : fitsSigned (leSignedValue b) b.length := by
  rw [leSignedValue_eq]; unfold leToIntSigned fitsSigned
  have h := leToNat_lt b
  have e1 : ((256 ^ b.length : Nat) : Int) = ((256 ^ b.length : Nat) : Int) := rfl
  split
  · generalize 256 ^ b.length = P at *; omega
  · generalize 256 ^ b.length = P at *; omega

theorem leSignedValue_natToLE {n : Int} {k : Nat} (h : fitsSigned n k) :
    leSignedValue (natToLE k (n % (256 ^ k : Nat)).toNat) = n := by
  rw [leSignedValue_eq]; unfold leToIntSigned
  have hp : 0 < 256 ^ k := Nat.pow_pos (by omega)
  have hlt : (n % (256 ^ k : Nat)).toNat < 256 ^ k := by
    have h1 := Int.emod_lt_of_pos n (b := ((256 ^ k : Nat) : Int)) (by exact_mod_cast hp)
    have h2 := Int.emod_nonneg n (b := ((256 ^ k : Nat) : Int)) (by omega)
    omega
  rw [leToNat_natToLE_of_lt hlt, natToLE_length]
  unfold fitsSigned at h
  generalize 256 ^ k = P at *
  have h2 := Int.emod_nonneg n (b := (P : Int)) (by omega)
  rcases Int.lt_or_le n 0 with hn | hn
  · have : n % (P : Int) = n + P := by
      rw [← Int.add_emod_right]; exact Int.emod_eq_of_lt (by omega) (by omega)
    rw [this]; rw [if_neg (by omega)]; omega
  · have : n % (P : Int) = n := Int.emod_eq_of_lt (by omega) (by omega)
    rw [this]; rw [if_pos (by omega)]; omega

theorem fitsSigned_mono {n : Int} {j k : Nat} (h : fitsSigned n j) (hjk : j ≤ k) : fitsSigned n k := by
  unfold fitsSigned at *
  have : 256 ^ j ≤ 256 ^ k := Nat.pow_le_pow_right (by omega) hjk
  generalize 256 ^ k = P at *
  generalize 256 ^ j = Q at *
  omega

theorem fitsSigned_zero {n : Int} (h : fitsSigned n 0) : n = 0 := by
  unfold fitsSigned at h; simp only [Nat.pow_zero] at h; omega

theorem toBytesLESigned_eq {n : Int} {k : Nat} (h : n ≠ -1 ∨ k ≠ 0) :
    (fitsSigned n k → toBytesLESigned n k = .ok (natToLE k (n % (256 ^ k : Nat)).toNat)) ∧
    (¬ fitsSigned n k → toBytesLESigned n k = .error .overflowError) := by
  unfold toBytesLESigned fitsSigned
  constructor
  · intro h'; rw [if_pos (.inl h')]
  · intro h'; rw [if_neg]; rintro (h1 | ⟨h1, h2⟩)
    · exact h' h1
    · rcases h with h | h <;> contradiction

theorem i2leScriptLoop_spec (n : Int) (hn : n ≠ -1) (fuel i : Nat) (hi : ∀ j < i, ¬ fitsSigned n j) :
    (∃ k, k < i + fuel ∧ fitsSigned n k ∧ (∀ j < k, ¬ fitsSigned n j) ∧
      i2leScriptLoop n fuel i = .ok (toHex (natToLE k (n % (256 ^ k : Nat)).toNat))) ∨
    ((∀ j < i + fuel, ¬ fitsSigned n j) ∧ i2leScriptLoop n fuel i = .error .valueError) := by
  induction fuel generalizing i with
  | zero => right; exact ⟨by simpa using hi, rfl⟩
  | succ f ih =>
    have ht := toBytesLESigned_eq (n := n) (k := i) (.inl hn)
    by_cases h : fitsSigned n i
    · left; exact ⟨i, by omega, h, hi, by simp [i2leScriptLoop, ht.1 h]⟩
    · have := ih (i + 1) (fun j hj => by
        rcases Nat.lt_succ_iff_lt_or_eq.1 hj with h' | rfl
        · exact hi j h'
        · exact h)
      have e : i + 1 + f = i + (f + 1) := by omega
      rw [e] at this
      simpa [i2leScriptLoop, ht.2 h] using this

theorem scriptNumValue_concat (i : Bytes) (t : UInt8) :
    scriptNumValue (i ++ [t]) =
      if 128 ≤ t.toNat then -((leToNat i + 256 ^ i.length * t.toNat : Nat) - (128 * 256 ^ i.length : Nat) : Int)
      else (leToNat i + 256 ^ i.length * t.toNat : Nat) := by
  unfold scriptNumValue
  rw [List.getLast?_append, List.getLast?_singleton]
  simp only [Option.some_or, ← leToNat_eq_leValue, leToNat_append, List.length_append, List.length_singleton, leToNat,
    Nat.mul_zero, Nat.add_zero, Nat.add_sub_cancel]

theorem leSignedValue_concat (i : Bytes) (t : UInt8) :
    leSignedValue (i ++ [t]) =
      if 128 ≤ t.toNat then ((leToNat i + 256 ^ i.length * t.toNat : Nat) : Int) - (256 * 256 ^ i.length : Nat)
      else ((leToNat i + 256 ^ i.length * t.toNat : Nat) : Int) := by
  unfold leSignedValue
  rw [List.getLast?_append, List.getLast?_singleton]
  simp only [Option.some_or, ← leToNat_eq_leValue, leToNat_append, List.length_append, List.length_singleton, leToNat,
    Nat.mul_zero, Nat.add_zero, Nat.pow_succ, Nat.mul_comm 256 (256 ^ _)]

end Verif
