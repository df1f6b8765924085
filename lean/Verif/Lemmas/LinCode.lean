import Mathlib.Logic.Function.Iterate
import Mathlib.Data.List.Iterate
import Mathlib.Data.List.ProdSigma
import Mathlib.Data.List.Nodup
import Mathlib.Data.List.Induction

/-! Linear feedback registers: `chk ← A chk ^^^ value` with `A` linear over GF(2). -/

namespace Verif.LinCode

variable {w : Nat} (A : BitVec w → BitVec w)

/-- Running the register over a list of values. -/
def run (c : BitVec w) (vs : List (BitVec w)) : BitVec w := vs.foldl (fun c v => A c ^^^ v) c

@[simp] theorem run_nil (c : BitVec w) : run A c [] = c := rfl
@[simp] theorem run_cons (c v : BitVec w) (vs : List (BitVec w)) : run A c (v :: vs) = run A (A c ^^^ v) vs := rfl
theorem run_append (c : BitVec w) (a b : List (BitVec w)) : run A c (a ++ b) = run A (run A c a) b := by
  simp [run]

variable {A} (hA : ∀ x y, A (x ^^^ y) = A x ^^^ A y)
include hA

theorem A_zero : A 0#w = 0#w := by
  have h := hA 0#w 0#w
  simp only [BitVec.xor_self] at h
  exact h

theorem iter_xor (n : Nat) (x y : BitVec w) : A^[n] (x ^^^ y) = A^[n] x ^^^ A^[n] y := by
  induction n generalizing x y with
  | zero => rfl
  | succ n ih => rw [Function.iterate_succ_apply, hA, ih]; rfl

theorem iter_zero (n : Nat) : A^[n] 0#w = 0#w := by
  induction n with
  | zero => rfl
  | succ n ih => rw [Function.iterate_succ_apply, A_zero hA, ih]

theorem run_xor (c d : BitVec w) (vs : List (BitVec w)) : run A (c ^^^ d) vs = run A c vs ^^^ A^[vs.length] d := by
  induction vs generalizing c d with
  | nil => rfl
  | cons v vs ih =>
    rw [run_cons, hA, BitVec.xor_assoc, BitVec.xor_comm (A d), ← BitVec.xor_assoc, ih]
    rfl

theorem run_zeros (c : BitVec w) (k : Nat) : run A c (List.replicate k 0#w) = A^[k] c := by
  induction k generalizing c with
  | zero => rfl
  | succ k ih =>
    rw [List.replicate_succ, run_cons, BitVec.xor_zero, ih]
    rfl

theorem run_eq (c : BitVec w) (vs : List (BitVec w)) : run A c vs = run A 0#w vs ^^^ A^[vs.length] c := by
  rw [← run_xor hA, BitVec.zero_xor]

/-- The difference of two runs is the run of the differences. -/
theorem run_diff (c d : BitVec w) (a b : List (BitVec w)) (h : a.length = b.length) :
    run A c a ^^^ run A d b = run A (c ^^^ d) (List.zipWith (· ^^^ ·) a b) := by
  induction a generalizing b c d with
  | nil =>
    cases b with
    | nil => rfl
    | cons y ys => simp at h
  | cons x xs ih =>
    cases b with
    | nil => simp at h
    | cons y ys =>
      simp only [run_cons, List.zipWith_cons_cons]
      rw [ih _ _ _ (by simpa using h), hA]
      congr 1
      ac_rfl

/-! ### creating a checksum -/

omit hA in
/-- `k` symbols of five bits, taken from the top of `P`, run back to `P`. -/
theorem run_symbols {k : Nat} (hw : w = 5 * k) (h0 : A 0#w = 0#w)
    (hshift : ∀ z : BitVec w, (∀ i, w - 5 ≤ i → z.getLsbD i = false) → A z = z <<< 5) (P : BitVec w) :
    run A 0#w ((List.range k).map fun i => (P >>> (5 * (k - 1 - i))) &&& BitVec.ofNat w 31) = P := by
  have key : ∀ j ≤ k, run A 0#w ((List.range j).map fun i => (P >>> (5 * (k - 1 - i))) &&& BitVec.ofNat w 31) =
      P >>> (5 * (k - j)) := by
    intro j
    induction j with
    | zero =>
      intro _
      simp only [List.range_zero, List.map_nil, run_nil, Nat.sub_zero]
      apply BitVec.eq_of_getLsbD_eq
      intro i hi
      simp only [BitVec.getLsbD_zero, BitVec.getLsbD_ushiftRight]
      rw [BitVec.getLsbD_of_ge _ _ (by omega)]
    | succ j ih =>
      intro hj
      rw [List.range_succ, List.map_append, run_append, ih (by omega)]
      simp only [List.map_cons, List.map_nil, run_cons, run_nil]
      rw [hshift]
      · apply BitVec.eq_of_getLsbD_eq
        intro i hi
        simp only [BitVec.getLsbD_xor, BitVec.getLsbD_shiftLeft, BitVec.getLsbD_ushiftRight, BitVec.getLsbD_and,
          BitVec.getLsbD_ofNat, hi, decide_true, Bool.true_and]
        by_cases h5 : i < 5
        · have e : Nat.testBit 31 i = true := by
            have := Nat.testBit_two_pow_sub_one 5 i
            simpa [h5] using this
          rw [e]; simp only [h5, decide_true, Bool.not_true, Bool.false_and, Bool.false_xor, Bool.and_true]
          congr 1; omega
        · have e : Nat.testBit 31 i = false := by
            have := Nat.testBit_two_pow_sub_one 5 i
            simpa [h5] using this
          rw [e]; simp only [h5, decide_false, Bool.not_false, Bool.true_and, Bool.and_false, Bool.xor_false]
          congr 1; omega
      · intro i hi
        rw [BitVec.getLsbD_ushiftRight, BitVec.getLsbD_of_ge]; omega
  have := key k (Nat.le_refl k)
  simpa using this

omit hA in
/-- Runs over at most `k` five-bit symbols are base-32 numbers. -/
theorem run_value {k : Nat} (hw : w = 5 * k)
    (hshift : ∀ z : BitVec w, (∀ i, w - 5 ≤ i → z.getLsbD i = false) → A z = z <<< 5) (q : List (BitVec w))
    (hq : ∀ x ∈ q, x.toNat < 32) (hl : q.length ≤ k) :
    (run A 0#w q).toNat = q.foldl (fun a x => 32 * a + x.toNat) 0 ∧ (run A 0#w q).toNat < 2 ^ (5 * q.length) := by
  induction q using List.reverseRecOn with
  | nil => simp
  | append_singleton q x ih =>
    simp only [List.length_append, List.length_cons, List.length_nil] at hl
    obtain ⟨h1, h2⟩ := ih (fun y hy => hq y (by simp [hy])) (by omega)
    have hx := hq x (by simp)
    rw [run_append, run_cons, run_nil, hshift]
    · have hlt : (run A 0#w q).toNat <<< 5 < 2 ^ w := by
        rw [Nat.shiftLeft_eq]
        calc (run A 0#w q).toNat * 2 ^ 5 < 2 ^ (5 * q.length) * 2 ^ 5 := Nat.mul_lt_mul_of_pos_right h2 (by decide)
          _ = 2 ^ (5 * q.length + 5) := by rw [Nat.pow_add]
          _ ≤ 2 ^ w := Nat.pow_le_pow_right (by omega) (by omega)
      have e : (run A 0#w q <<< 5 ^^^ x).toNat = 32 * (run A 0#w q).toNat + x.toNat := by
        rw [BitVec.toNat_xor, BitVec.toNat_shiftLeft, Nat.mod_eq_of_lt hlt]
        have : (run A 0#w q).toNat <<< 5 + x.toNat = (run A 0#w q).toNat <<< 5 ||| x.toNat :=
          Nat.shiftLeft_add_eq_or_of_lt (by simpa using hx) _
        have h3 : (run A 0#w q).toNat <<< 5 ^^^ x.toNat = (run A 0#w q).toNat <<< 5 ||| x.toNat := by
          apply Nat.eq_of_testBit_eq
          intro i
          rw [Nat.testBit_xor, Nat.testBit_or, Nat.testBit_shiftLeft]
          by_cases h5 : i < 5
          · simp [show ¬ 5 ≤ i by omega]
          · have : x.toNat.testBit i = false := Nat.testBit_lt_two_pow (Nat.lt_of_lt_of_le hx (by
              have : 2 ^ 5 ≤ 2 ^ i := Nat.pow_le_pow_right (by omega) (by omega)
              omega))
            simp [this]
        rw [h3, ← this, Nat.shiftLeft_eq]; omega
      refine ⟨?_, ?_⟩
      · rw [e, List.foldl_append, ← h1]; rfl
      · rw [e]
        simp only [List.length_append, List.length_cons, List.length_nil]
        rw [show 5 * (q.length + (0 + 1)) = 5 * q.length + 5 by omega, Nat.pow_add]
        have : (2:Nat) ^ 5 = 32 := by rfl
        rw [this]; omega
    · intro i hi
      rw [BitVec.getLsbD, Nat.testBit_lt_two_pow]
      exact Nat.lt_of_lt_of_le h2 (Nat.pow_le_pow_right (by omega) (by omega))

omit hA in
theorem base32_inj (a b : List (BitVec w)) (ha : ∀ x ∈ a, x.toNat < 32) (hb : ∀ x ∈ b, x.toNat < 32) (hl : a.length = b.length)
    (h : a.foldl (fun a x => 32 * a + x.toNat) 0 = b.foldl (fun a x => 32 * a + x.toNat) 0) : a = b := by
  induction a using List.reverseRecOn generalizing b with
  | nil => cases b with
    | nil => rfl
    | cons => simp at hl
  | append_singleton a x ih =>
    rcases List.eq_nil_or_concat b with rfl | ⟨b, y, rfl⟩
    · simp at hl
    · rw [List.concat_eq_append] at hb hl h ⊢
      rw [List.foldl_append, List.foldl_append] at h
      simp only [List.foldl_cons, List.foldl_nil] at h
      have hx := ha x (by simp)
      have hy := hb y (by simp)
      have hxy : x = y := BitVec.eq_of_toNat_eq (by omega)
      rw [hxy, ih b (fun z hz => ha z (by simp [hz])) (fun z hz => hb z (by simp [hz])) (by simpa using hl) (by omega)]

/-- Only one list of `k` symbols completes a given prefix to a given register value. -/
theorem suffix_unique {k : Nat} (hw : w = 5 * k)
    (hshift : ∀ z : BitVec w, (∀ i, w - 5 ≤ i → z.getLsbD i = false) → A z = z <<< 5) (c : BitVec w) (q q' : List (BitVec w))
    (hq : ∀ x ∈ q, x.toNat < 32) (hq' : ∀ x ∈ q', x.toNat < 32) (hl : q.length = k) (hl' : q'.length = k)
    (h : run A c q = run A c q') : q = q' := by
  rw [run_eq hA c q, run_eq hA c q', hl, hl'] at h
  have h2 : run A 0#w q = run A 0#w q' := by
    have := congrArg (· ^^^ A^[k] c) h
    simpa [BitVec.xor_assoc] using this
  have h1 := (run_value hw hshift q hq (by omega)).1
  have h1' := (run_value hw hshift q' hq' (by omega)).1
  exact base32_inj q q' hq hq' (by omega) (by rw [← h1, ← h1', h2])

/-! ### error patterns -/

/-- Number of non-zero symbols. -/
def weight (e : List (BitVec w)) : Nat := e.countP (· ≠ 0#w)

theorem run_zero_cons (d : BitVec w) (e : List (BitVec w)) : run A 0#w (d :: e) = A^[e.length] d ^^^ run A 0#w e := by
  rw [run_cons, A_zero hA, run_xor hA, BitVec.xor_comm]

theorem run_weight_zero (e : List (BitVec w)) (h : weight e = 0) : run A 0#w e = 0#w := by
  have : e = List.replicate e.length 0#w := by
    rw [List.eq_replicate_iff]
    refine ⟨rfl, fun b hb => ?_⟩
    have := List.countP_eq_zero.1 h b hb
    simpa using this
  rw [this, run_zeros hA, iter_zero hA]

theorem run_weight_succ (e : List (BitVec w)) (k : Nat) (h : weight e = k + 1) :
    ∃ d, d ∈ e ∧ d ≠ 0#w ∧ ∃ e', e'.length < e.length ∧ (∀ x ∈ e', x ∈ e) ∧ weight e' = k ∧
      run A 0#w e = A^[e'.length] d ^^^ run A 0#w e' := by
  induction e with
  | nil => simp [weight] at h
  | cons d e ih =>
    by_cases hd : d = 0#w
    · subst hd
      have h' : weight e = k + 1 := by simpa [weight] using h
      obtain ⟨d', hd', hn, e', hl, hm, hw', hr⟩ := ih h'
      refine ⟨d', by simp [hd'], hn, e', by simp; omega, fun x hx => by simp [hm x hx], hw', ?_⟩
      rw [run_zero_cons hA, iter_zero hA, BitVec.zero_xor, hr]
    · refine ⟨d, by simp, hd, e, by simp, fun x hx => by simp [hx], ?_, run_zero_cons hA d e⟩
      have h' : weight (d :: e) = weight e + 1 := by unfold weight; rw [List.countP_cons]; simp [hd]
      omega

variable (hinj : ∀ x, A x = 0#w → x = 0#w)
include hinj

theorem iter_eq_zero (n : Nat) (x : BitVec w) (h : A^[n] x = 0#w) : x = 0#w := by
  induction n with
  | zero => exact h
  | succ n ih => rw [Function.iterate_succ_apply'] at h; exact ih (hinj _ h)

/-- One wrong symbol never goes unnoticed, at any length. -/
theorem single_error (e : List (BitVec w)) (h : weight e = 1) : run A 0#w e ≠ 0#w := by
  obtain ⟨d, _, hn, e', _, _, hw', hr⟩ := run_weight_succ hA e 0 h
  rw [hr, run_weight_zero hA e' hw', BitVec.xor_zero]
  intro h0
  exact hn (iter_eq_zero hA hinj _ _ h0)

/-- Two or three wrong symbols within `n + 1` positions go unnoticed only if two translates of symbols agree up to a
symbol. -/
theorem few_errors (S : BitVec w → Prop) (n : Nat)
    (h2 : ∀ a d, 0 < a → a ≤ n → S d → d ≠ 0#w → ¬ S (A^[a] d))
    (h3 : ∀ a b d d', 0 < b → b < a → a ≤ n → S d → S d' → d ≠ 0#w → d' ≠ 0#w → ¬ S (A^[a] d ^^^ A^[b] d'))
    (e : List (BitVec w)) (hS : ∀ x ∈ e, S x) (hl : e.length ≤ n + 1) (hw1 : 0 < weight e) (hw3 : weight e ≤ 3) :
    run A 0#w e ≠ 0#w := by
  rcases (show weight e = 1 ∨ weight e = 2 ∨ weight e = 3 by omega) with h | h | h
  · exact single_error hA hinj e h
  · obtain ⟨d, hd, hn, e1, hl1, hm1, hw1, hr1⟩ := run_weight_succ hA e 1 h
    obtain ⟨d', hd', hn', e2, hl2, hm2, hw2, hr2⟩ := run_weight_succ hA e1 0 hw1
    rw [hr1, hr2, run_weight_zero hA e2 hw2, BitVec.xor_zero]
    have hx : e1.length = e2.length + (e1.length - e2.length) := by omega
    rw [hx, Function.iterate_add_apply, ← iter_xor hA]
    intro h0
    have := iter_eq_zero hA hinj _ _ h0
    have he : A^[e1.length - e2.length] d = d' := BitVec.xor_eq_zero_iff.1 this
    exact h2 (e1.length - e2.length) d (by omega) (by omega) (hS d hd) hn (by rw [he]; exact hS d' (hm1 _ hd'))
  · obtain ⟨d, hd, hn, e1, hl1, hm1, hw1, hr1⟩ := run_weight_succ hA e 2 h
    obtain ⟨d', hd', hn', e2, hl2, hm2, hw2, hr2⟩ := run_weight_succ hA e1 1 hw1
    obtain ⟨d'', hd'', hn'', e3, hl3, hm3, hw3, hr3⟩ := run_weight_succ hA e2 0 hw2
    rw [hr1, hr2, hr3, run_weight_zero hA e3 hw3, BitVec.xor_zero]
    have hx : e1.length = e3.length + (e1.length - e3.length) := by omega
    have hy : e2.length = e3.length + (e2.length - e3.length) := by omega
    rw [hx, hy, Function.iterate_add_apply, Function.iterate_add_apply, ← iter_xor hA, ← iter_xor hA]
    intro h0
    have := iter_eq_zero hA hinj _ _ h0
    rw [← BitVec.xor_assoc] at this
    have he := BitVec.xor_eq_zero_iff.1 this
    exact h3 (e1.length - e3.length) (e2.length - e3.length) d d' (by omega) (by omega) (by omega) (hS d hd) (hS d' (hm1 _ hd')) hn hn'
      (by rw [he]; exact hS d'' (hm1 _ (hm2 _ hd'')))

end Verif.LinCode
