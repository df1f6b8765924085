import Mathlib.Logic.Basic
import Mathlib.Tactic.Conv
import Verif.Spec.Bits
import Verif.Model.Cashaddr

namespace Verif
open Bech32

@[simp] theorem toBits_length (w v : Nat) : (toBits w v).length = w := by
  induction w with
  | zero => rfl
  | succ w ih => simp [toBits, ih]

theorem toBits_congr {w a b : Nat} (h : ∀ i < w, a.testBit i = b.testBit i) : toBits w a = toBits w b := by
  induction w with
  | zero => rfl
  | succ w ih => rw [toBits, toBits, h w (Nat.lt_succ_self w), ih (fun i hi => h i (by omega))]

theorem toBits_add (a b v : Nat) : toBits (a + b) v = toBits a (v >>> b) ++ toBits b v := by
  induction a with
  | zero => simp [toBits]
  | succ a ih =>
    rw [show a + 1 + b = (a + b) + 1 by omega, toBits, ih, toBits, Nat.testBit_shiftRight]
    simp [Nat.add_comm]

theorem toBits_inj {w a b : Nat} (ha : a < 2 ^ w) (hb : b < 2 ^ w) (h : toBits w a = toBits w b) : a = b := by
  have key : ∀ w, toBits w a = toBits w b → ∀ i < w, a.testBit i = b.testBit i := by
    intro w
    induction w with
    | zero => intro _ i hi; omega
    | succ w ih =>
      intro h i hi
      simp only [toBits, List.cons.injEq] at h
      by_cases hw : i = w
      · subst hw; exact h.1
      · exact ih h.2 i (by omega)
  apply Nat.eq_of_testBit_eq
  intro i
  by_cases hi : i < w
  · exact key w h i hi
  · have h2 : 2 ^ w ≤ 2 ^ i := Nat.pow_le_pow_right (by omega) (by omega)
    rw [Nat.testBit_lt_two_pow (by omega), Nat.testBit_lt_two_pow (by omega)]

theorem toBits_zero (w : Nat) : toBits w 0 = List.replicate w false := by
  induction w with
  | zero => rfl
  | succ w ih => simp [toBits, ih, List.replicate_succ]

@[simp] theorem bitsOf_nil (w : Nat) : bitsOf w [] = [] := rfl
@[simp] theorem bitsOf_cons (w d : Nat) (ds : List Nat) : bitsOf w (d :: ds) = toBits w d ++ bitsOf w ds := by
  simp [bitsOf]
@[simp] theorem bitsOf_append (w : Nat) (a b : List Nat) : bitsOf w (a ++ b) = bitsOf w a ++ bitsOf w b := by
  simp [bitsOf]
@[simp] theorem bitsOf_length (w : Nat) (a : List Nat) : (bitsOf w a).length = w * a.length := by
  induction a with
  | nil => simp
  | cons d ds ih => simp [ih, Nat.mul_add]; omega

theorem bitsOf_inj {w : Nat} {a b : List Nat} (hw : 0 < w) (ha : Digits w a) (hb : Digits w b)
    (h : bitsOf w a = bitsOf w b) : a = b := by
  induction a generalizing b with
  | nil =>
    cases b with
    | nil => rfl
    | cons d ds =>
      have := congrArg List.length h
      simp at this; omega
  | cons x xs ih =>
    cases b with
    | nil =>
      have := congrArg List.length h
      simp at this; omega
    | cons y ys =>
      simp only [bitsOf_cons] at h
      have h2 := List.append_inj h (by simp)
      rw [toBits_inj (ha x (by simp)) (hb y (by simp)) h2.1,
        ih (fun d hd => ha d (by simp [hd])) (fun d hd => hb d (by simp [hd])) h2.2]

/-! ### the inner loop -/

theorem testBit_mask (t i : Nat) : ((1 <<< t) - 1).testBit i = decide (i < t) := by
  rw [Nat.one_shiftLeft, Nat.testBit_two_pow_sub_one]

theorem and_mask_lt (a t : Nat) : a &&& ((1 <<< t) - 1) < 2 ^ t := by
  rw [Nat.one_shiftLeft, Nat.and_two_pow_sub_one_eq_mod]
  exact Nat.mod_lt _ (Nat.two_pow_pos t)

theorem toBits_and_mask {w t : Nat} (h : w ≤ t) (a : Nat) : toBits w (a &&& ((1 <<< t) - 1)) = toBits w a := by
  apply toBits_congr
  intro i hi
  rw [Nat.testBit_and, testBit_mask]
  simp; omega

theorem emitLoop_spec (t acc : Nat) (ht : 0 < t) : ∀ (fuel bits : Nat), bits ≤ fuel →
    (emitLoop t acc fuel bits).1 < t ∧ Digits t (emitLoop t acc fuel bits).2 ∧
    toBits bits acc = bitsOf t (emitLoop t acc fuel bits).2 ++ toBits (emitLoop t acc fuel bits).1 acc := by
  intro fuel
  induction fuel with
  | zero =>
    intro bits h
    have : bits = 0 := by omega
    subst this
    simp [emitLoop, ht, Digits]
  | succ fuel ih =>
    intro bits h
    unfold emitLoop
    split
    · next hb =>
      obtain ⟨h1, h2, h3⟩ := ih (bits - t) (by omega)
      refine ⟨h1, ?_, ?_⟩
      · intro d hd
        simp only [List.mem_cons] at hd
        rcases hd with rfl | hd
        · exact and_mask_lt _ _
        · exact h2 d hd
      · have : bits = t + (bits - t) := by omega
        conv_lhs => rw [this]
        rw [toBits_add, h3]
        simp only [bitsOf_cons, List.append_assoc]
        rw [toBits_and_mask (Nat.le_refl t)]
    · next hb => refine ⟨by simpa using hb, by simp [Digits], by simp⟩

/-! ### the loop -/

theorem shiftRight_eq_zero_iff (v f : Nat) : v >>> f = 0 ↔ v < 2 ^ f := by
  rw [Nat.shiftRight_eq_div_pow, Nat.div_eq_zero_iff]
  have := Nat.two_pow_pos f
  omega

theorem convertLoop_spec (f t : Nat) (ht : 0 < t) : ∀ (data : List Nat) (acc bits : Nat) (ret : List Nat),
    bits < t → Digits t ret → Digits f data →
    ∃ acc' bits' ret', convertLoop f t acc bits ret data = some (acc', bits', ret') ∧ bits' < t ∧ Digits t ret' ∧
      bitsOf t ret' ++ toBits bits' acc' = bitsOf t ret ++ toBits bits acc ++ bitsOf f data := by
  intro data
  induction data with
  | nil => intro acc bits ret hb hr _; exact ⟨acc, bits, ret, rfl, hb, hr, by simp⟩
  | cons v data ih =>
    intro acc bits ret hb hr hd
    have hv : v < 2 ^ f := hd v (by simp)
    rw [convertLoop, if_neg (by rw [ne_eq, not_not, shiftRight_eq_zero_iff]; exact hv)]
    simp only []
    obtain ⟨h1, h2, h3⟩ := emitLoop_spec t (((acc <<< f) ||| v) &&& ((1 <<< (f + t - 1)) - 1)) ht (bits + f) (bits + f)
      (Nat.le_refl _)
    generalize hr' : emitLoop t (((acc <<< f) ||| v) &&& ((1 <<< (f + t - 1)) - 1)) (bits + f) (bits + f) = r at h1 h2 h3
    obtain ⟨acc', bits', ret', e, hb', hr'', hbits⟩ := ih (((acc <<< f) ||| v) &&& ((1 <<< (f + t - 1)) - 1)) r.1 (ret ++ r.2)
      h1 (by intro d hd'; rw [List.mem_append] at hd'; exact hd'.elim (hr d) (h2 d)) (fun d hd' => hd d (by simp [hd']))
    refine ⟨acc', bits', ret', e, hb', hr'', ?_⟩
    rw [hbits, bitsOf_append, List.append_assoc (bitsOf t ret), ← h3, toBits_and_mask (by omega), toBits_add]
    have e1 : toBits bits ((acc <<< f ||| v) >>> f) = toBits bits acc := by
      apply toBits_congr
      intro i _
      have : v.testBit (f + i) = false := Nat.testBit_lt_two_pow (Nat.lt_of_lt_of_le hv (Nat.pow_le_pow_right (by omega) (by omega)))
      simp [this]
    have e2 : toBits f (acc <<< f ||| v) = toBits f v := by
      apply toBits_congr
      intro i hi
      simp [Nat.testBit_shiftLeft]; intro h; omega
    rw [e1, e2]
    simp

theorem convertLoop_none (f t : Nat) : ∀ (data : List Nat) (acc bits : Nat) (ret : List Nat), ¬ Digits f data →
    convertLoop f t acc bits ret data = none := by
  intro data
  induction data with
  | nil => intro _ _ _ h; exact absurd (by simp [Digits]) h
  | cons v data ih =>
    intro acc bits ret h
    unfold convertLoop
    split
    · rfl
    · next hv =>
      simp only []
      apply ih
      intro hd
      apply h
      intro d hd'
      simp only [List.mem_cons] at hd'
      rcases hd' with rfl | hd'
      · rw [ne_eq, not_not, shiftRight_eq_zero_iff] at hv; exact hv
      · exact hd d hd'

theorem toBits_shiftLeft (a b acc : Nat) : toBits (a + b) (acc <<< b) = toBits a acc ++ List.replicate b false := by
  rw [toBits_add]
  congr 1
  · apply toBits_congr; intro i _; simp
  · rw [← toBits_zero]; apply toBits_congr; intro i hi; simp [Nat.testBit_shiftLeft]; intro h; omega

theorem Regroups.unique {f t : Nat} {d r r' : List Nat} (ht : 0 < t) (h : Regroups f t d r) (h' : Regroups f t d r') :
    r = r' := by
  obtain ⟨_, h2, k, hk, h3⟩ := h
  obtain ⟨_, h2', k', hk', h3'⟩ := h'
  have l1 := congrArg List.length h3
  have l2 := congrArg List.length h3'
  simp only [bitsOf_length, List.length_append, List.length_replicate] at l1 l2
  have : k = k' := by
    have e : t * r.length + k' = t * r'.length + k := by omega
    have m1 : (t * r.length + k') % t = k' := by rw [Nat.mul_add_mod, Nat.mod_eq_of_lt hk']
    have m2 : (t * r'.length + k) % t = k := by rw [Nat.mul_add_mod, Nat.mod_eq_of_lt hk]
    rw [e, m2] at m1; exact m1
  subst this
  exact bitsOf_inj ht h2 h2' (by rw [h3, h3'])

theorem convertbits_pad {f t : Nat} (ht : 0 < t) (d : List Nat) (hd : Digits f d) :
    ∃ r, convertbits d f t true = some r ∧ Regroups f t d r := by
  obtain ⟨acc, bits, ret, e, hb, hr, hbits⟩ := convertLoop_spec f t ht d 0 0 [] ht (by simp [Digits]) hd
  simp only [bitsOf_nil, toBits, List.append_nil, List.nil_append] at hbits
  unfold convertbits
  rw [e]
  simp only [if_true]
  by_cases hz : bits = 0
  · subst hz
    refine ⟨ret, by simp, hd, hr, 0, ht, ?_⟩
    simpa [toBits] using hbits
  · rw [if_pos hz]
    refine ⟨_, rfl, hd, ?_, t - bits, by omega, ?_⟩
    · intro x hx
      simp only [List.mem_append, List.mem_singleton] at hx
      rcases hx with hx | rfl
      · exact hr x hx
      · exact and_mask_lt _ _
    · rw [← hbits, bitsOf_append, List.append_assoc]
      congr 1
      simp only [bitsOf_cons, bitsOf_nil, List.append_nil]
      rw [toBits_and_mask (Nat.le_refl t)]
      conv_lhs => rw [show t = bits + (t - bits) by omega]
      rw [show bits + (t - bits) - bits = t - bits by omega, toBits_shiftLeft]

theorem convertbits_pad_iff {f t : Nat} (ht : 0 < t) (d r : List Nat) :
    convertbits d f t true = some r ↔ Regroups f t d r := by
  constructor
  · intro h
    by_cases hd : Digits f d
    · obtain ⟨r', e, hr⟩ := convertbits_pad ht d hd
      rw [e] at h; cases h; exact hr
    · unfold convertbits at h; rw [convertLoop_none f t d 0 0 [] hd] at h; cases h
  · intro h
    obtain ⟨r', e, hr⟩ := convertbits_pad ht d h.1
    rw [e, Regroups.unique ht h hr]

theorem append_false_iff {a b : List Bool} {k j : Nat} (h : a ++ List.replicate k false = b ++ List.replicate j false)
    (hl : a.length = b.length) : a = b := (List.append_inj h hl).1

/-- Strict regrouping: accepted exactly when the input is the padded regrouping of the output with fewer than `f` padding
bits (and fewer than `t`). -/
theorem convertbits_strict_iff {f t : Nat} (ht : 0 < t) (v d : List Nat) :
    convertbits v f t false = some d ↔
      Digits f v ∧ Digits t d ∧ ∃ k, k < t ∧ k < f ∧ bitsOf f v = bitsOf t d ++ List.replicate k false := by
  rcases Classical.em (Digits f v) with hd | hd
  rotate_left
  · constructor
    · intro h; unfold convertbits at h; rw [convertLoop_none f t v 0 0 [] hd] at h; cases h
    · intro h; exact absurd h.1 hd
  obtain ⟨acc, bits, ret, e, hb, hr, hbits⟩ := convertLoop_spec f t ht v 0 0 [] ht (by simp [Digits]) hd
  simp only [bitsOf_nil, toBits, List.append_nil, List.nil_append] at hbits
  have hz : (acc <<< (t - bits)) &&& ((1 <<< t) - 1) = 0 ↔ toBits bits acc = List.replicate bits false := by
    have h1 : toBits t ((acc <<< (t - bits)) &&& ((1 <<< t) - 1)) = toBits bits acc ++ List.replicate (t - bits) false := by
      rw [toBits_and_mask (Nat.le_refl t)]
      conv_lhs => rw [show t = bits + (t - bits) by omega]
      rw [show bits + (t - bits) - bits = t - bits by omega, toBits_shiftLeft]
    constructor
    · intro h
      rw [h, toBits_zero] at h1
      have : List.replicate bits false ++ List.replicate (t - bits) false = toBits bits acc ++ List.replicate (t - bits) false := by
        rw [← h1, List.replicate_append_replicate]; congr 1; omega
      exact (List.append_cancel_right this).symm
    · intro h
      rw [h, List.replicate_append_replicate, show bits + (t - bits) = t by omega, ← toBits_zero] at h1
      exact toBits_inj (and_mask_lt _ _) (Nat.two_pow_pos t) h1
  unfold convertbits
  rw [e]
  simp only [Bool.false_eq_true, if_false]
  constructor
  · intro h
    split at h
    · cases h
    · next hn =>
      cases h
      rw [not_or, ne_eq, not_not, hz] at hn
      refine ⟨hd, hr, bits, hb, by omega, ?_⟩
      rw [← hbits, hn.2]
  · rintro ⟨_, h2, k, hkt, hkf, h3⟩
    rw [h3] at hbits
    have l := congrArg List.length hbits
    simp only [bitsOf_length, List.length_append, List.length_replicate, toBits_length] at l
    have hk : bits = k := by
      have m1 : (t * ret.length + bits) % t = bits := by rw [Nat.mul_add_mod, Nat.mod_eq_of_lt hb]
      have m2 : (t * d.length + k) % t = k := by rw [Nat.mul_add_mod, Nat.mod_eq_of_lt hkt]
      rw [l, m2] at m1; exact m1.symm
    subst hk
    have hh := List.append_inj' hbits (by simp)
    have hret : ret = d := bitsOf_inj ht hr h2 hh.1
    rw [if_neg, hret]
    rw [not_or, ne_eq, not_not, hz]
    exact ⟨by omega, hh.2⟩

/-! ### cashaddr's copy -/

theorem cash_convertLoop (f t : Nat) (d : List Nat) (acc bits : Nat) (ret : List Nat) :
    Cashaddr.convertLoop f t acc bits ret (d.map Int.ofNat) = convertLoop f t acc bits ret d := by
  induction d generalizing acc bits ret with
  | nil => rfl
  | cons v d ih =>
    rw [List.map_cons, Cashaddr.convertLoop, convertLoop]
    simp only [Int.ofNat_eq_natCast, Int.toNat_natCast] at ih ⊢
    by_cases h : v >>> f = 0
    · rw [if_neg (by omega), if_neg (by omega), ih]
    · rw [if_pos (by omega), if_pos (by omega)]

theorem cash_convertbits (d : List Nat) (f t : Nat) (p : Bool) :
    Cashaddr.convertbits (d.map Int.ofNat) f t p = convertbits d f t p := by
  unfold Cashaddr.convertbits convertbits
  rw [cash_convertLoop]
  rfl

theorem cash_convertLoop_neg (f t : Nat) (d : List Int) (acc bits : Nat) (ret : List Nat) (h : ∃ x ∈ d, x < 0) :
    Cashaddr.convertLoop f t acc bits ret d = none := by
  induction d generalizing acc bits ret with
  | nil => simp at h
  | cons v d ih =>
    unfold Cashaddr.convertLoop
    split
    · rfl
    · next hn =>
      obtain ⟨x, hx, hx0⟩ := h
      simp only [List.mem_cons] at hx
      rcases hx with rfl | hx
      · omega
      · exact ih _ _ _ ⟨x, hx, hx0⟩

end Verif
