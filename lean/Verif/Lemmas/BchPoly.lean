import Verif.Spec.Bch
import Verif.Lemmas.Bech32
import Verif.Lemmas.Cashaddr
import Mathlib.Tactic.LinearCombination
import Mathlib.Algebra.Field.ZMod
import Mathlib.Algebra.CharP.Algebra
import Mathlib.Algebra.CharP.Two

/-! The bit machines of the checksums divide polynomials over the field of 32 elements. -/

open Polynomial Verif.LinCode
namespace Verif.Spec

theorem gfModulus_monic : gfModulus.Monic := by unfold gfModulus; monicity!
theorem gfModulus_degree : gfModulus.degree = 5 := by unfold gfModulus; compute_degree!

noncomputable instance : CharP GF32 2 := by
  have : Nontrivial GF32 := AdjoinRoot.nontrivial _ (by rw [gfModulus_degree]; decide)
  exact charP_of_injective_algebraMap (algebraMap (ZMod 2) GF32).injective 2

theorem gf_xor (a b : Nat) : gf (a ^^^ b) = gf a + gf b := by
  unfold gf
  rw [← Finset.sum_add_distrib]
  refine Finset.sum_congr rfl fun i _ => ?_
  rw [Nat.testBit_xor]
  cases a.testBit i <;> cases b.testBit i <;> simp [CharTwo.add_self_eq_zero]

/-- The polynomial over the prime field. -/
noncomputable def bitPoly (v : Nat) : (ZMod 2)[X] := ∑ i ∈ Finset.range 5, if v.testBit i then X ^ i else 0

theorem gf_mk (v : Nat) : gf v = AdjoinRoot.mk gfModulus (bitPoly v) := by
  unfold gf bitPoly
  rw [map_sum]
  refine Finset.sum_congr rfl fun i _ => ?_
  split <;> simp

theorem bitPoly_coeff (v i : Nat) (hi : i < 5) : (bitPoly v).coeff i = if v.testBit i then 1 else 0 := by
  unfold bitPoly
  rw [finsetSum_coeff, Finset.sum_eq_single i]
  · split <;> simp
  · intro j _ hj
    split
    · rw [coeff_X_pow, if_neg (Ne.symm hj)]
    · simp
  · intro h; exact absurd (Finset.mem_range.2 hi) h

theorem bitPoly_degree (v : Nat) : (bitPoly v).degree < 5 := by
  unfold bitPoly
  refine (degree_sum_le _ _).trans_lt ?_
  rw [Finset.sup_lt_iff (by decide)]
  intro i hi
  have := Finset.mem_range.1 hi
  split
  · rw [degree_X_pow]; exact_mod_cast this
  · rw [degree_zero]; decide

theorem gf_zero_iff (v : Nat) (hv : v < 32) : gf v = 0 ↔ v = 0 := by
  constructor
  · intro h
    rw [gf_mk, AdjoinRoot.mk_eq_zero] at h
    have h0 : bitPoly v = 0 := by
      by_contra hne
      exact gfModulus_monic.not_dvd_of_degree_lt hne (by rw [gfModulus_degree]; exact bitPoly_degree v) h
    apply Nat.eq_of_testBit_eq
    intro i
    rw [Nat.zero_testBit]
    by_cases hi : i < 5
    · have := bitPoly_coeff v i hi
      rw [h0, coeff_zero] at this
      cases hb : v.testBit i with
      | false => rfl
      | true => rw [hb] at this; simp at this
    · exact Nat.testBit_lt_two_pow (Nat.lt_of_lt_of_le hv (Nat.pow_le_pow_right (n := 2) (by decide) (by omega : 5 ≤ i)))
  · rintro rfl; unfold gf; simp

theorem root5 : (AdjoinRoot.root gfModulus) ^ 5 = AdjoinRoot.root gfModulus ^ 3 + 1 := by
  have h : AdjoinRoot.mk gfModulus gfModulus = 0 := AdjoinRoot.mk_self
  have h' : AdjoinRoot.root gfModulus ^ 5 + AdjoinRoot.root gfModulus ^ 3 + 1 = 0 := by
    rw [← h]
    have : AdjoinRoot.mk gfModulus gfModulus = AdjoinRoot.mk gfModulus (X ^ 5 + X ^ 3 + 1) := rfl
    rw [this]; simp
  have := CharTwo.add_self_eq_zero (AdjoinRoot.root gfModulus ^ 3 + 1)
  linear_combination h' - this

/-! ### Bit vectors as polynomials -/

variable {w : Nat}

theorem bits_induction (P : BitVec w → Prop) (h0 : P 0#w) (hx : ∀ x y, P x → P y → P (x ^^^ y)) (hb : ∀ i < w, P (BitVec.twoPow w i))
    (x : BitVec w) : P x := by
  have key : ∀ n, P (BitVec.ofNat w (x.toNat % 2 ^ n)) := by
    intro n
    induction n with
    | zero => simpa [Nat.mod_one] using h0
    | succ n ih =>
      by_cases hn : n < w
      · cases ht : x.getLsbD n with
        | false =>
          have : BitVec.ofNat w (x.toNat % 2 ^ (n + 1)) = BitVec.ofNat w (x.toNat % 2 ^ n) := by
            apply BitVec.eq_of_getLsbD_eq
            intro i hi
            simp only [BitVec.getLsbD_ofNat, hi, decide_true, Bool.true_and, Nat.testBit_mod_two_pow]
            by_cases e : i = n
            · subst e
              have : x.toNat.testBit i = false := ht
              simp [this]
            · have : (decide (i < n + 1)) = decide (i < n) := by
                apply decide_eq_decide.2; omega
              rw [this]
          rw [this]; exact ih
        | true =>
          have : BitVec.ofNat w (x.toNat % 2 ^ (n + 1)) = BitVec.ofNat w (x.toNat % 2 ^ n) ^^^ BitVec.twoPow w n := by
            apply BitVec.eq_of_getLsbD_eq
            intro i hi
            simp only [BitVec.getLsbD_xor, BitVec.getLsbD_ofNat, hi, decide_true, Bool.true_and, Nat.testBit_mod_two_pow, BitVec.getLsbD_twoPow]
            by_cases e : i = n
            · subst e
              have : x.toNat.testBit i = true := ht
              simp [this, hi]
            · have : (decide (i < n + 1)) = decide (i < n) := by
                apply decide_eq_decide.2; omega
              have e' : decide (n = i) = false := by simp; omega
              rw [this, e']; simp
          rw [this]; exact hx _ _ ih (hb n hn)
      · have : x.toNat % 2 ^ (n + 1) = x.toNat % 2 ^ n := by
          have h1 := x.isLt
          have h2 : 2 ^ w ≤ 2 ^ n := Nat.pow_le_pow_right (by decide) (by omega)
          have h3 : 2 ^ w ≤ 2 ^ (n + 1) := Nat.pow_le_pow_right (by decide) (by omega)
          rw [Nat.mod_eq_of_lt (by omega), Nat.mod_eq_of_lt (by omega)]
        rw [this]; exact ih
  have := key w
  rwa [Nat.mod_eq_of_lt x.isLt, BitVec.ofNat_toNat, BitVec.setWidth_eq] at this

/-- Five bits at a time are the coefficients. -/
noncomputable def vecPoly (c : BitVec w) : GF32[X] :=
  ∑ i ∈ Finset.range w, if c.getLsbD i then C (AdjoinRoot.root gfModulus ^ (i % 5)) * X ^ (i / 5) else 0

theorem vecPoly_xor (a b : BitVec w) : vecPoly (a ^^^ b) = vecPoly a + vecPoly b := by
  unfold vecPoly
  rw [← Finset.sum_add_distrib]
  refine Finset.sum_congr rfl fun i _ => ?_
  rw [BitVec.getLsbD_xor]
  cases a.getLsbD i <;> cases b.getLsbD i <;> simp [CharTwo.add_self_eq_zero]

theorem vecPoly_zero : vecPoly 0#w = 0 := by unfold vecPoly; simp

theorem vecPoly_twoPow {i : Nat} (hi : i < w) : vecPoly (BitVec.twoPow w i) = C (AdjoinRoot.root gfModulus ^ (i % 5)) * X ^ (i / 5) := by
  unfold vecPoly
  rw [Finset.sum_eq_single i]
  · rw [BitVec.getLsbD_twoPow]; simp [hi]
  · intro j hj hne
    rw [BitVec.getLsbD_twoPow]; simp [Ne.symm hne]
  · intro h; exact absurd (Finset.mem_range.2 hi) h

theorem vecPoly_small (h5 : 5 ≤ w) {v : Nat} (hv : v < 32) : vecPoly (BitVec.ofNat w v) = C (gf v) := by
  have key : ∀ n ≤ w, ∑ i ∈ Finset.range n, (if (BitVec.ofNat w v).getLsbD i then C (AdjoinRoot.root gfModulus ^ (i % 5)) * X ^ (i / 5) else 0 : GF32[X])
      = ∑ i ∈ Finset.range (min n 5), (if v.testBit i then C (AdjoinRoot.root gfModulus ^ i) else 0 : GF32[X]) := by
    intro n hn
    induction n with
    | zero => simp
    | succ n ih =>
      rw [Finset.sum_range_succ, ih (by omega)]
      by_cases h : n < 5
      · rw [show min (n + 1) 5 = min n 5 + 1 by omega, Finset.sum_range_succ, show min n 5 = n by omega, BitVec.getLsbD_ofNat,
          Nat.mod_eq_of_lt h, Nat.div_eq_of_lt h]
        simp [show n < w by omega]
      · have : v.testBit n = false :=
          Nat.testBit_lt_two_pow (Nat.lt_of_lt_of_le hv (Nat.pow_le_pow_right (n := 2) (by decide) (by omega : 5 ≤ n)))
        rw [show min (n + 1) 5 = min n 5 by omega, BitVec.getLsbD_ofNat, this]
        simp
  unfold vecPoly gf
  rw [key w le_rfl, show min w 5 = 5 by omega, map_sum]
  refine Finset.sum_congr rfl fun i _ => ?_
  split <;> simp


theorem gf_small {v : Nat} (h : ∀ i < 5, v.testBit i = false) : gf v = 0 := by
  unfold gf
  exact Finset.sum_eq_zero fun i hi => by rw [h i (Finset.mem_range.1 hi)]; rfl

theorem vecPoly_coeff (c : BitVec w) (j : Nat) : (vecPoly c).coeff j = gf (c.toNat >>> (5 * j)) := by
  refine bits_induction (fun c => (vecPoly c).coeff j = gf (c.toNat >>> (5 * j))) ?_ ?_ ?_ c
  · rw [vecPoly_zero, gf_small]
    · simp
    · simp
  · intro x y hx hy
    rw [vecPoly_xor, coeff_add, hx, hy, BitVec.toNat_xor, Nat.shiftRight_xor_distrib, gf_xor]
  · intro i hi
    rw [vecPoly_twoPow hi, coeff_C_mul, coeff_X_pow, BitVec.toNat_twoPow, Nat.mod_eq_of_lt (Nat.pow_lt_pow_right (by decide) hi)]
    by_cases e : j = i / 5
    · rw [if_pos e, mul_one]
      unfold gf
      rw [Finset.sum_eq_single (i % 5)]
      · rw [Nat.testBit_shiftRight, Nat.testBit_two_pow]; rw [if_pos (by simp; omega)]
      · intro m hm hne
        have := Finset.mem_range.1 hm
        rw [Nat.testBit_shiftRight, Nat.testBit_two_pow]; rw [if_neg (by simp; omega)]
      · intro h; exact absurd (Finset.mem_range.2 (Nat.mod_lt _ (by decide))) h
    · rw [if_neg e, mul_zero, gf_small]
      intro m hm
      rw [Nat.testBit_shiftRight, Nat.testBit_two_pow]; simp; omega

theorem vecPoly_degree {k : Nat} (hw : w = 5 * k) (c : BitVec w) : (vecPoly c).degree < k := by
  rw [degree_lt_iff_coeff_zero]
  intro j hj
  rw [vecPoly_coeff, gf_small]
  intro i _
  rw [Nat.testBit_shiftRight]
  exact Nat.testBit_lt_two_pow (Nat.lt_of_lt_of_le c.isLt (Nat.pow_le_pow_right (by decide) (by omega)))

theorem vecPoly_eq_zero {c : BitVec w} (h : vecPoly c = 0) : c = 0#w := by
  apply BitVec.eq_of_getLsbD_eq
  intro i hi
  have h1 := vecPoly_coeff c (i / 5)
  have h2 : gf (c.toNat >>> (5 * (i / 5)) % 32) = 0 := by
    have : gf (c.toNat >>> (5 * (i / 5)) % 32) = gf (c.toNat >>> (5 * (i / 5))) := by
      unfold gf
      refine Finset.sum_congr rfl fun m hm => ?_
      rw [show (32 : Nat) = 2 ^ 5 from rfl, Nat.testBit_mod_two_pow]
      simp [Finset.mem_range.1 hm]
    rw [this, ← h1, h, coeff_zero]
  rw [gf_zero_iff _ (Nat.mod_lt _ (by decide))] at h2
  have h3 := congrArg (fun n => n.testBit (i % 5)) h2
  simp only [show (32 : Nat) = 2 ^ 5 from rfl, Nat.testBit_mod_two_pow, Nat.testBit_shiftRight, Nat.zero_testBit] at h3
  rw [show 5 * (i / 5) + i % 5 = i by omega] at h3
  have : i % 5 < 5 := Nat.mod_lt _ (by decide)
  simp [this] at h3
  rw [BitVec.getLsbD_zero]; exact h3

theorem run_poly {A : BitVec w → BitVec w} {g : GF32[X]} (h5 : 5 ≤ w) (hA : ∀ c, g ∣ vecPoly (A c) - vecPoly c * X) (vs : List Nat)
    (hd : Digits 5 vs) (c : BitVec w) (p : GF32[X]) (h : g ∣ vecPoly c - p) :
    g ∣ vecPoly (run A c (vs.map (BitVec.ofNat w))) - vs.foldl (fun p v => p * X + C (gf v)) p := by
  induction vs generalizing c p with
  | nil => exact h
  | cons v vs ih =>
    simp only [List.map_cons, run, List.foldl_cons]
    refine ih (fun x hx => hd x (List.mem_cons_of_mem _ hx)) _ _ ?_
    rw [vecPoly_xor, vecPoly_small h5 (hd v List.mem_cons_self)]
    have := dvd_add (hA c) (Dvd.dvd.mul_right h X)
    convert this using 1
    ring

/-- The remainder is 1 exactly if the bit vector computed is. -/
theorem run_one {k : Nat} (hw : w = 5 * k) (h5 : 5 ≤ w) {A : BitVec w → BitVec w} {g : GF32[X]} (hg : g.Monic) (hdeg : g.degree = k)
    (hA : ∀ c, g ∣ vecPoly (A c) - vecPoly c * X) (vs : List Nat) (hd : Digits 5 vs) :
    run A 1#w (vs.map (BitVec.ofNat w)) = 1#w ↔ g ∣ symbolPoly (1 :: vs) - 1 := by
  have one : gf 1 = 1 := by unfold gf; simp [Finset.sum_range_succ, Nat.testBit]
  have v1 : vecPoly 1#w = 1 := by rw [vecPoly_small h5 (v := 1) (by decide), one, map_one]
  have start : g ∣ vecPoly 1#w - (0 * X + C (gf 1)) := by rw [v1, one]; simp
  have h := run_poly h5 hA vs hd 1#w _ start
  have e : symbolPoly (1 :: vs) = vs.foldl (fun p v => p * X + C (gf v)) (0 * X + C (gf 1)) := rfl
  rw [← e] at h
  constructor
  · intro e1
    rw [e1, v1] at h
    rw [← neg_sub]; exact (dvd_neg).2 h
  · intro h2
    have h3 := dvd_add h h2
    have h4 : g ∣ vecPoly (run A 1#w (vs.map (BitVec.ofNat w)) ^^^ 1#w) := by
      rw [vecPoly_xor, v1]
      have e2 : (1 : GF32[X]) = -1 := by
        have := CharTwo.add_self_eq_zero (1 : GF32[X])
        linear_combination this
      convert h3 using 1
      linear_combination e2
    have h5 : vecPoly (run A 1#w (vs.map (BitVec.ofNat w)) ^^^ 1#w) = 0 := by
      by_contra hne
      exact hg.not_dvd_of_degree_lt hne (by rw [hdeg]; exact vecPoly_degree hw _) h4
    have := vecPoly_eq_zero h5
    rwa [BitVec.xor_eq_zero_iff] at this

/-- Multiplication by the root, on bits. -/
def mulx (v : Nat) : Nat := if v < 16 then 2 * v else (2 * v) ^^^ 41

theorem gf_pow : ∀ i < 5, gf (2 ^ i) = AdjoinRoot.root gfModulus ^ i := by
  intro i hi
  unfold gf
  rw [Finset.sum_eq_single i]
  · rw [Nat.testBit_two_pow, if_pos (by simp)]
  · intro j _ hj
    rw [Nat.testBit_two_pow, if_neg (by simpa using Ne.symm hj)]
  · intro h; exact absurd (Finset.mem_range.2 hi) h

theorem root_mul (v : Nat) (hv : v < 32) : AdjoinRoot.root gfModulus * gf v = gf (mulx v) := by
  have lin : ∀ a < 32, ∀ b < 32, mulx (a ^^^ b) = mulx a ^^^ mulx b := by decide +kernel
  have := bits_induction (w := 5) (fun c => AdjoinRoot.root gfModulus * gf c.toNat = gf (mulx c.toNat)) ?_ ?_ ?_ (BitVec.ofNat 5 v)
  · simpa [Nat.mod_eq_of_lt hv] using this
  · rw [show mulx (0#5).toNat = 0 by decide, show (0#5).toNat = 0 by decide, gf_small (by simp), mul_zero]
  · intro x y hx hy
    rw [BitVec.toNat_xor, gf_xor, mul_add, hx, hy, lin _ x.isLt _ y.isLt, gf_xor]
  · intro i hi
    have e : (BitVec.twoPow 5 i).toNat = 2 ^ i := by
      rw [BitVec.toNat_twoPow, Nat.mod_eq_of_lt (Nat.pow_lt_pow_right (by decide) hi)]
    rw [e, gf_pow i hi, ← pow_succ']
    by_cases h4 : i = 4
    · subst h4
      have e9 : mulx (2 ^ 4) = 2 ^ 3 ^^^ 2 ^ 0 := by decide
      rw [e9, gf_xor, gf_pow 3 (by decide), gf_pow 0 (by decide), root5, pow_zero]
    · have e' : mulx (2 ^ i) = 2 ^ (i + 1) := by
        unfold mulx
        rw [if_pos (Nat.pow_lt_pow_right (m := i) (n := 4) (a := 2) (by decide) (by omega)), Nat.pow_succ, Nat.mul_comm]
      rw [e', gf_pow (i + 1) (by omega)]

theorem mulx_lt : ∀ v < 32, mulx v < 32 := by decide

theorem mulx_iter_lt (j : Nat) (v : Nat) (hv : v < 32) : mulx^[j] v < 32 := by
  induction j with
  | zero => exact hv
  | succ j ih => rw [Function.iterate_succ_apply']; exact mulx_lt _ ih

theorem root_pow_mul (j v : Nat) (hv : v < 32) : AdjoinRoot.root gfModulus ^ j * gf v = gf (mulx^[j] v) := by
  induction j with
  | zero => simp
  | succ j ih => rw [pow_succ', mul_assoc, ih, root_mul _ (mulx_iter_lt j v hv), Function.iterate_succ_apply']

/-- The polynomial with the coefficients `ns`, the lowest power first. -/
noncomputable def lowPoly : List Nat → GF32[X]
  | [] => 0
  | n :: ns => C (gf n) + X * lowPoly ns

theorem lowPoly_coeff (ns : List Nat) (j : Nat) : (lowPoly ns).coeff j = gf (ns.getD j 0) := by
  induction ns generalizing j with
  | nil => simp [lowPoly, gf_small]
  | cons n ns ih =>
    cases j with
    | zero => simp [lowPoly]
    | succ j => simp [lowPoly, ih]

theorem lowPoly_mul (ns : List Nat) (h : ∀ n ∈ ns, n < 32) (j : Nat) :
    C (AdjoinRoot.root gfModulus ^ j) * lowPoly ns = lowPoly (ns.map (mulx^[j])) := by
  induction ns with
  | nil => simp [lowPoly]
  | cons n ns ih =>
    simp only [lowPoly, List.map_cons]
    rw [mul_add, ← C_mul, root_pow_mul j n (h n List.mem_cons_self), ← ih fun x hx => h x (List.mem_cons_of_mem _ hx)]
    ring

/-- The five-bit groups of a number, the lowest first. -/
def groups (k n : Nat) : List Nat := (List.range k).map fun j => n >>> (5 * j) % 32

theorem gf_mod (n : Nat) : gf (n % 32) = gf n := by
  unfold gf
  refine Finset.sum_congr rfl fun m hm => ?_
  rw [show (32 : Nat) = 2 ^ 5 from rfl, Nat.testBit_mod_two_pow]
  simp [Finset.mem_range.1 hm]

theorem vecPoly_groups {k : Nat} (hw : w = 5 * k) (c : BitVec w) : vecPoly c = lowPoly (groups k c.toNat) := by
  ext1 j
  rw [vecPoly_coeff, lowPoly_coeff]
  unfold groups
  by_cases hj : j < k
  · rw [List.getD_eq_getElem?_getD, List.getElem?_map, List.getElem?_range hj]
    simp [gf_mod]
  · rw [List.getD_eq_getElem?_getD, List.getElem?_map, List.getElem?_eq_none (by simpa using hj)]
    simp only [Option.map_none, Option.getD_none]
    rw [gf_small, gf_small (by simp)]
    intro i _
    rw [Nat.testBit_shiftRight]
    exact Nat.testBit_lt_two_pow (Nat.lt_of_lt_of_le c.isLt (Nat.pow_le_pow_right (by decide) (by omega)))

/-- A step of a shift register with the generators of the polynomial `x^k + low`. -/
theorem step_dvd {k : Nat} (hw : w = 5 * k) (hk : 1 ≤ k) {A : BitVec w → BitVec w} (hlin : ∀ x y, A (x ^^^ y) = A x ^^^ A y)
    (hshift : ∀ z : BitVec w, (∀ i, w - 5 ≤ i → z.getLsbD i = false) → A z = z <<< 5) (ns : List Nat) (h32 : ∀ n ∈ ns, n < 32)
    (hgen : ∀ j < 5, groups k (A (BitVec.twoPow w (w - 5 + j))).toNat = ns.map (mulx^[j])) (c : BitVec w) :
    (X ^ k + lowPoly ns) ∣ vecPoly (A c) - vecPoly c * X := by
  refine bits_induction (fun c => (X ^ k + lowPoly ns) ∣ vecPoly (A c) - vecPoly c * X) ?_ ?_ ?_ c
  · have : A 0#w = 0#w := by
      have := hlin 0#w 0#w
      simpa using this
    rw [this, vecPoly_zero]; simp
  · intro x y hx hy
    have := dvd_add hx hy
    rw [hlin, vecPoly_xor, vecPoly_xor]
    convert this using 1
    ring
  · intro i hi
    by_cases h : i < w - 5
    · have : A (BitVec.twoPow w i) = BitVec.twoPow w (i + 5) := by
        rw [hshift]
        · apply BitVec.eq_of_getLsbD_eq
          intro m hm
          rw [BitVec.getLsbD_shiftLeft, BitVec.getLsbD_twoPow, BitVec.getLsbD_twoPow]
          by_cases e : m < 5
          · have : ¬ i + 5 = m := by omega
            simp [e, this]
          · have : (i = m - 5) ↔ (i + 5 = m) := by omega
            simp [e, this, hm, hi, show i + 5 < w by omega]
        · intro m hm
          rw [BitVec.getLsbD_twoPow]; simp; omega
      rw [this, vecPoly_twoPow hi, vecPoly_twoPow (by omega), Nat.add_mod_right, Nat.add_div_right _ (by decide), pow_succ]
      simp [mul_assoc]
    · obtain ⟨j, hj, rfl⟩ : ∃ j < 5, i = w - 5 + j := ⟨i - (w - 5), by omega, by omega⟩
      rw [vecPoly_groups hw (A _), hgen j hj, ← lowPoly_mul ns h32, vecPoly_twoPow hi, show (w - 5 + j) % 5 = j by omega,
        show (w - 5 + j) / 5 = k - 1 by omega]
      refine ⟨C (AdjoinRoot.root gfModulus ^ j), ?_⟩
      have two : (2 : GF32[X]) = 0 := by
        have := CharTwo.add_self_eq_zero (1 : GF32[X])
        linear_combination this
      have hX : (X : GF32[X]) ^ (k - 1) * X = X ^ k := by rw [← pow_succ, Nat.sub_add_cancel hk]
      rw [mul_assoc, hX]
      linear_combination (-C (AdjoinRoot.root gfModulus ^ j) * X ^ k) * two

theorem bech32Gen_eq : bech32Gen = X ^ 6 + lowPoly [18, 29, 21, 20, 22, 29] := by
  unfold bech32Gen; simp only [lowPoly]; ring

theorem cashGen_eq : cashGen = X ^ 8 + lowPoly [1, 19, 3, 25, 11, 25, 3, 19] := by
  unfold cashGen; simp only [lowPoly]; ring

theorem lowPoly_degree (ns : List Nat) : (lowPoly ns).degree < ns.length := by
  rw [degree_lt_iff_coeff_zero]
  intro j hj
  rw [lowPoly_coeff, List.getD_eq_getElem?_getD, List.getElem?_eq_none hj, Option.getD_none, gf_small (by simp)]

theorem gen_monic {k : Nat} (ns : List Nat) (h : ns.length = k) : (X ^ k + lowPoly ns).Monic ∧
    (X ^ k + lowPoly ns : GF32[X]).degree = (k : WithBot ℕ) := by
  have hd := lowPoly_degree ns
  rw [h] at hd
  have : Nontrivial GF32 := AdjoinRoot.nontrivial _ (by rw [gfModulus_degree]; decide)
  exact ⟨monic_X_pow_add hd, by rw [degree_add_eq_left_of_degree_lt (by rw [degree_X_pow]; exact hd), degree_X_pow]⟩

theorem bech32_step (c : BitVec 30) : bech32Gen ∣ vecPoly (Bech32.A c) - vecPoly c * X := by
  rw [bech32Gen_eq]
  exact step_dvd (k := 6) rfl (by decide) Bech32.A_lin Bech32.A_shift _ (by decide) (by decide +kernel) c

theorem cash_step (c : BitVec 40) : cashGen ∣ vecPoly (Cashaddr.A c) - vecPoly c * X := by
  rw [cashGen_eq]
  exact step_dvd (k := 8) rfl (by decide) Cashaddr.A_lin Cashaddr.A_shift _ (by decide) (by decide +kernel) c

theorem bech32_poly (vs : List Nat) (hd : Digits 5 vs) : Bech32.polymod vs = 1#30 ↔ bech32Gen ∣ symbolPoly (1 :: vs) - 1 := by
  have hm := gen_monic (k := 6) [18, 29, 21, 20, 22, 29] rfl
  rw [← bech32Gen_eq] at hm
  rw [Bech32.polymod_eq]
  exact run_one (k := 6) rfl (by decide) hm.1 hm.2 bech32_step vs hd

theorem cash_poly (vs : List Nat) (hd : Digits 5 vs) :
    Cashaddr.polymod (vs.map Int.ofNat) = 0#40 ↔ cashGen ∣ symbolPoly (1 :: vs) - 1 := by
  have hm := gen_monic (k := 8) [1, 19, 3, 25, 11, 25, 3, 19] rfl
  rw [← cashGen_eq] at hm
  rw [Cashaddr.polymod_eq, BitVec.xor_eq_zero_iff, ← run_one (k := 8) rfl (by decide) hm.1 hm.2 cash_step vs hd, List.map_map]
  have : (BitVec.ofInt 40 ∘ Int.ofNat) = BitVec.ofNat 40 := by
    funext n; simp
  rw [this]

end Verif.Spec
