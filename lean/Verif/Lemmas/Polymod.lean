import Verif.Lemmas.LinCode
import Verif.Model.Cashaddr

namespace Verif.Bech32
open LinCode

/-- The feedback of one `bech32_polymod` step. -/
def A (c : BitVec 30) : BitVec 30 := xorGens (c >>> 25) generator 0 ((c &&& 0x1ffffff#30) <<< 5)

theorem bit_and_one (t : BitVec 30) (i : Nat) : ((t >>> i) &&& 1#30 ≠ 0) ↔ t.getLsbD i = true := by
  constructor
  · intro h
    by_contra hn
    apply h
    apply BitVec.eq_of_getLsbD_eq
    intro j hj
    rw [BitVec.getLsbD_and, BitVec.getLsbD_ushiftRight]
    by_cases hj0 : j = 0
    · subst hj0; simp only [Nat.add_zero, Bool.not_eq_true] at hn ⊢; simp [hn]
    · have : (1#30).getLsbD j = false := by
        rw [BitVec.getLsbD_one]; simp [hj0]
      simp [this]
  · intro h h0
    have := congrArg (fun b => BitVec.getLsbD b 0) h0
    simp [h] at this

theorem xorGens_xor_right (t : BitVec 30) (gs : List (BitVec 30)) (i : Nat) (x v : BitVec 30) :
    xorGens t gs i (x ^^^ v) = xorGens t gs i x ^^^ v := by
  induction gs generalizing i x with
  | nil => rfl
  | cons g gs ih =>
    rw [xorGens, xorGens, ← ih]
    congr 1; ac_rfl

theorem xorGens_lin (a b : BitVec 30) (gs : List (BitVec 30)) (i : Nat) (x y : BitVec 30) :
    xorGens (a ^^^ b) gs i (x ^^^ y) = xorGens a gs i x ^^^ xorGens b gs i y := by
  induction gs generalizing i x y with
  | nil => rfl
  | cons g gs ih =>
    simp only [xorGens, bit_and_one, BitVec.getLsbD_xor]
    rw [← ih]
    congr 1
    have : (if (a.getLsbD i ^^ b.getLsbD i) = true then g else 0) =
        (if a.getLsbD i = true then g else 0) ^^^ (if b.getLsbD i = true then g else (0 : BitVec 30)) := by
      cases a.getLsbD i <;> cases b.getLsbD i <;> simp
    rw [this]
    ac_rfl

theorem A_lin (x y : BitVec 30) : A (x ^^^ y) = A x ^^^ A y := by
  unfold A
  rw [← xorGens_lin]
  congr 1
  · apply BitVec.eq_of_getLsbD_eq; intro i hi; simp
  · apply BitVec.eq_of_getLsbD_eq; intro i hi
    simp only [BitVec.getLsbD_shiftLeft, BitVec.getLsbD_and, BitVec.getLsbD_xor]
    generalize x.getLsbD (i - 5) = p; generalize y.getLsbD (i - 5) = q
    generalize (0x1ffffff#30).getLsbD (i - 5) = r; generalize (decide (i < 30)) = s; generalize (decide (i < 5)) = t
    revert p q r s t; decide

theorem polymodStep_eq (c : BitVec 30) (v : Nat) : polymodStep c v = A c ^^^ BitVec.ofNat 30 v := by
  unfold polymodStep A
  exact xorGens_xor_right _ _ _ _ _

theorem polymod_eq (vs : List Nat) : polymod vs = run A 1#30 (vs.map (BitVec.ofNat 30)) := by
  unfold polymod run
  rw [List.foldl_map]
  congr 1
  funext c v
  exact polymodStep_eq c v

theorem low_mask (i : Nat) : (0x1ffffff#30).getLsbD i = decide (i < 25) := by
  rw [BitVec.getLsbD_ofNat, show (0x1ffffff : Nat) = 2 ^ 25 - 1 by rfl, Nat.testBit_two_pow_sub_one]
  by_cases h : i < 25
  · simp [h]; omega
  · simp [h]

theorem A_top_zero {c : BitVec 30} (h : c >>> 25 = 0) : A c = c <<< 5 := by
  unfold A
  rw [h]
  have hx : ∀ (gs : List (BitVec 30)) i x, xorGens 0 gs i x = x := by
    intro gs
    induction gs with
    | nil => intros; rfl
    | cons g gs ih => intro i x; rw [xorGens, ih]; simp
  rw [hx]
  congr 1
  apply BitVec.eq_of_getLsbD_eq
  intro i hi
  rw [BitVec.getLsbD_and, low_mask]
  by_cases hi' : i < 25
  · simp [hi']
  · have := congrArg (fun b => BitVec.getLsbD b (i - 25)) h
    simp only [BitVec.getLsbD_ushiftRight] at this
    rw [show 25 + (i - 25) = i by omega] at this
    rw [this]; simp

theorem A_shift (z : BitVec 30) (h : ∀ i, 30 - 5 ≤ i → z.getLsbD i = false) : A z = z <<< 5 := by
  apply A_top_zero
  apply BitVec.eq_of_getLsbD_eq
  intro i hi
  rw [BitVec.getLsbD_ushiftRight, h _ (by omega)]; simp

theorem gens_low : ∀ n < 32, (xorGens (BitVec.ofNat 30 n) generator 0 0#30) &&& 31#30 = 0#30 → n = 0 := by
  decide +kernel

theorem A_inj (c : BitVec 30) (h : A c = 0#30) : c = 0#30 := by
  have e : A c = xorGens (c >>> 25) generator 0 0#30 ^^^ ((c &&& 0x1ffffff#30) <<< 5) := by
    unfold A; rw [← xorGens_xor_right, BitVec.zero_xor]
  have hlow : (xorGens (c >>> 25) generator 0 0#30) &&& 31#30 = 0#30 := by
    have h2 : (A c) &&& 31#30 = 0#30 := by rw [h]; rfl
    rw [e] at h2
    refine Eq.trans ?_ h2
    apply BitVec.eq_of_getLsbD_eq
    intro i hi
    simp only [BitVec.getLsbD_and, BitVec.getLsbD_xor, BitVec.getLsbD_shiftLeft]
    by_cases h5 : i < 5
    · simp [h5]
    · have : (31#30).getLsbD i = false := by
        rw [BitVec.getLsbD_ofNat, show (31 : Nat) = 2 ^ 5 - 1 by rfl, Nat.testBit_two_pow_sub_one]; simp [h5]
      rw [this]; simp
  have ht : (c >>> 25).toNat < 32 := by
    rw [BitVec.toNat_ushiftRight, Nat.shiftRight_eq_div_pow]
    have := c.isLt; omega
  have ht0 : (c >>> 25).toNat = 0 := by
    apply gens_low _ ht
    rw [BitVec.ofNat_toNat, BitVec.setWidth_eq]; exact hlow
  have htop : c >>> 25 = 0 := BitVec.eq_of_toNat_eq (by simpa using ht0)
  rw [A_top_zero htop] at h
  apply BitVec.eq_of_getLsbD_eq
  intro i hi
  by_cases hi' : i < 25
  · have := congrArg (fun b => BitVec.getLsbD b (i + 5)) h
    simp only [BitVec.getLsbD_shiftLeft] at this
    simpa [show i + 5 < 30 by omega] using this
  · have := congrArg (fun b => BitVec.getLsbD b (i - 25)) htop
    simp only [BitVec.getLsbD_ushiftRight] at this
    rw [show 25 + (i - 25) = i by omega] at this
    rw [this]; simp

/-- A five-bit symbol. -/
def Sym (x : BitVec 30) : Prop := x.toNat < 32

end Verif.Bech32

namespace Verif.Cashaddr
open LinCode

/-- The feedback of one cashaddr `polymod` step. -/
def A (c : BitVec 40) : BitVec 40 := xorGens (c >>> 35) generator ((c &&& 0x07ffffffff#40) <<< 5)

theorem bit_and_pow (t : BitVec 40) (i : Nat) (hi : i < 40) :
    (t &&& BitVec.twoPow 40 i ≠ 0) ↔ t.getLsbD i = true := by
  rw [BitVec.and_twoPow]
  split
  · next h =>
    simp only [h, iff_true]
    intro h0
    have := congrArg (fun b => BitVec.getLsbD b i) h0
    simp [BitVec.getLsbD_twoPow, hi] at this
  · next h => simp [h]

/-- The masks of the generator are single bits. -/
def OneBit (gs : List (BitVec 40 × BitVec 40)) : Prop := ∀ g ∈ gs, ∃ i < 40, g.1 = BitVec.twoPow 40 i

theorem generator_oneBit : OneBit generator := by
  unfold OneBit generator
  intro g hg
  simp only [List.mem_cons, List.not_mem_nil, or_false] at hg
  rcases hg with rfl | rfl | rfl | rfl | rfl
  · exact ⟨0, by decide, by decide⟩
  · exact ⟨1, by decide, by decide⟩
  · exact ⟨2, by decide, by decide⟩
  · exact ⟨3, by decide, by decide⟩
  · exact ⟨4, by decide, by decide⟩

theorem xorGens_xor_right (t : BitVec 40) (gs : List (BitVec 40 × BitVec 40)) (x v : BitVec 40) :
    xorGens t gs (x ^^^ v) = xorGens t gs x ^^^ v := by
  induction gs generalizing x with
  | nil => rfl
  | cons g gs ih =>
    rw [xorGens, xorGens, ← ih]
    congr 1
    split
    · ac_rfl
    · rfl

theorem xorGens_lin (a b : BitVec 40) (gs : List (BitVec 40 × BitVec 40)) (hgs : OneBit gs) (x y : BitVec 40) :
    xorGens (a ^^^ b) gs (x ^^^ y) = xorGens a gs x ^^^ xorGens b gs y := by
  induction gs generalizing x y with
  | nil => rfl
  | cons g gs ih =>
    obtain ⟨i, hi, hg⟩ := hgs g (by simp)
    simp only [xorGens, hg, bit_and_pow _ i hi, BitVec.getLsbD_xor]
    rw [← ih (fun g hg => hgs g (by simp [hg]))]
    congr 1
    have key : ∀ p q : Bool, (if (p ^^ q) = true then x ^^^ y ^^^ g.2 else x ^^^ y) =
        (if p = true then x ^^^ g.2 else x) ^^^ (if q = true then y ^^^ g.2 else y) := by
      intro p q
      cases p <;> cases q
      · rfl
      · simp; ac_rfl
      · simp; ac_rfl
      · simp
        have : x ^^^ g.2 ^^^ (y ^^^ g.2) = x ^^^ y ^^^ (g.2 ^^^ g.2) := by ac_rfl
        rw [this]; simp
    exact key _ _

theorem A_lin (x y : BitVec 40) : A (x ^^^ y) = A x ^^^ A y := by
  unfold A
  rw [← xorGens_lin _ _ _ generator_oneBit]
  congr 1
  · apply BitVec.eq_of_getLsbD_eq; intro i hi; simp
  · apply BitVec.eq_of_getLsbD_eq; intro i hi
    simp only [BitVec.getLsbD_shiftLeft, BitVec.getLsbD_and, BitVec.getLsbD_xor]
    generalize x.getLsbD (i - 5) = p; generalize y.getLsbD (i - 5) = q
    generalize (0x07ffffffff#40).getLsbD (i - 5) = r; generalize (decide (i < 40)) = s; generalize (decide (i < 5)) = t
    revert p q r s t; decide

theorem polymodStep_eq (c : BitVec 40) (v : Int) : polymodStep c v = A c ^^^ BitVec.ofInt 40 v := by
  unfold polymodStep A
  exact xorGens_xor_right _ _ _ _

theorem polymod_eq (vs : List Int) : polymod vs = run A 1#40 (vs.map (BitVec.ofInt 40)) ^^^ 1#40 := by
  unfold polymod run
  rw [List.foldl_map]
  congr 2
  funext c v
  exact polymodStep_eq c v

theorem low_mask (i : Nat) : (0x07ffffffff#40).getLsbD i = decide (i < 35) := by
  rw [BitVec.getLsbD_ofNat, show (0x07ffffffff : Nat) = 2 ^ 35 - 1 by rfl, Nat.testBit_two_pow_sub_one]
  by_cases h : i < 35
  · simp [h]; omega
  · simp [h]

theorem A_top_zero {c : BitVec 40} (h : c >>> 35 = 0) : A c = c <<< 5 := by
  unfold A
  rw [h]
  have hx : ∀ (gs : List (BitVec 40 × BitVec 40)) x, xorGens 0 gs x = x := by
    intro gs
    induction gs with
    | nil => intros; rfl
    | cons g gs ih => intro x; rw [xorGens, ih]; simp
  rw [hx]
  congr 1
  apply BitVec.eq_of_getLsbD_eq
  intro i hi
  rw [BitVec.getLsbD_and, low_mask]
  by_cases hi' : i < 35
  · simp [hi']
  · have := congrArg (fun b => BitVec.getLsbD b (i - 35)) h
    simp only [BitVec.getLsbD_ushiftRight] at this
    rw [show 35 + (i - 35) = i by omega] at this
    rw [this]; simp

theorem A_shift (z : BitVec 40) (h : ∀ i, 40 - 5 ≤ i → z.getLsbD i = false) : A z = z <<< 5 := by
  apply A_top_zero
  apply BitVec.eq_of_getLsbD_eq
  intro i hi
  rw [BitVec.getLsbD_ushiftRight, h _ (by omega)]; simp

theorem gens_low : ∀ n < 32, (xorGens (BitVec.ofNat 40 n) generator 0#40) &&& 31#40 = 0#40 → n = 0 := by
  decide +kernel

theorem A_inj (c : BitVec 40) (h : A c = 0#40) : c = 0#40 := by
  have e : A c = xorGens (c >>> 35) generator 0#40 ^^^ ((c &&& 0x07ffffffff#40) <<< 5) := by
    unfold A; rw [← xorGens_xor_right, BitVec.zero_xor]
  have hlow : (xorGens (c >>> 35) generator 0#40) &&& 31#40 = 0#40 := by
    have h2 : (A c) &&& 31#40 = 0#40 := by rw [h]; rfl
    rw [e] at h2
    refine Eq.trans ?_ h2
    apply BitVec.eq_of_getLsbD_eq
    intro i hi
    simp only [BitVec.getLsbD_and, BitVec.getLsbD_xor, BitVec.getLsbD_shiftLeft]
    by_cases h5 : i < 5
    · simp [h5]
    · have : (31#40).getLsbD i = false := by
        rw [BitVec.getLsbD_ofNat, show (31 : Nat) = 2 ^ 5 - 1 by rfl, Nat.testBit_two_pow_sub_one]; simp [h5]
      rw [this]; simp
  have ht : (c >>> 35).toNat < 32 := by
    rw [BitVec.toNat_ushiftRight, Nat.shiftRight_eq_div_pow]
    have := c.isLt; omega
  have ht0 : (c >>> 35).toNat = 0 := by
    apply gens_low _ ht
    rw [BitVec.ofNat_toNat, BitVec.setWidth_eq]; exact hlow
  have htop : c >>> 35 = 0 := BitVec.eq_of_toNat_eq (by simpa using ht0)
  rw [A_top_zero htop] at h
  apply BitVec.eq_of_getLsbD_eq
  intro i hi
  by_cases hi' : i < 35
  · have := congrArg (fun b => BitVec.getLsbD b (i + 5)) h
    simp only [BitVec.getLsbD_shiftLeft] at this
    simpa [show i + 5 < 40 by omega] using this
  · have := congrArg (fun b => BitVec.getLsbD b (i - 35)) htop
    simp only [BitVec.getLsbD_ushiftRight] at this
    rw [show 35 + (i - 35) = i by omega] at this
    rw [this]; simp

/-- A five-bit symbol. -/
def Sym (x : BitVec 40) : Prop := x.toNat < 32

end Verif.Cashaddr
