import Verif.Lemmas.Blake

/-! BLAKE: the compression function and the padding against the specification. -/

namespace Verif.Blake

open Spec.Blake (Quad)

/-- The specification's parameters for each variant. -/
def params : (V : HashLen) → Spec.Blake.Params V.wordBits
  | .h224 => Spec.Blake.p224
  | .h256 => Spec.Blake.p256
  | .h384 => Spec.Blake.p384
  | .h512 => Spec.Blake.p512

theorem rotr_eq {w : Nat} (x : BitVec w) (r : Nat) (h : r < w) : rotr x r = x.rotateRight r := by
  rw [BitVec.rotateRight_def, Nat.mod_eq_of_lt h]
  rfl

theorem cword_eq (V : HashLen) (i : Nat) (h : i < 16) : cword V i = Spec.Blake.con V.wordBits i := by
  have : ∀ (V : HashLen) (i : Nat), i < 16 → (V.cxx)[i]?.getD 0 = Spec.Blake.piWord V.wordBits i := by
    intro V
    cases V <;> decide +kernel
  unfold cword Spec.Blake.con
  rw [this V i h]

theorem sigma_eq (r i : Nat) (hr : r < 20) (hi : i < 16) : sigma r i = Spec.Blake.sigma r i := by
  have : ∀ r, r < 20 → ∀ i, i < 16 → sigma r i = Spec.Blake.sigma r i := by decide +kernel
  exact this r hr i hi

theorem sigma_lt (r i : Nat) (hr : r < 20) (hi : i < 16) : sigma r i < 16 := by
  have : ∀ r, r < 20 → ∀ i, i < 16 → sigma r i < 16 := by decide +kernel
  exact this r hr i hi

/-- `G` on the four words. -/
def quad (V : HashLen) (m : List (BitVec V.wordBits)) (r i : Nat) (va vb vc vd : BitVec V.wordBits) : Quad V.wordBits :=
  let (rot1, rot2, rot3, rot4) := V.rots
  let sri := sigma r i
  let sri1 := sigma r (i + 1)
  let va := (va + vb) + (rd m sri ^^^ cword V sri1)
  let x := vd ^^^ va
  let vd := rotr x rot1
  let vc := vc + vd
  let x := vb ^^^ vc
  let vb := rotr x rot2
  let va := (va + vb) + (rd m sri1 ^^^ cword V sri)
  let x := vd ^^^ va
  let vd := rotr x rot3
  let vc := vc + vd
  let x := vb ^^^ vc
  let vb := rotr x rot4
  ⟨va, vb, vc, vd⟩

theorem G_eq (V : HashLen) (m : List (BitVec V.wordBits)) (r a b c d i : Nat) (v : List (BitVec V.wordBits)) :
    G V m r a b c d i v =
      ((((v.set a (quad V m r i (rd v a) (rd v b) (rd v c) (rd v d)).a).set b (quad V m r i (rd v a) (rd v b) (rd v c) (rd v d)).b).set c
        (quad V m r i (rd v a) (rd v b) (rd v c) (rd v d)).c).set d (quad V m r i (rd v a) (rd v b) (rd v c) (rd v d)).d) := by
  unfold G quad
  rfl

theorem quad_eq (V : HashLen) (m : List (BitVec V.wordBits)) (r i : Nat) (hr : r < 20) (hi : i < 8) (va vb vc vd : BitVec V.wordBits)
    (m' : Nat → BitVec V.wordBits) (hm : ∀ j, j < 16 → rd m j = m' j) :
    quad V m r (2 * i) va vb vc vd = Spec.Blake.g (params V) m' r i ⟨va, vb, vc, vd⟩ := by
  have h1 := sigma_lt r (2 * i) hr (by omega)
  have h2 := sigma_lt r (2 * i + 1) hr (by omega)
  unfold quad Spec.Blake.g
  simp only
  rw [← sigma_eq r (2 * i) hr (by omega), ← sigma_eq r (2 * i + 1) hr (by omega), ← cword_eq V _ h1, ← cword_eq V _ h2, ← hm _ h1, ← hm _ h2]
  have hrot : ∀ (x : BitVec V.wordBits), rotr x V.rots.1 = x.rotateRight (params V).rot1 ∧
      rotr x V.rots.2.1 = x.rotateRight (params V).rot2 ∧ rotr x V.rots.2.2.1 = x.rotateRight (params V).rot3 ∧
      rotr x V.rots.2.2.2 = x.rotateRight (params V).rot4 := by
    intro x
    cases V <;> exact ⟨rotr_eq _ _ (by decide), rotr_eq _ _ (by decide), rotr_eq _ _ (by decide), rotr_eq _ _ (by decide)⟩
  simp only [← (hrot _).1, ← (hrot _).2.1, ← (hrot _).2.2.1, ← (hrot _).2.2.2]

attribute [local irreducible] quad

theorem round_rd (V : HashLen) (m v : List (BitVec V.wordBits)) (r : Nat) (f : Nat → BitVec V.wordBits) (hr : r < 20)
    (m' : Nat → BitVec V.wordBits) (hm : ∀ j, j < 16 → rd m j = m' j) (hl : v.length = 16) (h : ∀ k, k < 16 → rd v k = f k) :
    (round V m v r).length = 16 ∧ ∀ k, k < 16 → rd (round V m v r) k =
      Spec.Blake.diagonals (params V) m' r (Spec.Blake.columns (params V) m' r f) k := by
  match v, hl with
  | [v0, v1, v2, v3, v4, v5, v6, v7, v8, v9, v10, v11, v12, v13, v14, v15], _ =>
    have e0 : f 0 = v0 := (h 0 (by decide)).symm
    have e1 : f 1 = v1 := (h 1 (by decide)).symm
    have e2 : f 2 = v2 := (h 2 (by decide)).symm
    have e3 : f 3 = v3 := (h 3 (by decide)).symm
    have e4 : f 4 = v4 := (h 4 (by decide)).symm
    have e5 : f 5 = v5 := (h 5 (by decide)).symm
    have e6 : f 6 = v6 := (h 6 (by decide)).symm
    have e7 : f 7 = v7 := (h 7 (by decide)).symm
    have e8 : f 8 = v8 := (h 8 (by decide)).symm
    have e9 : f 9 = v9 := (h 9 (by decide)).symm
    have e10 : f 10 = v10 := (h 10 (by decide)).symm
    have e11 : f 11 = v11 := (h 11 (by decide)).symm
    have e12 : f 12 = v12 := (h 12 (by decide)).symm
    have e13 : f 13 = v13 := (h 13 (by decide)).symm
    have e14 : f 14 = v14 := (h 14 (by decide)).symm
    have e15 : f 15 = v15 := (h 15 (by decide)).symm
    have hc : ∀ i, i < 4 → Spec.Blake.g (params V) m' r i = fun q => quad V m r (2 * i) q.a q.b q.c q.d := by
      intro i hi; funext q; rw [quad_eq V m r i hr (by omega) _ _ _ _ m' hm]
    have hd : ∀ i, i < 4 → Spec.Blake.g (params V) m' r (4 + i) = fun q => quad V m r (8 + 2 * i) q.a q.b q.c q.d := by
      intro i hi; funext q; rw [show 8 + 2 * i = 2 * (4 + i) by omega, quad_eq V m r (4 + i) hr (by omega) _ _ _ _ m' hm]
    refine ⟨by simp only [round, G_eq, List.length_set, List.length_cons, List.length_nil], ?_⟩
    have hcol : ∀ k, k < 16 → Spec.Blake.columns (params V) m' r f k =
        (quad V m r (2 * (k % 4)) (f (k % 4)) (f (4 + k % 4)) (f (8 + k % 4)) (f (12 + k % 4))).get (k / 4) := by
      intro k _
      unfold Spec.Blake.columns
      simp only
      rw [hc (k % 4) (by omega)]
    have hdia : ∀ k, k < 16 → ∀ g, Spec.Blake.diagonals (params V) m' r g k =
        (quad V m r (8 + 2 * ((k % 4 + 4 - k / 4) % 4)) (g ((k % 4 + 4 - k / 4) % 4)) (g (4 + ((k % 4 + 4 - k / 4) % 4 + 1) % 4))
          (g (8 + ((k % 4 + 4 - k / 4) % 4 + 2) % 4)) (g (12 + ((k % 4 + 4 - k / 4) % 4 + 3) % 4))).get (k / 4) := by
      intro k _ g
      unfold Spec.Blake.diagonals
      simp only
      rw [hd _ (by omega)]
    intro k hk
    rw [hdia k hk]
    generalize Spec.Blake.columns (params V) m' r f = F at *
    have F0 := hcol 0 (by decide)
    have F1 := hcol 1 (by decide)
    have F2 := hcol 2 (by decide)
    have F3 := hcol 3 (by decide)
    have F4 := hcol 4 (by decide)
    have F5 := hcol 5 (by decide)
    have F6 := hcol 6 (by decide)
    have F7 := hcol 7 (by decide)
    have F8 := hcol 8 (by decide)
    have F9 := hcol 9 (by decide)
    have F10 := hcol 10 (by decide)
    have F11 := hcol 11 (by decide)
    have F12 := hcol 12 (by decide)
    have F13 := hcol 13 (by decide)
    have F14 := hcol 14 (by decide)
    have F15 := hcol 15 (by decide)
    clear hcol hdia hc hd h
    simp only [Nat.reduceMod, Nat.reduceDiv, Nat.reduceMul, Nat.reduceAdd, e0, e1, e2, e3, e4, e5, e6, e7, e8, e9, e10, e11, e12, e13, e14, e15] at F0 F1 F2 F3 F4 F5 F6 F7 F8 F9 F10 F11 F12 F13 F14 F15
    simp only [round, G_eq, rd, List.set, List.getElem?_cons_zero, List.getElem?_cons_succ, Option.getD_some]
    rcases k with _ | _ | _ | _ | _ | _ | _ | _ | _ | _ | _ | _ | _ | _ | _ | _ | k
    all_goals first
      | (exfalso; omega)
      | (simp only [Nat.reduceMod, Nat.reduceDiv, Nat.reduceMul, Nat.reduceAdd, Nat.reduceSub, F0, F1, F2, F3, F4, F5, F6, F7, F8, F9, F10, F11, F12, F13, F14, F15]
         rfl)

theorem rounds_rd (V : HashLen) (m v : List (BitVec V.wordBits)) (n : Nat) (f : Nat → BitVec V.wordBits) (hn : n ≤ 20)
    (m' : Nat → BitVec V.wordBits) (hm : ∀ j, j < 16 → rd m j = m' j) (hl : v.length = 16) (h : ∀ k, k < 16 → rd v k = f k) :
    ((List.range n).foldl (round V m) v).length = 16 ∧ ∀ k, k < 16 → rd ((List.range n).foldl (round V m) v) k =
      Spec.Blake.rounds (params V) m' n f k := by
  unfold Spec.Blake.rounds
  induction n with
  | zero => exact ⟨hl, h⟩
  | succ n ih =>
    obtain ⟨i1, i2⟩ := ih (by omega)
    rw [List.range_succ, List.foldl_append, List.foldl_append]
    simp only [List.foldl_cons, List.foldl_nil]
    exact round_rd V m _ n _ (by omega) m' hm i1 i2

theorem rd_range {w : Nat} (f : Nat → BitVec w) (n k : Nat) (h : k < n) : rd ((List.range n).map f) k = f k := by
  simp [rd, h]

theorem compH_rd (V : HashLen) (salt h : List (BitVec V.wordBits)) (t : Int) (nullt : Nat) (b : Bytes) (T : Nat)
    (h' s' m' : Nat → BitVec V.wordBits) (hh : ∀ k, k < 8 → rd h k = h' k) (hs : ∀ k, k < 4 → rd salt k = s' k)
    (hm : ∀ j, j < 16 → rd (msgWords V b) j = m' j) (ht : (nullt = 0 ∧ t = T) ∨ (nullt ≠ 0 ∧ T = 0)) (k : Nat) (hk : k < 8) :
    rd (compH V salt h t nullt b) k = Spec.Blake.compress (params V) h' s' m' T k := by
  have hR : (params V).rounds = V.rounds := by cases V <;> rfl
  have hR' : V.rounds ≤ 20 := by cases V <;> decide
  have hinit : (initV V ⟨h, t, [], salt, 0, nullt, []⟩).length = 16 ∧
      ∀ k, k < 16 → rd (initV V ⟨h, t, [], salt, 0, nullt, []⟩) k = Spec.Blake.initial h' s' T k := by
    have hr8 : List.range 8 = [0, 1, 2, 3, 4, 5, 6, 7] := by decide
    have hr4 : List.range 4 = [0, 1, 2, 3] := by decide
    have c := fun i hi => cword_eq V i hi
    have hnull : (if nullt = 0 then [cword V 4 ^^^ BitVec.ofInt V.wordBits t, cword V 5 ^^^ BitVec.ofInt V.wordBits t,
          cword V 6 ^^^ BitVec.ofInt V.wordBits (t / (2 ^ V.wordBits : Nat)), cword V 7 ^^^ BitVec.ofInt V.wordBits (t / (2 ^ V.wordBits : Nat))]
        else [cword V 4, cword V 5, cword V 6, cword V 7]) =
        [BitVec.ofNat V.wordBits T ^^^ cword V 4, BitVec.ofNat V.wordBits T ^^^ cword V 5,
          BitVec.ofNat V.wordBits (T / 2 ^ V.wordBits) ^^^ cword V 6, BitVec.ofNat V.wordBits (T / 2 ^ V.wordBits) ^^^ cword V 7] := by
      rcases ht with ⟨rfl, rfl⟩ | ⟨h1, rfl⟩
      · rw [if_pos rfl, ← Int.natCast_ediv, BitVec.ofInt_natCast, BitVec.ofInt_natCast]
        simp only [BitVec.xor_comm]
      · rw [if_neg h1]
        simp
    unfold initV
    simp only
    rw [hnull, hr8, hr4]
    refine ⟨by simp, ?_⟩
    intro k hk
    simp only [List.map_cons, List.map_nil, List.cons_append, List.nil_append, Spec.Blake.initial]
    rw [BitVec.xor_comm (cword V 0), BitVec.xor_comm (cword V 1), BitVec.xor_comm (cword V 2), BitVec.xor_comm (cword V 3)]
    rcases k with _ | _ | _ | _ | _ | _ | _ | _ | _ | _ | _ | _ | _ | _ | _ | _ | k
    all_goals first
      | (exfalso; omega)
      | (rw [if_pos (by decide), ← hh _ (by decide)]; rfl)
      | (rw [if_neg (by decide), if_pos (by decide), ← hs _ (by decide), ← c _ (by decide)]; rfl)
      | (rw [if_neg (by decide), if_neg (by decide), if_pos (by decide), ← c _ (by decide)]; rfl)
      | (rw [if_neg (by decide), if_neg (by decide), if_neg (by decide), ← c _ (by decide)]; rfl)
  have hv := rounds_rd V (msgWords V b) _ V.rounds _ hR' m' hm hinit.1 hinit.2
  unfold compH compress
  simp only
  rw [rd_range _ 8 k hk]
  unfold Spec.Blake.compress
  simp only
  rw [hR, ← hv.2 k (by omega), ← hv.2 (k + 8) (by omega), ← hh k hk, ← hs (k % 4) (by omega)]
  generalize rd h k = A
  generalize rd salt (k % 4) = B
  generalize rd _ k = C
  generalize rd _ (k + 8) = D
  rw [BitVec.xor_assoc A B C, BitVec.xor_comm B C, ← BitVec.xor_assoc, BitVec.xor_assoc _ B D, BitVec.xor_comm B D, ← BitVec.xor_assoc]

/-! ### bytes -/

theorem beToNat_eq (b : Bytes) : beToNat b = Spec.Blake.beValue b := by
  unfold beToNat Spec.Blake.beValue
  rw [← List.foldr_reverse]
  generalize b.reverse = r
  induction r with
  | nil => rfl
  | cons x r ih => simp only [leToNat, List.foldr_cons, ih]; omega

theorem natToBE_eq (k n : Nat) : natToBE k n = Spec.Blake.beBytes k n := by
  unfold natToBE Spec.Blake.beBytes
  induction k generalizing n with
  | zero => rfl
  | succ k ih =>
    simp only [natToLE, List.reverse_cons]
    rw [ih, List.range_succ, List.map_append]
    congr 1
    · apply List.map_congr_left
      intro i hi
      rw [List.mem_range] at hi
      rw [Nat.div_div_eq_div_mul, show k + 1 - 1 - i = (k - 1 - i) + 1 by omega, Nat.pow_succ, Nat.mul_comm]
    · simp

theorem msgWords_rd (V : HashLen) (P : Bytes) (i j : Nat) (hj : j < 16) :
    rd (msgWords V ((P.drop (V.blkBytes * i)).take V.blkBytes)) j = Spec.Blake.word V.wordBits P i j := by
  unfold msgWords
  rw [rd_range _ 16 j hj, beToNat_eq]
  unfold Spec.Blake.word
  have hw : V.blkBytes = Spec.Blake.blockBytes V.wordBits := by cases V <;> rfl
  have hw2 : V.wordBits / 8 = V.wordBytes := by cases V <;> rfl
  have hw3 : V.blkBytes = 16 * V.wordBytes := by cases V <;> rfl
  rw [← hw, hw2]
  congr 2
  unfold slice
  have : j * V.wordBytes + V.wordBytes ≤ 16 * V.wordBytes := by
    rw [← Nat.succ_mul]; exact Nat.mul_le_mul_right _ (by omega)
  rw [Nat.mul_comm V.wordBytes j, List.take_take, Nat.min_eq_left (by omega), List.drop_take, List.drop_drop]
  congr 1
  omega

theorem natToLE_top (q : Nat) : natToLE (q + 1) (128 * 256 ^ q) = List.replicate q 0 ++ [0x80] := by
  induction q with
  | zero => rfl
  | succ q ih =>
    have h1 : 128 * 256 ^ (q + 1) % 256 = 0 := by rw [Nat.pow_succ, ← Nat.mul_assoc]; exact Nat.mul_mod_left _ _
    have h2 : 128 * 256 ^ (q + 1) / 256 = 128 * 256 ^ q := by
      rw [Nat.pow_succ, ← Nat.mul_assoc]; exact Nat.mul_div_cancel _ (by decide)
    rw [natToLE, h1, h2, ih]
    rfl

theorem beBytes_mark (q b : Nat) (hb : b < 256) :
    Spec.Blake.beBytes (q + 2) (2 ^ (8 * (q + 2) - 1) + b) = 0x80 :: List.replicate q 0 ++ [UInt8.ofNat b] := by
  have e : 2 ^ (8 * (q + 2) - 1) = 128 * 256 ^ (q + 1) := by
    rw [show (256 : Nat) = 2 ^ 8 by rfl, ← Nat.pow_mul, show (128 : Nat) = 2 ^ 7 by rfl, ← Nat.pow_add]
    congr 1; omega
  have h1 : (128 * 256 ^ (q + 1) + b) % 256 = b := by
    rw [Nat.pow_succ, ← Nat.mul_assoc]; omega
  have h2 : (128 * 256 ^ (q + 1) + b) / 256 = 128 * 256 ^ q := by
    rw [Nat.pow_succ, ← Nat.mul_assoc]; omega
  rw [← natToBE_eq, e]
  unfold natToBE
  rw [natToLE, h1, h2, natToLE_top]
  simp

theorem PADDING_take_eq (n : Nat) (h : 0 < n) (h' : n ≤ 129) : PADDING.take n = 0x80 :: List.replicate (n - 1) 0 := by
  obtain ⟨k, rfl⟩ : ∃ k, n = k + 1 := ⟨n - 1, by omega⟩
  unfold PADDING
  rw [List.take_succ_cons, List.take_replicate, Nat.min_eq_left (by omega)]
  rfl

theorem PADDING_slice_eq (n : Nat) (h' : n ≤ 128) : slice PADDING 1 (n + 1) = List.replicate n 0 := by
  unfold PADDING slice
  rw [List.take_succ_cons, List.take_replicate, Nat.min_eq_left (by omega)]
  rfl

theorem mark_eq (V : HashLen) (n : Nat) : mark V (n % V.blkBytes) =
    Spec.Blake.beBytes (Spec.Blake.padLen V.wordBits n) (2 ^ (8 * Spec.Blake.padLen V.wordBits n - 1) + (params V).padBit) := by
  have hp := blk_pos V
  have hw : Spec.Blake.blockBytes V.wordBits = V.blkBytes := by cases V <;> rfl
  have hml := Nat.mod_lt n hp
  have hsw : V.sizewithout + V.wordBits / 4 + 1 = V.blkBytes := by cases V <;> rfl
  have hsw3 : V.blkBytes ≤ 128 := by cases V <;> decide
  have hpb : (params V).padBit < 256 := by cases V <;> decide
  have hX : (if V.isShort = true then ([0x00] : Bytes) else [0x01]) = [UInt8.ofNat (params V).padBit] := by cases V <;> rfl
  unfold Spec.Blake.padLen mark
  rw [hw, hX]
  generalize n % V.blkBytes = c at *
  by_cases h1 : c = V.sizewithout
  · rw [if_pos h1, show 2 * V.blkBytes - V.wordBits / 4 - 1 - c = V.blkBytes by omega, Nat.mod_self]
    cases V <;> decide
  · rw [if_neg h1]
    by_cases h2 : c < V.sizewithout
    · rw [if_pos h2]
      have : (2 * V.blkBytes - V.wordBits / 4 - 1 - c) % V.blkBytes = V.sizewithout - c := by
        rw [show 2 * V.blkBytes - V.wordBits / 4 - 1 - c = (V.sizewithout - c) + V.blkBytes by omega, Nat.add_mod_right,
          Nat.mod_eq_of_lt (by omega)]
      rw [this, show 1 + (V.sizewithout - c) = (V.sizewithout - c - 1) + 2 by omega, beBytes_mark _ _ hpb,
        PADDING_take_eq _ (by omega) (by omega)]
    · rw [if_neg h2]
      have : (2 * V.blkBytes - V.wordBits / 4 - 1 - c) % V.blkBytes = V.blkBytes + V.sizewithout - c := by
        rw [show 2 * V.blkBytes - V.wordBits / 4 - 1 - c = V.blkBytes + V.sizewithout - c by omega, Nat.mod_eq_of_lt (by omega)]
      rw [this, show 1 + (V.blkBytes + V.sizewithout - c) = (V.blkBytes - c - 1 + V.sizewithout) + 2 by omega, beBytes_mark _ _ hpb,
        PADDING_take_eq _ (by omega) (by omega), PADDING_slice_eq _ (by omega), List.cons_append, List.replicate_append_replicate]

theorem lenField_eq (V : HashLen) (x : Nat) :
    (if V.blkBytes = 64 then natToBE 8 x else natToBE 8 (x / 2 ^ V.wordBits) ++ natToBE 8 (x % 2 ^ V.wordBits)) =
      Spec.Blake.beBytes (V.wordBits / 4) x := by
  have h16 : ∀ x, natToBE 8 (x / 2 ^ 64) ++ natToBE 8 (x % 2 ^ 64) = natToBE 16 x := by
    intro x
    unfold natToBE
    rw [← List.reverse_append]
    congr 1
    have hmod : natToLE 8 (x % 2 ^ 64) = natToLE 8 x := by
      have := natToLE_leToNat_of_length (natToLE_length 8 x)
      rw [leToNat_natToLE] at this
      exact this
    rw [hmod]
    exact (natToLE_add 8 8 x).symm
  rw [← natToBE_eq]
  cases V
  · rfl
  · rfl
  · exact h16 x
  · exact h16 x

theorem padM_eq (V : HashLen) (D : Bytes) : padM V D = Spec.Blake.padded (params V) D := by
  unfold padM Spec.Blake.padded
  rw [mark_eq, lenField_eq, List.append_assoc]

theorem chainP_rd (V : HashLen) (salt h0 : List (BitVec V.wordBits)) (P : Bytes) (n : Nat) (s' : Nat → BitVec V.wordBits)
    (hs : ∀ k, k < 4 → rd salt k = s' k) (h0' : ∀ i, i < 8 → rd h0 i = BitVec.ofNat V.wordBits ((params V).iv i)) (k : Nat) :
    ∀ i, i < 8 → rd (chainP V salt h0 P n k) i = Spec.Blake.chain (params V) s' P n k i := by
  have hb : V.blkBits = 8 * V.blkBytes := by cases V <;> rfl
  have hw : Spec.Blake.blockBytes V.wordBits = V.blkBytes := by cases V <;> rfl
  induction k with
  | zero => exact h0'
  | succ k ih =>
    intro i hi
    simp only [chainP, Spec.Blake.chain]
    apply compH_rd V _ _ _ _ _ _ _ _ _ ih hs (fun j hj => msgWords_rd V P k j hj) _ i hi
    unfold Spec.Blake.counter
    rw [hw, hb, Nat.mul_assoc, Nat.mul_assoc]
    by_cases hc : n ≤ V.blkBytes * k
    · right
      rw [if_pos hc, if_pos (by omega)]
      exact ⟨by decide, rfl⟩
    · left
      rw [if_neg hc, if_neg (by omega)]
      exact ⟨rfl, rfl⟩

theorem iv_eq (V : HashLen) (i : Nat) (hi : i < 8) : rd (init V).h i = BitVec.ofNat V.wordBits ((params V).iv i) := by
  have : ∀ (V : HashLen) (i : Nat), i < 8 → (V.iv)[i]?.getD 0 = (params V).iv i := by
    intro V
    cases V <;> decide +kernel
  have hl : V.iv.length = 8 := by cases V <;> rfl
  rw [← this V i hi]
  unfold rd init
  simp only [List.getElem?_map]
  rw [List.getElem?_eq_getElem (by omega)]
  rfl

theorem list8 {w : Nat} (h : List (BitVec w)) (hl : h.length = 8) : h = (List.range 8).map (rd h) := by
  match h, hl with
  | [a, b, c, d, e, f, g, i], _ => rfl

theorem Absorbed.digest {V : HashLen} {salt : List (BitVec V.wordBits)} {D : Bytes} {s : State V}
    (h : Absorbed V salt (Blake.init V).h D s) (d : Bytes) (s' : Nat → BitVec V.wordBits) (hs : ∀ k, k < 4 → rd salt k = s' k) :
    (Blake.final V s d).2 = Spec.Blake.hashSalted (params V) s' (D ++ d) := by
  have hst : s.state ≠ 3 := by rcases h.state with e | e <;> rw [e] <;> decide
  have habs : Absorbed V salt (Blake.init V).h (D ++ d) (if d.length ≠ 0 then Blake.update V s d else s) := by
    split
    · exact h.update d
    · rename_i h0
      have : d = [] := List.eq_nil_of_length_eq_zero (by omega)
      rw [this, List.append_nil]; exact h
  unfold Blake.final
  rw [if_neg hst]
  simp only
  rw [habs.final]
  have hw : Spec.Blake.blockBytes V.wordBits = V.blkBytes := by cases V <;> rfl
  have hw2 : V.wordBits / 8 = V.wordBytes := by cases V <;> rfl
  have ho : (params V).outBytes = V.bits / 8 := by cases V <;> rfl
  unfold Spec.Blake.hashSalted
  simp only
  rw [padM_eq, hw, hw2, ho]
  have hc := chainP_rd V salt (Blake.init V).h (Spec.Blake.padded (params V) (D ++ d)) (D ++ d).length s' hs (iv_eq V)
    ((Spec.Blake.padded (params V) (D ++ d)).length / V.blkBytes)
  have hl : (chainP V salt (Blake.init V).h (Spec.Blake.padded (params V) (D ++ d)) (D ++ d).length
    ((Spec.Blake.padded (params V) (D ++ d)).length / V.blkBytes)).length = 8 := by
    cases (Spec.Blake.padded (params V) (D ++ d)).length / V.blkBytes with
    | zero => cases V <;> rfl
    | succ n => simp [chainP, compH]
  generalize chainP V salt (Blake.init V).h (Spec.Blake.padded (params V) (D ++ d)) (D ++ d).length
    ((Spec.Blake.padded (params V) (D ++ d)).length / V.blkBytes) = h8 at *
  unfold digestBytes
  rw [list8 h8 hl, List.flatMap_def, List.map_map]
  congr 2
  apply List.map_congr_left
  intro i hi
  rw [List.mem_range] at hi
  simp only [Function.comp]
  rw [hc i hi, natToBE_eq]

end Verif.Blake
