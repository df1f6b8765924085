import Verif.Lemmas.LinCode

/-! Patterns of four wrong symbols in a linear feedback register over five-bit symbols. The checks over the generated tables are made
fast for the kernel: tables of literals, and bit sets (indexed by remainders) in place of search trees. -/

namespace Verif.LinCode

variable {w : Nat} {A : BitVec w → BitVec w}

/-- Up to four wrong symbols within `n + 1` positions; compare `few_errors`. -/
theorem few_errors4 (hA : ∀ x y, A (x ^^^ y) = A x ^^^ A y) (hinj : ∀ x, A x = 0#w → x = 0#w) (S : BitVec w → Prop) (n : Nat)
    (h2 : ∀ a d, 0 < a → a ≤ n → S d → d ≠ 0#w → ¬ S (A^[a] d))
    (h3 : ∀ a b d d', 0 < b → b < a → a ≤ n → S d → S d' → d ≠ 0#w → d' ≠ 0#w → ¬ S (A^[a] d ^^^ A^[b] d'))
    (h4 : ∀ a b c d d' d'', 0 < c → c < b → b < a → a ≤ n → S d → S d' → S d'' → d ≠ 0#w → d' ≠ 0#w → d'' ≠ 0#w →
      ¬ S (A^[a] d ^^^ A^[b] d' ^^^ A^[c] d''))
    (e : List (BitVec w)) (hS : ∀ x ∈ e, S x) (hl : e.length ≤ n + 1) (hw1 : 0 < weight e) (hw4 : weight e ≤ 4) :
    run A 0#w e ≠ 0#w := by
  by_cases hw : weight e ≤ 3
  · exact few_errors hA hinj S n h2 h3 e hS hl hw1 hw
  have h : weight e = 4 := by omega
  obtain ⟨d, hd, hn, e1, hl1, hm1, hw1, hr1⟩ := run_weight_succ hA e 3 h
  obtain ⟨d', hd', hn', e2, hl2, hm2, hw2, hr2⟩ := run_weight_succ hA e1 2 hw1
  obtain ⟨d'', hd'', hn'', e3, hl3, hm3, hw3, hr3⟩ := run_weight_succ hA e2 1 hw2
  obtain ⟨f, hf, hnf, e4, hl4, hm4, hw4, hr4⟩ := run_weight_succ hA e3 0 hw3
  rw [hr1, hr2, hr3, hr4, run_weight_zero hA e4 hw4, BitVec.xor_zero]
  have hx : e1.length = e4.length + (e1.length - e4.length) := by omega
  have hy : e2.length = e4.length + (e2.length - e4.length) := by omega
  have hz : e3.length = e4.length + (e3.length - e4.length) := by omega
  rw [hx, hy, hz, Function.iterate_add_apply, Function.iterate_add_apply, Function.iterate_add_apply, ← iter_xor hA, ← iter_xor hA,
    ← iter_xor hA]
  intro h0
  have := iter_eq_zero hA hinj _ _ h0
  rw [← BitVec.xor_assoc, ← BitVec.xor_assoc] at this
  have he := BitVec.xor_eq_zero_iff.1 this
  exact h4 (e1.length - e4.length) (e2.length - e4.length) (e3.length - e4.length) d d' d'' (by omega) (by omega) (by omega) (by omega)
    (hS d hd) (hS d' (hm1 _ hd')) (hS d'' (hm1 _ (hm2 _ hd''))) hn hn' hn'' (by rw [he]; exact hS f (hm1 _ (hm2 _ (hm3 _ hf))))

/-! ### linear maps are determined by single bits -/

theorem lin_ext {f g : BitVec w → BitVec w} (hf : ∀ x y, f (x ^^^ y) = f x ^^^ f y) (hg : ∀ x y, g (x ^^^ y) = g x ^^^ g y)
    (h : ∀ i < w, f (BitVec.twoPow w i) = g (BitVec.twoPow w i)) (x : BitVec w) : f x = g x := by
  have key : ∀ k ≤ w, ∀ x : BitVec w, (∀ i, k ≤ i → x.getLsbD i = false) → f x = g x := by
    intro k
    induction k with
    | zero =>
      intro _ x hx
      have : x = 0#w := BitVec.eq_of_getLsbD_eq fun i hi => by rw [hx i (by omega)]; simp
      rw [this, A_zero hf, A_zero hg]
    | succ k ih =>
      intro hk x hx
      by_cases hb : x.getLsbD k = true
      · have e : x = (x ^^^ BitVec.twoPow w k) ^^^ BitVec.twoPow w k := by
          rw [BitVec.xor_assoc, BitVec.xor_self, BitVec.xor_zero]
        rw [e, hf, hg, h k (by omega), ih (by omega)]
        intro i hi
        rw [BitVec.getLsbD_xor, BitVec.getLsbD_twoPow]
        by_cases hik : i = k
        · subst hik; rw [hb]; simp; omega
        · rw [hx i (by omega)]; simp; omega
      · apply ih (by omega)
        intro i hi
        by_cases hik : i = k
        · subst hik; simpa using hb
        · exact hx i (by omega)
  exact key w (Nat.le_refl w) x fun i hi => BitVec.getLsbD_of_ge _ _ hi

/-! ### the tables -/

/-- A table row is obtained from the one before by `A`, entry by entry. -/
def rowStep (A : BitVec w → BitVec w) : List Nat → List Nat → Bool
  | [], [] => true
  | p :: ps, q :: qs => Nat.beq (A (BitVec.ofNat w p)).toNat q && rowStep A ps qs
  | _, _ => false

/-- So is every row. -/
def chain (A : BitVec w → BitVec w) : List Nat → List (List Nat) → Bool
  | _, [] => true
  | p, r :: rs => rowStep A p r && chain A r rs

theorem rowStep_eq (cur : List (BitVec w)) (r : List Nat) (h : rowStep A (cur.map (·.toNat)) r = true) :
    r = (cur.map A).map (·.toNat) := by
  induction cur generalizing r with
  | nil => cases r with
    | nil => rfl
    | cons => simp [rowStep] at h
  | cons x cur ih => cases r with
    | nil => simp [rowStep] at h
    | cons q qs =>
      simp only [List.map_cons, rowStep, Bool.and_eq_true, Nat.beq_eq, BitVec.ofNat_toNat, BitVec.setWidth_eq] at h
      rw [List.map_cons, List.map_cons, h.1, ← ih qs h.2]

theorem chain_eq (cur : List (BitVec w)) (rows : List (List Nat)) (h : chain A (cur.map (·.toNat)) rows = true) :
    rows = (List.range rows.length).map fun b => cur.map fun x => (A^[b + 1] x).toNat := by
  induction rows generalizing cur with
  | nil => rfl
  | cons r rs ih =>
    simp only [chain, Bool.and_eq_true] at h
    have e := rowStep_eq cur r h.1
    rw [e] at h
    have := ih (cur.map A) h.2
    rw [List.length_cons, List.range_succ_eq_map, List.map_cons, List.map_map]
    congr 1
    · rw [e]; simp
    · refine this.trans ?_
      apply List.map_congr_left
      intro b _
      simp

/-- `x` is outside one of the sets: `(m, f)` stands for the numbers whose remainder by `m` is the place of a 1 in `f`. -/
def misses (x : Nat) : List (Nat × Nat) → Bool
  | [] => false
  | (m, f) :: fs => Nat.beq (Nat.land (Nat.shiftRight f (Nat.mod x m)) 1) 0 || misses x fs

/-- `x` is in all the sets. -/
def hits (x : Nat) : List (Nat × Nat) → Bool
  | [] => true
  | (m, f) :: fs => Nat.beq (Nat.land (Nat.shiftRight f (Nat.mod x m)) 1) 1 && hits x fs

theorem misses_of_hits (x : Nat) (fs : List (Nat × Nat)) (h : hits x fs = true) : misses x fs = false := by
  induction fs with
  | nil => rfl
  | cons p fs ih =>
    obtain ⟨m, f⟩ := p
    simp only [hits, Bool.and_eq_true, Nat.beq_eq] at h
    simp only [misses, ih h.2, h.1]
    rfl

def rowHits (fs : List (Nat × Nat)) : List Nat → Bool
  | [] => true
  | v :: vs => hits (Nat.shiftRight v 5) fs && rowHits fs vs

def allHits (fs : List (Nat × Nat)) : List (List Nat) → Bool
  | [] => true
  | r :: rs => rowHits fs r && allHits fs rs

def rowMisses (fs : List (Nat × Nat)) (u : Nat) : List Nat → Bool
  | [] => true
  | v :: vs => misses (Nat.shiftRight (Nat.xor u v) 5) fs && rowMisses fs u vs

def rowsMiss (fs : List (Nat × Nat)) (u : Nat) : List (List Nat) → Bool
  | [] => true
  | r :: rs => rowMisses fs u r && rowsMiss fs u rs

/-- The first entry of every row against all entries of the rows after it. -/
def allMiss (fs : List (Nat × Nat)) : List (List Nat) → Bool
  | [] => true
  | r :: rs => (match r with
    | [] => true
    | u :: _ => rowsMiss fs u rs) && allMiss fs rs

theorem rowHits_spec {fs : List (Nat × Nat)} {r : List Nat} (h : rowHits fs r = true) : ∀ v ∈ r, hits (v >>> 5) fs = true := by
  induction r with
  | nil => simp
  | cons v vs ih =>
    simp only [rowHits, Bool.and_eq_true] at h
    intro x hx
    rcases List.mem_cons.1 hx with rfl | hx
    · exact h.1
    · exact ih h.2 x hx

theorem allHits_spec {fs : List (Nat × Nat)} {rows : List (List Nat)} (h : allHits fs rows = true) :
    ∀ r ∈ rows, ∀ v ∈ r, hits (v >>> 5) fs = true := by
  induction rows with
  | nil => simp
  | cons r rs ih =>
    simp only [allHits, Bool.and_eq_true] at h
    intro x hx
    rcases List.mem_cons.1 hx with rfl | hx
    · exact rowHits_spec h.1
    · exact ih h.2 x hx

theorem rowMisses_spec {fs : List (Nat × Nat)} {u : Nat} {r : List Nat} (h : rowMisses fs u r = true) :
    ∀ v ∈ r, misses ((u ^^^ v) >>> 5) fs = true := by
  induction r with
  | nil => simp
  | cons v vs ih =>
    simp only [rowMisses, Bool.and_eq_true] at h
    intro x hx
    rcases List.mem_cons.1 hx with rfl | hx
    · exact h.1
    · exact ih h.2 x hx

theorem rowsMiss_spec {fs : List (Nat × Nat)} {u : Nat} {rows : List (List Nat)} (h : rowsMiss fs u rows = true) :
    ∀ r ∈ rows, ∀ v ∈ r, misses ((u ^^^ v) >>> 5) fs = true := by
  induction rows with
  | nil => simp
  | cons r rs ih =>
    simp only [rowsMiss, Bool.and_eq_true] at h
    intro x hx
    rcases List.mem_cons.1 hx with rfl | hx
    · exact rowMisses_spec h.1
    · exact ih h.2 x hx

theorem allMiss_spec {fs : List (Nat × Nat)} {rows : List (List Nat)} (h : allMiss fs rows = true) :
    rows.Pairwise fun r r' => ∀ u, r.head? = some u → ∀ v ∈ r', misses ((u ^^^ v) >>> 5) fs = true := by
  induction rows with
  | nil => exact .nil
  | cons r rs ih =>
    simp only [allMiss, Bool.and_eq_true] at h
    refine .cons ?_ (ih h.2)
    intro r' hr' u hu
    cases r with
    | nil => cases hu
    | cons u' us =>
      cases hu
      exact rowsMiss_spec h.1 r' hr'

/-- Five-bit symbols, 1 to 31. -/
def symbols (w : Nat) : List (BitVec w) := (List.range 31).map fun d => BitVec.ofNat w (d + 1)

/-- What is checked of a table of `n` rows. -/
structure TableOK (A : BitVec w → BitVec w) (n : Nat) (rows : List (List Nat)) (fs : List (Nat × Nat)) : Prop where
  chain : chain A ((symbols w).map (·.toNat)) rows = true
  length : rows.length = n
  zero : hits 0 fs = true
  hits : allHits fs rows = true
  miss : allMiss fs rows.reverse = true
  big : rows.all (fun r => r.all (fun x => Nat.ble 32 x)) = true

/-- A scaling of symbols that commutes with `A`. -/
structure Scaling (A M : BitVec w → BitVec w) : Prop where
  lin : ∀ x y, M (x ^^^ y) = M x ^^^ M y
  comm : ∀ x, M (A x) = A (M x)
  sym : ∀ x : BitVec w, x.toNat < 32 → (M x).toNat < 32
  one : ∀ d < 31, ∃ k < 31, M^[k] (BitVec.ofNat w (d + 1)) = 1#w
  inj : ∀ x, M x = 0#w → x = 0#w

theorem sym_idx (e : BitVec w) (he : e.toNat < 32) (hne : e ≠ 0#w) : e.toNat - 1 < 31 ∧ BitVec.ofNat w (e.toNat - 1 + 1) = e := by
  have h0 : e.toNat ≠ 0 := fun h0 => hne (BitVec.eq_of_toNat_eq (by simpa using h0))
  refine ⟨by omega, ?_⟩
  rw [show e.toNat - 1 + 1 = e.toNat by omega, BitVec.ofNat_toNat, BitVec.setWidth_eq]

theorem mem_symbols (e : BitVec w) (he : e.toNat < 32) (hne : e ≠ 0#w) : e ∈ symbols w :=
  List.mem_map.2 ⟨e.toNat - 1, List.mem_range.2 (sym_idx e he hne).1, (sym_idx e he hne).2⟩

/-- Patterns beginning with an arbitrary symbol reduce to those beginning with 1. -/
theorem scale_down {M : BitVec w → BitVec w} (s : Scaling A M) (d : BitVec w) (sd : d.toNat < 32) (nd : d ≠ 0#w) :
    ∃ k, M^[k] d = 1#w ∧ (∀ m x, M^[k] (A^[m] x) = A^[m] (M^[k] x)) ∧ (∀ x : BitVec w, x.toNat < 32 → (M^[k] x).toNat < 32) ∧
      ∀ x, x ≠ 0#w → M^[k] x ≠ 0#w := by
  obtain ⟨k, -, hk⟩ := s.one (d.toNat - 1) (sym_idx d sd nd).1
  rw [(sym_idx d sd nd).2] at hk
  refine ⟨k, hk, fun m x => (Function.Commute.iterate_iterate (f := M) (g := A) s.comm k m) x, ?_, fun x hx h => hx (iter_eq_zero s.lin s.inj k x h)⟩
  intro x hx
  clear hk
  induction k generalizing x with
  | zero => exact hx
  | succ k ih => rw [Function.iterate_succ_apply]; exact ih _ (s.sym x hx)

variable {n : Nat} {rows : List (List Nat)} {fs : List (Nat × Nat)}

theorem TableOK.row (t : TableOK A n rows fs) (i : Nat) (hi : i < rows.length) : rows[i] = (symbols w).map fun x => (A^[i + 1] x).toNat := by
  have rs := chain_eq _ _ t.chain
  have : rows[i]? = ((List.range rows.length).map fun b => (symbols w).map fun x => (A^[b + 1] x).toNat)[i]? := by rw [← rs]
  rw [List.getElem?_eq_getElem hi, List.getElem?_map, List.getElem?_range hi] at this
  simpa using this

theorem TableOK.two (t : TableOK A n rows fs) (a : Nat) (d : BitVec w) (h0 : 0 < a) (ha : a ≤ n) (sd : d.toNat < 32) (nd : d ≠ 0#w) :
    ¬ (A^[a] d).toNat < 32 := by
  have hl := t.length
  have h := t.row (a - 1) (by omega)
  rw [show a - 1 + 1 = a by omega] at h
  have hb := List.all_eq_true.1 t.big rows[a - 1] (List.getElem_mem (by omega))
  rw [h] at hb
  have := List.all_eq_true.1 hb _ (List.mem_map.2 ⟨d, mem_symbols d sd nd, rfl⟩)
  simp at this
  omega

theorem shift_eq {x y : Nat} (h : x ^^^ y < 32) : x >>> 5 = y >>> 5 := by
  apply Nat.eq_of_testBit_eq
  intro i
  have : (x ^^^ y).testBit (5 + i) = false :=
    Nat.testBit_lt_two_pow (Nat.lt_of_lt_of_le h (by
      have : 2 ^ 5 ≤ 2 ^ (5 + i) := Nat.pow_le_pow_right (by omega) (by omega)
      omega))
  rw [Nat.testBit_xor] at this
  rw [Nat.testBit_shiftRight, Nat.testBit_shiftRight]
  revert this
  generalize x.testBit (5 + i) = p; generalize y.testBit (5 + i) = q
  revert p q; decide

theorem TableOK.missed (t : TableOK A n rows fs) (a b : Nat) (d : BitVec w) (h0 : 0 < b) (hba : b < a) (ha : a ≤ n)
    (sd : d.toNat < 32) (nd : d ≠ 0#w) : misses ((A^[a] 1#w ^^^ A^[b] d).toNat >>> 5) fs = true := by
  have hl := t.length
  have hp := allMiss_spec t.miss
  rw [List.pairwise_reverse, List.pairwise_iff_getElem] at hp
  rw [BitVec.toNat_xor]
  apply hp (b - 1) (a - 1) (by omega) (by omega) (by omega)
  · rw [t.row, show a - 1 + 1 = a by omega]
    have : (symbols w).head? = some 1#w := rfl
    rw [List.head?_map, this]; rfl
  · rw [t.row, show b - 1 + 1 = b by omega]
    exact List.mem_map.2 ⟨d, mem_symbols _ sd nd, rfl⟩

theorem TableOK.three {M : BitVec w → BitVec w} (t : TableOK A n rows fs) (s : Scaling A M) (a b : Nat) (d d' : BitVec w) (h0 : 0 < b)
    (hba : b < a) (ha : a ≤ n) (sd : d.toNat < 32) (sd' : d'.toNat < 32) (nd : d ≠ 0#w) (nd' : d' ≠ 0#w) :
    ¬ (A^[a] d ^^^ A^[b] d').toNat < 32 := by
  intro hlt
  obtain ⟨k, hk, hc, hs, hz⟩ := scale_down s d sd nd
  have hlt := hs _ hlt
  rw [iter_xor s.lin, hc, hc, hk] at hlt
  have hm := t.missed a b (M^[k] d') h0 hba ha (hs _ sd') (hz _ nd')
  rw [Nat.shiftRight_eq_div_pow, Nat.div_eq_of_lt hlt, misses_of_hits _ _ t.zero] at hm
  cases hm

theorem TableOK.four {M : BitVec w → BitVec w} (t : TableOK A n rows fs) (s : Scaling A M) (a b c : Nat) (d d' d'' : BitVec w) (h0 : 0 < c)
    (hcb : c < b) (hba : b < a) (ha : a ≤ n) (sd : d.toNat < 32) (sd' : d'.toNat < 32) (sd'' : d''.toNat < 32) (nd : d ≠ 0#w)
    (nd' : d' ≠ 0#w) (nd'' : d'' ≠ 0#w) : ¬ (A^[a] d ^^^ A^[b] d' ^^^ A^[c] d'').toNat < 32 := by
  intro hlt
  obtain ⟨k, hk, hc, hs, hz⟩ := scale_down s d sd nd
  have hlt := hs _ hlt
  rw [iter_xor s.lin, iter_xor s.lin, hc, hc, hc, hk] at hlt
  have hm := t.missed a b (M^[k] d') (by omega) hba ha (hs _ sd') (hz _ nd')
  rw [BitVec.toNat_xor] at hlt
  have hl := t.length
  have hh : LinCode.hits ((A^[c] (M^[k] d'')).toNat >>> 5) fs = true := by
    apply allHits_spec t.hits rows[c - 1] (List.getElem_mem (by omega))
    rw [t.row, show c - 1 + 1 = c by omega]
    exact List.mem_map.2 ⟨_, mem_symbols _ (hs _ sd'') (hz _ nd''), rfl⟩
  rw [shift_eq hlt, misses_of_hits _ _ hh] at hm
  cases hm

/-- Up to four wrong symbols within `n + 1` positions are noticed. -/
theorem TableOK.errors {M : BitVec w → BitVec w} (t : TableOK A n rows fs) (s : Scaling A M) (hA : ∀ x y, A (x ^^^ y) = A x ^^^ A y)
    (hinj : ∀ x, A x = 0#w → x = 0#w) (e : List (BitVec w)) (hS : ∀ x ∈ e, x.toNat < 32) (hl : e.length ≤ n + 1)
    (hw1 : 0 < weight e) (hw4 : weight e ≤ 4) : run A 0#w e ≠ 0#w :=
  few_errors4 hA hinj (fun x => x.toNat < 32) n t.two (t.three s) (t.four s) e hS hl hw1 hw4

end Verif.LinCode
