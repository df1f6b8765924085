import Verif.Lemmas.HashLen
import Verif.Spec.Blake

/-! `BLAKE.update`: what has been absorbed after any sequence of updates. -/

namespace Verif.Blake

/-- The chain value `_compress` computes, as a function of what it reads. -/
def compH (V : HashLen) (salt : List (BitVec V.wordBits)) (h : List (BitVec V.wordBits)) (t : Int) (nullt : Nat) (b : Bytes) :
    List (BitVec V.wordBits) := (compress V ⟨h, t, [], salt, 0, nullt, []⟩ b).h

theorem compress_eq (V : HashLen) (s : State V) (b : Bytes) :
    compress V s b = { s with h := compH V s.salt s.h s.t s.nullt b } := rfl

/-- The chain value after the first `k` full blocks of `D`. -/
def chainN (V : HashLen) (salt h0 : List (BitVec V.wordBits)) (D : Bytes) : Nat → List (BitVec V.wordBits)
  | 0 => h0
  | k + 1 => compH V salt (chainN V salt h0 D k) (V.blkBits * (k + 1 : Nat) : Nat) 0 ((D.drop (V.blkBytes * k)).take V.blkBytes)

theorem chainN_append (V : HashLen) (salt h0 : List (BitVec V.wordBits)) (D E : Bytes) (k : Nat) (h : V.blkBytes * k ≤ D.length) :
    chainN V salt h0 (D ++ E) k = chainN V salt h0 D k := by
  induction k with
  | zero => rfl
  | succ k ih =>
    rw [Nat.mul_succ] at h
    simp only [chainN]
    rw [ih (by omega), List.drop_append_of_le_length (by omega), List.take_append_of_le_length (by rw [List.length_drop]; omega)]

theorem blk_pos (V : HashLen) : 0 < V.blkBytes := by cases V <;> decide

theorem updateLoop_eq (V : HashLen) (h0 : List (BitVec V.wordBits)) (D : Bytes) (s : State V) (hn : s.nullt = 0) (fuel k : Nat)
    (hk : V.blkBytes * k ≤ D.length) (hf : D.length ≤ V.blkBytes * k + fuel) :
    updateLoop V fuel { s with h := chainN V s.salt h0 D k, t := (V.blkBits * k : Nat) } (D.drop (V.blkBytes * k)) =
      ({ s with h := chainN V s.salt h0 D (D.length / V.blkBytes), t := (V.blkBits * (D.length / V.blkBytes) : Nat) },
        D.drop (V.blkBytes * (D.length / V.blkBytes))) := by
  have hp := blk_pos V
  induction fuel generalizing k with
  | zero =>
    have : D.length / V.blkBytes = k := by
      have : D.length = V.blkBytes * k := by omega
      rw [this, Nat.mul_div_cancel_left _ hp]
    rw [this]; rfl
  | succ f ih =>
    unfold updateLoop
    rw [List.length_drop]
    split
    · rename_i hle
      have hle' : V.blkBytes * (k + 1) ≤ D.length := by rw [Nat.mul_succ]; omega
      rw [List.drop_drop, ← Nat.mul_succ, compress_eq]
      have := ih (k + 1) hle' (by rw [Nat.mul_succ]; omega)
      rw [← this]
      congr 1
      simp only [chainN, hn]
      congr 2
    · rename_i hlt
      have : D.length / V.blkBytes = k := by
        apply Nat.div_eq_of_lt_le
        · rw [Nat.mul_comm]; exact hk
        · rw [Nat.mul_comm, Nat.mul_succ]; omega
      rw [this]

/-- `D` has been absorbed since the state `s0`. -/
structure Absorbed (V : HashLen) (salt h0 : List (BitVec V.wordBits)) (D : Bytes) (s : State V) : Prop where
  h : s.h = chainN V salt h0 D (D.length / V.blkBytes)
  t : s.t = (V.blkBits * (D.length / V.blkBytes) : Nat)
  cache : s.cache = D.drop (V.blkBytes * (D.length / V.blkBytes))
  salt : s.salt = salt
  nullt : s.nullt = 0
  state : s.state = 1 ∨ s.state = 2

theorem Absorbed.init (V : HashLen) : Absorbed V (init V).salt (init V).h [] (init V) := by
  constructor <;> simp [Blake.init, chainN]

theorem Absorbed.cache_length {V : HashLen} {salt h0 : List (BitVec V.wordBits)} {D : Bytes} {s : State V}
    (h : Absorbed V salt h0 D s) : s.cache.length = D.length % V.blkBytes := by
  rw [h.cache, List.length_drop]
  have := Nat.div_add_mod D.length V.blkBytes
  omega

theorem Absorbed.update {V : HashLen} {salt h0 : List (BitVec V.wordBits)} {D : Bytes} {s : State V}
    (h : Absorbed V salt h0 D s) (d : Bytes) : Absorbed V salt h0 (D ++ d) (update V s d) := by
  have hp := blk_pos V
  have hcl := h.cache_length
  have hdm := Nat.div_add_mod D.length V.blkBytes
  have hml := Nat.mod_lt D.length hp
  generalize hk : D.length / V.blkBytes = k at *
  obtain ⟨sh, st, scache, ssalt, sstate, snullt, shash⟩ := s
  obtain ⟨e1, e2, e3, e4, e5, e6⟩ := h
  simp only at *
  rw [hk] at e1 e2 e3
  subst e1 e2 e4 e5
  unfold Blake.update
  simp only
  split
  · rename_i h0'
    have : d = [] := List.eq_nil_of_length_eq_zero h0'
    subst this
    simp only [List.append_nil]
    constructor <;> simp [hk, e3]
  · rename_i hd
    split
    · rename_i hfill
      obtain ⟨hl, hfill⟩ := hfill
      simp only
      -- the cached bytes and the first part of the new data make up block k
      have hk1 : V.blkBytes * (k + 1) ≤ (D ++ d).length := by
        rw [Nat.mul_succ, List.length_append]; omega
      have hblk : scache ++ d.take (V.blkBytes - scache.length) = ((D ++ d).drop (V.blkBytes * k)).take V.blkBytes := by
        rw [List.drop_append_of_le_length (by omega), ← e3, List.take_append, List.take_of_length_le (l := scache) (by omega)]
      have hrest : d.drop (V.blkBytes - scache.length) = (D ++ d).drop (V.blkBytes * (k + 1)) := by
        rw [List.drop_append, List.drop_eq_nil_of_le (as := D) (by rw [Nat.mul_succ]; omega), List.nil_append]
        congr 1
        rw [Nat.mul_succ]; omega
      have hc : chainN V ssalt h0 (D ++ d) (k + 1) = compH V ssalt (chainN V ssalt h0 D k) (V.blkBits * (k + 1 : Nat) : Nat) 0
          (scache ++ d.take (V.blkBytes - scache.length)) := by
        simp only [chainN]
        rw [chainN_append _ _ _ _ _ _ (by omega), hblk]
      have hs1 := updateLoop_eq V h0 (D ++ d) ⟨[], 0, [], ssalt, 2, 0, shash⟩ rfl (d.drop (V.blkBytes - scache.length)).length (k + 1)
        hk1 (by rw [List.length_drop, Nat.mul_succ, List.length_append]; omega)
      simp only at hs1
      rw [compress_eq]
      simp only
      have ht : ((V.blkBits * (k + 1) : Nat) : Int) = ((V.blkBits * k : Nat) : Int) + V.blkBits := rfl
      rw [hc, ← hrest, ht] at hs1
      rw [hs1]
      simp only [List.nil_append]
      split
      · constructor <;> simp
      · rename_i hz
        have : (D ++ d).drop (V.blkBytes * ((D ++ d).length / V.blkBytes)) = [] := by
          apply List.eq_nil_of_length_eq_zero; omega
        constructor <;> simp only
        · rw [this]
        · right; trivial
    · rename_i hnf
      simp only
      have hkd : V.blkBytes * k ≤ (D ++ d).length := by rw [List.length_append]; omega
      by_cases hl : scache.length = 0
      · have hce : scache = [] := List.eq_nil_of_length_eq_zero hl
        have hs1 := updateLoop_eq V h0 (D ++ d) ⟨[], 0, [], ssalt, 2, 0, shash⟩ rfl d.length k hkd
          (by rw [List.length_append]; omega)
        simp only at hs1
        rw [chainN_append _ _ _ _ _ _ (by omega), List.drop_append_of_le_length (by omega), ← e3, hce, List.nil_append] at hs1
        rw [hce, hs1]
        simp only [List.nil_append]
        split
        · constructor <;> simp
        · rename_i hz
          have : (D ++ d).drop (V.blkBytes * ((D ++ d).length / V.blkBytes)) = [] := by
            apply List.eq_nil_of_length_eq_zero; omega
          constructor <;> simp only
          · rw [this]
          · right; trivial
      · have hlt : d.length < V.blkBytes - scache.length := by
          rcases Nat.lt_or_ge d.length (V.blkBytes - scache.length) with h | h
          · exact h
          · exact absurd ⟨hl, h⟩ hnf
        have e : updateLoop V d.length ⟨chainN V ssalt h0 D k, (V.blkBits * k : Nat), scache, ssalt, 2, 0, shash⟩ d =
            (⟨chainN V ssalt h0 D k, (V.blkBits * k : Nat), scache, ssalt, 2, 0, shash⟩, d) := by
          obtain ⟨n, hn⟩ : ∃ n, d.length = n + 1 := ⟨d.length - 1, by omega⟩
          rw [hn]
          unfold updateLoop
          rw [if_neg (by omega)]
        have hk' : (D ++ d).length / V.blkBytes = k := by
          rw [List.length_append]
          apply Nat.div_eq_of_lt_le
          · rw [Nat.mul_comm]; omega
          · rw [Nat.mul_comm, Nat.mul_succ]; omega
        rw [e]
        simp only
        rw [if_pos (by omega)]
        constructor <;> simp only [hk']
        · rw [chainN_append _ _ _ _ _ _ (by omega)]
        · rw [e3, List.drop_append_of_le_length (by omega)]
        · right; trivial

theorem Absorbed.foldl {V : HashLen} {salt h0 : List (BitVec V.wordBits)} {D : Bytes} {s : State V}
    (h : Absorbed V salt h0 D s) (cs : List Bytes) : Absorbed V salt h0 (D ++ cs.flatten) (cs.foldl (Blake.update V) s) := by
  induction cs generalizing D s with
  | nil => simpa using h
  | cons c cs ih =>
    have := ih (h.update c)
    simpa [List.append_assoc] using this

/-! ### padding -/

theorem update_short (V : HashLen) (s : State V) (d : Bytes) (h : s.cache.length + d.length < V.blkBytes) :
    update V s d = { s with state := 2, cache := s.cache ++ d } := by
  unfold update
  simp only
  split
  · rename_i h0
    have : d = [] := List.eq_nil_of_length_eq_zero h0
    simp [this]
  · rename_i h0
    rw [if_neg (c := s.cache.length ≠ 0 ∧ V.blkBytes - s.cache.length ≤ d.length) (by omega)]
    simp only
    obtain ⟨n, hn⟩ : ∃ n, d.length = n + 1 := ⟨d.length - 1, by omega⟩
    rw [hn]
    unfold updateLoop
    rw [if_neg (c := V.blkBytes ≤ d.length) (by omega)]
    simp only
    rw [if_pos (by omega)]

theorem updateLoop_one (V : HashLen) (f : Nat) (s : State V) (d : Bytes) (h : d.length = V.blkBytes) (hf : 0 < f) :
    updateLoop V f s d = (compress V { s with t := s.t + V.blkBits } d, []) := by
  obtain ⟨n, rfl⟩ : ∃ n, f = n + 1 := ⟨f - 1, by omega⟩
  have hp := blk_pos V
  unfold updateLoop
  rw [if_pos (by omega), List.take_of_length_le (by omega), List.drop_eq_nil_of_le (by omega)]
  cases n with
  | zero => rfl
  | succ n =>
    unfold updateLoop
    rw [if_neg (by simp only [List.length_nil]; omega)]

theorem update_fill (V : HashLen) (s : State V) (d : Bytes) (h : s.cache.length + d.length = V.blkBytes) (hd : 0 < d.length) :
    update V s d = { s with state := 2, cache := [], t := s.t + V.blkBits,
                            h := compH V s.salt s.h (s.t + V.blkBits) s.nullt (s.cache ++ d) } := by
  have hp := blk_pos V
  unfold update
  simp only
  rw [if_neg (by omega)]
  by_cases hl : s.cache.length = 0
  · have hc : s.cache = [] := List.eq_nil_of_length_eq_zero hl
    rw [if_neg (c := s.cache.length ≠ 0 ∧ V.blkBytes - s.cache.length ≤ d.length) (by simp [hl])]
    simp only
    rw [updateLoop_one V _ _ d (by omega) (by omega)]
    simp only [List.length_nil, Nat.lt_irrefl, if_false, compress_eq, hc, List.nil_append]
  · rw [if_pos (c := s.cache.length ≠ 0 ∧ V.blkBytes - s.cache.length ≤ d.length) ⟨hl, by omega⟩]
    simp only
    rw [List.take_of_length_le (by omega), List.drop_eq_nil_of_le (by omega)]
    simp only [List.length_nil, updateLoop, Nat.lt_irrefl, if_false, compress_eq]

theorem compH_null (V : HashLen) (salt h : List (BitVec V.wordBits)) (t t' : Int) (b : Bytes) :
    compH V salt h t 1 b = compH V salt h t' 1 b := rfl

/-- The bytes between the message and its length. -/
def mark (V : HashLen) (c : Nat) : Bytes :=
  if c = V.sizewithout then (if V.isShort then [0x80] else [0x81])
  else if c < V.sizewithout then PADDING.take (V.sizewithout - c) ++ (if V.isShort then [0x00] else [0x01])
  else PADDING.take (V.blkBytes - c) ++ slice PADDING 1 (V.sizewithout + 1) ++ (if V.isShort then [0x00] else [0x01])

/-- The chain value after `k` blocks of the padded message `P` of a message of `n` bytes. -/
def chainP (V : HashLen) (salt h0 : List (BitVec V.wordBits)) (P : Bytes) (n : Nat) : Nat → List (BitVec V.wordBits)
  | 0 => h0
  | k + 1 => compH V salt (chainP V salt h0 P n k) (min (8 * n) (V.blkBits * (k + 1)) : Nat) (if n ≤ V.blkBytes * k then 1 else 0)
      ((P.drop (V.blkBytes * k)).take V.blkBytes)

/-- The message, padded. -/
def padM (V : HashLen) (D : Bytes) : Bytes :=
  D ++ (mark V (D.length % V.blkBytes) ++
    (if V.blkBytes = 64 then natToBE 8 (8 * D.length) else natToBE 8 (8 * D.length / 2 ^ V.wordBits) ++ natToBE 8 (8 * D.length % 2 ^ V.wordBits)))

theorem chainP_full (V : HashLen) (salt h0 : List (BitVec V.wordBits)) (D E : Bytes) (k : Nat) (h : V.blkBytes * k ≤ D.length) :
    chainP V salt h0 (D ++ E) D.length k = chainN V salt h0 D k := by
  have hp := blk_pos V
  have hb : V.blkBits = 8 * V.blkBytes := by cases V <;> rfl
  induction k with
  | zero => rfl
  | succ k ih =>
    have h' : V.blkBytes * k + V.blkBytes ≤ D.length := by rw [← Nat.mul_succ]; exact h
    simp only [chainP, chainN]
    rw [ih (by omega), List.drop_append_of_le_length (by omega), List.take_append_of_le_length (by rw [List.length_drop]; omega),
      if_neg (by omega), Nat.min_eq_right (by rw [hb, Nat.mul_assoc]; omega)]

theorem PADDING_take (n : Nat) (h : n ≤ 129) : (PADDING.take n).length = n := by
  rw [List.length_take]; simp [PADDING]; omega

theorem PADDING_slice (n : Nat) (h : n ≤ 128) : (slice PADDING 1 (n + 1)).length = n := by
  simp [slice, PADDING]; omega

theorem mark_length (V : HashLen) (c : Nat) (h : c < V.blkBytes) :
    (mark V c).length = if c ≤ V.sizewithout then V.sizewithout + 1 - c else V.blkBytes + V.sizewithout + 1 - c := by
  have h1 : V.sizewithout ≤ 128 := by cases V <;> decide
  have h2 : V.blkBytes ≤ 128 := by cases V <;> decide
  have h3 : ∀ a b : UInt8, (if V.isShort = true then [a] else [b]).length = 1 := by intro a b; split <;> rfl
  unfold mark
  split
  · rw [h3, if_pos (by omega)]; omega
  · split
    · rw [List.length_append, h3, PADDING_take _ (by omega), if_pos (by omega)]; omega
    · rw [List.length_append, List.length_append, h3, PADDING_take _ (by omega), PADDING_slice _ (by omega), if_neg (by omega)]; omega

theorem lenField_length (V : HashLen) (n : Nat) :
    (if V.blkBytes = 64 then natToBE 8 n else natToBE 8 (n / 2 ^ V.wordBits) ++ natToBE 8 (n % 2 ^ V.wordBits)).length =
      V.blkBytes - V.sizewithout - 1 := by
  cases V <;> simp [HashLen.blkBytes, HashLen.sizewithout, HashLen.wordBits, natToBE_length]

attribute [local irreducible] compH in
theorem Absorbed.final {V : HashLen} {salt h0 : List (BitVec V.wordBits)} {D : Bytes} {s : State V}
    (h : Absorbed V salt h0 D s) :
    (Blake.update V { (padStep V s) with t := (padStep V s).t - V.blkBytes } (msglen V s)).h =
      chainP V salt h0 (padM V D) D.length ((padM V D).length / V.blkBytes) := by
  have hp := blk_pos V
  have hcl := h.cache_length
  have hdm := Nat.div_add_mod D.length V.blkBytes
  have hml := Nat.mod_lt D.length hp
  have hb : V.blkBits = 8 * V.blkBytes := by cases V <;> rfl
  have hsw : V.sizewithout < V.blkBytes := by cases V <;> decide
  have hsw2 : V.blkBytes - V.sizewithout - 1 = V.blkBytes / 8 := by cases V <;> decide
  have hsw3 : V.blkBytes ≤ 128 := by cases V <;> decide
  have hsw4 : V.blkBytes = 8 * (V.blkBytes / 8) := by cases V <;> decide
  have hlf := lenField_length V (8 * D.length)
  have hmk := mark_length V (D.length % V.blkBytes) hml
  have hms : msglen V s = (if V.blkBytes = 64 then natToBE 8 (8 * D.length)
      else natToBE 8 (8 * D.length / 2 ^ V.wordBits) ++ natToBE 8 (8 * D.length % 2 ^ V.wordBits)) := by
    have : (s.t + 8 * (s.cache.length : Int)).toNat = 8 * D.length := by
      rw [h.t, hcl, hb, Nat.mul_assoc]; omega
    unfold msglen
    simp only [this]
  rw [hms]
  have hPl : (padM V D).length = D.length + ((mark V (D.length % V.blkBytes)).length + (V.blkBytes - V.sizewithout - 1)) := by
    unfold padM
    rw [List.length_append, List.length_append, hlf]
  have hcN : ∀ k, V.blkBytes * k ≤ D.length → chainP V salt h0 (padM V D) D.length k = chainN V salt h0 D k := by
    intro k hk; exact chainP_full V salt h0 D _ k hk
  have hPd : padM V D = D ++ (mark V (D.length % V.blkBytes) ++ (if V.blkBytes = 64 then natToBE 8 (8 * D.length)
      else natToBE 8 (8 * D.length / 2 ^ V.wordBits) ++ natToBE 8 (8 * D.length % 2 ^ V.wordBits))) := rfl
  generalize (if V.blkBytes = 64 then natToBE 8 (8 * D.length)
      else natToBE 8 (8 * D.length / 2 ^ V.wordBits) ++ natToBE 8 (8 * D.length % 2 ^ V.wordBits)) = L at *
  generalize padM V D = P at *
  generalize hk : D.length / V.blkBytes = k at *
  generalize hc : D.length % V.blkBytes = c at *
  obtain ⟨sh, st, scache, ssalt, sstate, snullt, shash⟩ := s
  obtain ⟨e1, e2, e3, e4, e5, e6⟩ := h
  simp only at *
  rw [hk] at e1 e2 e3
  subst e1 e2 e4 e5
  have hPk : P.drop (V.blkBytes * k) = scache ++ (mark V c ++ L) := by
    rw [hPd, List.drop_append_of_le_length (by omega), ← e3]
  have hone : ∀ a b : UInt8, (if V.isShort = true then [a] else [b]).length = 1 := by intro a b; split <;> rfl
  have hdiv : ∀ j, P.length = V.blkBytes * k + V.blkBytes * j → P.length / V.blkBytes = k + j := by
    intro j hj
    rw [hj, ← Nat.mul_add, Nat.mul_div_cancel_left _ hp]
  unfold padStep
  simp only
  by_cases hA : scache.length = V.sizewithout
  · -- one padding byte
    rw [if_pos hA]
    have hm : mark V c = (if V.isShort then [0x80] else [0x81]) := by
      unfold mark; rw [if_pos (by omega)]
    rw [if_pos (by omega)] at hmk
    have hX := hone 0x80 0x81
    generalize (if V.isShort = true then ([0x80] : Bytes) else [0x81]) = X at hm hX ⊢
    rw [update_short _ _ X (by simp only; omega)]
    simp only
    rw [update_fill _ _ L (by simp only [List.length_append]; omega) (by omega)]
    simp only
    rw [hdiv 1 (by omega)]
    simp only [chainP]
    rw [hcN k (by omega), hPk, ← hm, List.take_of_length_le (by simp only [List.length_append]; omega), if_neg (by omega),
      List.append_assoc]
    congr 1
    rw [Nat.min_eq_left (by rw [hb, Nat.mul_succ, Nat.mul_assoc]; omega), hb, Nat.mul_assoc]
    omega
  · rw [if_neg hA]
    by_cases hB : scache.length < V.sizewithout
    · -- the padding fits
      rw [if_pos hB]
      have hm : mark V c = PADDING.take (V.sizewithout - scache.length) ++ (if V.isShort then [0x00] else [0x01]) := by
        unfold mark; rw [if_neg (by omega), if_pos (by omega), hcl]
      rw [if_pos (by omega)] at hmk
      have hpt := PADDING_take (V.sizewithout - scache.length) (by omega)
      have hnull : (if scache.length = 0 then
            ({ h := chainN V ssalt h0 D k, t := (V.blkBits * k : Nat), cache := scache, salt := ssalt, state := sstate, nullt := 1, hash := shash } : State V)
          else { h := chainN V ssalt h0 D k, t := (V.blkBits * k : Nat), cache := scache, salt := ssalt, state := sstate, nullt := 0, hash := shash }) =
          { h := chainN V ssalt h0 D k, t := (V.blkBits * k : Nat), cache := scache, salt := ssalt, state := sstate,
            nullt := if scache.length = 0 then 1 else 0, hash := shash } := by
        split <;> rfl
      rw [hnull]
      simp only
      have hX := hone 0x00 0x01
      generalize (if V.isShort = true then ([0x00] : Bytes) else [0x01]) = X at hm hX ⊢
      rw [update_short (d := PADDING.take _) _ _ (by simp only; omega)]
      simp only
      rw [update_short _ _ X (by simp only [List.length_append]; omega)]
      simp only
      rw [update_fill _ _ L (by simp only [List.length_append]; omega) (by omega)]
      simp only
      rw [hdiv 1 (by omega)]
      simp only [chainP]
      rw [hcN k (by omega), hPk, List.take_of_length_le (l := scache ++ _) (by simp only [List.length_append]; omega), hm]
      have e : scache ++ List.take (V.sizewithout - scache.length) PADDING ++ X ++ L =
          scache ++ (List.take (V.sizewithout - scache.length) PADDING ++ X ++ L) := by
        simp only [List.append_assoc]
      rw [e]
      by_cases h0' : scache.length = 0
      · rw [if_pos h0', if_pos (by omega)]
        exact compH_null _ _ _ _ _ _
      · rw [if_neg h0', if_neg (by omega)]
        congr 1
        rw [Nat.min_eq_left (by rw [hb, Nat.mul_succ, Nat.mul_assoc]; omega), hb, Nat.mul_assoc]
        omega
    · -- two blocks
      rw [if_neg hB]
      have hm : mark V c = PADDING.take (V.blkBytes - scache.length) ++ slice PADDING 1 (V.sizewithout + 1) ++
          (if V.isShort then [0x00] else [0x01]) := by
        unfold mark; rw [if_neg (by omega), if_neg (by omega), hcl]
      rw [if_neg (by omega)] at hmk
      have hpt := PADDING_take (V.blkBytes - scache.length) (by omega)
      have hps := PADDING_slice V.sizewithout (by omega)
      have hX := hone 0x00 0x01
      generalize (if V.isShort = true then ([0x00] : Bytes) else [0x01]) = X at hm hX ⊢
      rw [update_fill (d := PADDING.take _) _ _ (by simp only; omega) (by omega)]
      simp only
      rw [update_short (d := slice PADDING _ _) _ _ (by simp only [List.length_nil]; omega)]
      simp only [List.nil_append]
      rw [update_short _ _ X (by simp only; omega)]
      simp only
      rw [update_fill _ _ L (by simp only [List.length_append]; omega) (by omega)]
      simp only
      rw [hdiv 2 (by omega)]
      simp only [chainP]
      have hPk1 : P.drop (V.blkBytes * (k + 1)) = slice PADDING 1 (V.sizewithout + 1) ++ X ++ L := by
        rw [Nat.mul_succ, ← List.drop_drop, hPk, hm]
        have : scache ++ (List.take (V.blkBytes - scache.length) PADDING ++ slice PADDING 1 (V.sizewithout + 1) ++
            X ++ L) =
            (scache ++ List.take (V.blkBytes - scache.length) PADDING) ++ (slice PADDING 1 (V.sizewithout + 1) ++
            X ++ L) := by simp only [List.append_assoc]
        rw [this, List.drop_append, List.drop_eq_nil_of_le (by simp only [List.length_append]; omega), List.nil_append]
        simp only [List.length_append, hpt]
        rw [show V.blkBytes - (scache.length + (V.blkBytes - scache.length)) = 0 by omega, List.drop_zero]
      have hPk0 : List.take V.blkBytes (P.drop (V.blkBytes * k)) = scache ++ List.take (V.blkBytes - scache.length) PADDING := by
        rw [hPk, hm]
        have : scache ++ (List.take (V.blkBytes - scache.length) PADDING ++ slice PADDING 1 (V.sizewithout + 1) ++
            X ++ L) =
            (scache ++ List.take (V.blkBytes - scache.length) PADDING) ++ (slice PADDING 1 (V.sizewithout + 1) ++
            X ++ L) := by simp only [List.append_assoc]
        rw [this, List.take_append_of_le_length (by simp only [List.length_append]; omega),
          List.take_of_length_le (by simp only [List.length_append]; omega)]
      rw [hcN k (by omega), hPk0, hPk1, if_neg (by omega), if_pos (by rw [Nat.mul_succ]; omega),
        List.take_of_length_le (l := slice PADDING 1 (V.sizewithout + 1) ++ X ++ L) (by simp only [List.length_append]; omega),
        Nat.min_eq_left (by rw [hb, Nat.mul_succ, Nat.mul_assoc]; omega)]
      have et : ((V.blkBits * k : Nat) : Int) - 8 * ((V.blkBytes - scache.length : Nat) : Int) + V.blkBits = ((8 * D.length : Nat) : Int) := by
        rw [hb, Nat.mul_assoc]; omega
      rw [et]
      exact compH_null _ _ _ _ _ _

end Verif.Blake
