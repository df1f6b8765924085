import Verif.Lemmas.Bch
import Verif.Lemmas.Convertbits
import Verif.Lemmas.Bytes
import Verif.Model.Bech32
import Verif.Spec.Segwit

namespace Verif.Bech32
open LinCode

/-! ### checksums -/

theorem createChecksum_length (hrp : PyStr) (data : List Nat) : (createChecksum hrp data).length = 6 := by
  simp [createChecksum]

theorem createChecksum_digits (hrp : PyStr) (data : List Nat) : Digits 5 (createChecksum hrp data) := by
  intro d hd
  simp only [createChecksum, List.mem_map] at hd
  obtain ⟨i, _, rfl⟩ := hd
  rw [BitVec.toNat_and]
  exact Nat.lt_of_le_of_lt (Nat.and_le_right) (by decide)

theorem ofNat_toNat30 (b : BitVec 30) : BitVec.ofNat 30 b.toNat = b := by
  rw [BitVec.ofNat_toNat, BitVec.setWidth_eq]

theorem verify_create (hrp : PyStr) (data : List Nat) :
    verifyChecksum hrp (data ++ createChecksum hrp data) = true := by
  unfold verifyChecksum
  rw [beq_iff_eq, ← List.append_assoc, polymod_eq, List.map_append, run_append, run_eq A_lin]
  have hc : (createChecksum hrp data).map (BitVec.ofNat 30) =
      (List.range 6).map fun i => ((polymod (hrpExpand hrp ++ data ++ [0, 0, 0, 0, 0, 0]) ^^^ 1#30) >>> (5 * (6 - 1 - i))) &&&
        BitVec.ofNat 30 31 := by
    unfold createChecksum
    rw [List.map_map]
    apply List.map_congr_left
    intro i _
    simp only [Function.comp_apply]
    rw [ofNat_toNat30]
    rfl
  rw [hc, run_symbols (k := 6) rfl (A_zero A_lin) A_shift]
  have hz : polymod (hrpExpand hrp ++ data ++ [0, 0, 0, 0, 0, 0]) =
      A^[6] (run A 1#30 ((hrpExpand hrp ++ data).map (BitVec.ofNat 30))) := by
    rw [polymod_eq, List.map_append, run_append]
    exact run_zeros A_lin _ 6
  rw [hz, List.length_map, List.length_range]
  generalize A^[6] (run A 1#30 ((hrpExpand hrp ++ data).map (BitVec.ofNat 30))) = T
  rw [BitVec.xor_comm T, BitVec.xor_assoc, BitVec.xor_self, BitVec.xor_zero]
  rfl

theorem map_ofNat_inj {a b : List Nat} (ha : Digits 5 a) (hb : Digits 5 b)
    (h : a.map (BitVec.ofNat 30) = b.map (BitVec.ofNat 30)) : a = b := by
  have key : ∀ l : List Nat, Digits 5 l → (l.map (BitVec.ofNat 30)).map BitVec.toNat = l := by
    intro l hl
    rw [List.map_map]
    conv_rhs => rw [← List.map_id l]
    apply List.map_congr_left
    intro x hx
    have := hl x hx
    simp only [Function.comp_apply, BitVec.toNat_ofNat, id]
    rw [Nat.mod_eq_of_lt (by omega)]
  rw [← key a ha, ← key b hb, h]

theorem digits_sym {l : List Nat} (h : Digits 5 l) : ∀ x ∈ l.map (BitVec.ofNat 30), Sym x := by
  intro x hx
  rw [List.mem_map] at hx
  obtain ⟨d, hd, rfl⟩ := hx
  unfold Sym
  have := h d hd
  rw [BitVec.toNat_ofNat, Nat.mod_eq_of_lt (by omega)]
  exact this

theorem checksum_unique (hrp : PyStr) (data q : List Nat) (hq : Digits 5 q) (hl : q.length = 6)
    (h : verifyChecksum hrp (data ++ q) = true) : q = createChecksum hrp data := by
  have h' := verify_create hrp data
  unfold verifyChecksum at h h'
  rw [beq_iff_eq, ← List.append_assoc, polymod_eq, List.map_append, run_append] at h h'
  apply map_ofNat_inj hq (createChecksum_digits _ _)
  apply suffix_unique A_lin (k := 6) rfl A_shift _ _ _ (digits_sym hq) (digits_sym (createChecksum_digits hrp data)) (by simpa)
    (by simp [createChecksum_length]) (h.trans h'.symm)

theorem weight_zip {a b : List Nat} (ha : Digits 5 a) (hb : Digits 5 b) :
    weight (List.zipWith (· ^^^ ·) (a.map (BitVec.ofNat 30)) (b.map (BitVec.ofNat 30))) = diffs a b := by
  induction a generalizing b with
  | nil => simp [weight, diffs]
  | cons x xs ih =>
    cases b with
    | nil => simp [weight, diffs]
    | cons y ys =>
      have hi := ih (b := ys) (fun d hd => ha d (by simp [hd])) (fun d hd => hb d (by simp [hd]))
      unfold weight at hi ⊢
      simp only [List.map_cons, List.zipWith_cons_cons, List.countP_cons, diffs, hi]
      have hx := ha x (by simp)
      have hy := hb y (by simp)
      have : (BitVec.ofNat 30 x ^^^ BitVec.ofNat 30 y = 0#30) ↔ x = y := by
        rw [BitVec.xor_eq_zero_iff]
        constructor
        · intro h
          have := congrArg BitVec.toNat h
          rw [BitVec.toNat_ofNat, BitVec.toNat_ofNat] at this
          omega
        · rintro rfl; rfl
      by_cases hxy : x = y
      · simp [this, hxy]
      · simp [this, hxy, Nat.add_comm]

theorem run_verify_diff (hrp : PyStr) (a b : List Nat) (hl : a.length = b.length)
    (h : verifyChecksum hrp a = true) (h' : verifyChecksum hrp b = true) :
    run A 0#30 (List.zipWith (· ^^^ ·) (a.map (BitVec.ofNat 30)) (b.map (BitVec.ofNat 30))) = 0#30 := by
  unfold verifyChecksum at h h'
  rw [beq_iff_eq, polymod_eq, List.map_append, run_append] at h h'
  generalize run A 1#30 ((hrpExpand hrp).map (BitVec.ofNat 30)) = c at h h'
  have hd := run_diff A_lin c c (a.map (BitVec.ofNat 30)) (b.map (BitVec.ofNat 30)) (by simpa using hl)
  rw [h, h', BitVec.xor_self, BitVec.xor_self] at hd
  exact hd.symm

theorem zip_sym {a b : List (BitVec 30)} (ha : ∀ x ∈ a, Sym x) (hb : ∀ x ∈ b, Sym x) :
    ∀ x ∈ List.zipWith (· ^^^ ·) a b, Sym x := by
  intro x hx
  rw [List.mem_iff_getElem] at hx
  obtain ⟨i, hi, rfl⟩ := hx
  rw [List.getElem_zipWith]
  rw [List.length_zipWith] at hi
  have h1 := ha (a[i]'(by omega)) (List.getElem_mem _)
  have h2 := hb (b[i]'(by omega)) (List.getElem_mem _)
  unfold Sym at *
  rw [BitVec.toNat_xor]
  exact Nat.xor_lt_two_pow (n := 5) h1 h2

theorem verify_single (hrp : PyStr) (a b : List Nat) (ha : Digits 5 a) (hb : Digits 5 b) (hl : a.length = b.length)
    (hd : diffs a b = 1) (h : verifyChecksum hrp a = true) : verifyChecksum hrp b = false := by
  by_contra hn
  rw [Bool.not_eq_false] at hn
  exact single_error A_lin A_inj _ ((weight_zip ha hb).trans hd) (run_verify_diff hrp a b hl h hn)

theorem verify_few (hrp : PyStr) (a b : List Nat) (ha : Digits 5 a) (hb : Digits 5 b) (hl : a.length = b.length)
    (h88 : a.length ≤ 88) (hd : 0 < diffs a b) (hd4 : diffs a b ≤ 4) (h : verifyChecksum hrp a = true) :
    verifyChecksum hrp b = false := by
  by_contra hn
  rw [Bool.not_eq_false] at hn
  refine polymod_few (zip_sym (digits_sym ha) (digits_sym hb)) (by simp; omega) ?_ ?_ (run_verify_diff hrp a b hl h hn)
  · rw [weight_zip ha hb]; exact hd
  · rw [weight_zip ha hb]; exact hd4

/-! ### characters -/

/-- The character of a digit. -/
def symC (d : Nat) : Char := CHARSET.getD d 'q'

theorem symC_facts : ∀ d < 32, CHARSET[d]? = some (symC d) ∧ CHARSET.contains (symC d) = true ∧ CHARSET.idxOf (symC d) = d ∧
    lowerC (symC d) = symC d ∧ symC d ≠ '1' ∧ 33 ≤ (symC d).toNat ∧ (symC d).toNat ≤ 126 := by decide +kernel

theorem charset_facts : ∀ c ∈ CHARSET, symC (CHARSET.idxOf c) = c ∧ CHARSET.idxOf c < 32 := by decide +kernel

theorem charsetJoin_eq {ds : List Nat} (h : Digits 5 ds) : charsetJoin ds = .ok (ds.map symC) := by
  induction ds with
  | nil => rfl
  | cons d ds ih =>
    have hd := symC_facts d (h d (by simp))
    simp [charsetJoin, getNat, hd.1, ih (fun x hx => h x (by simp [hx]))]

theorem charsetJoin_ok {ds : List Nat} {s : PyStr} (h : charsetJoin ds = .ok s) : Digits 5 ds := by
  induction ds generalizing s with
  | nil => simp [Digits]
  | cons d ds ih =>
    simp only [charsetJoin, bind_ok_iff] at h
    obtain ⟨c, h1, r, h2, _⟩ := h
    intro x hx
    simp only [List.mem_cons] at hx
    rcases hx with rfl | hx
    · unfold getNat at h1
      by_contra hlt
      rw [List.getElem?_eq_none (by
        have : CHARSET.length = 32 := by decide
        omega)] at h1
      cases h1
    · exact ih h2 x hx

theorem symC_map_inv {ds : List Nat} (h : Digits 5 ds) : (ds.map symC).map (fun x => CHARSET.idxOf x) = ds := by
  rw [List.map_map]
  conv_rhs => rw [← List.map_id ds]
  apply List.map_congr_left
  intro d hd
  exact (symC_facts d (h d hd)).2.2.1

theorem idxOf_map_inv {s : PyStr} (h : ∀ c ∈ s, c ∈ CHARSET) :
    (s.map fun x => CHARSET.idxOf x).map symC = s ∧ Digits 5 (s.map fun x => CHARSET.idxOf x) := by
  constructor
  · rw [List.map_map]
    conv_rhs => rw [← List.map_id s]
    apply List.map_congr_left
    intro c hc
    exact (charset_facts c (h c hc)).1
  · intro d hd
    rw [List.mem_map] at hd
    obtain ⟨c, hc, rfl⟩ := hd
    exact (charset_facts c (h c hc)).2

/-! ### rfind -/

theorem rfind_append {c : Char} {a b : PyStr} (h : c ∉ b) : rfind c (a ++ c :: b) = some a.length := by
  unfold rfind
  have : (a ++ c :: b).reverse.findIdx? (· == c) = some b.length := by
    rw [List.reverse_append, List.reverse_cons, List.append_assoc, List.findIdx?_append]
    have hn : b.reverse.findIdx? (· == c) = none := by
      rw [List.findIdx?_eq_none_iff]
      intro x hx
      rw [List.mem_reverse] at hx
      simp only [beq_eq_false_iff_ne]
      rintro rfl; exact h hx
    rw [hn]
    simp [List.findIdx?_cons]
  rw [this]
  simp

theorem rfind_some {c : Char} {s : PyStr} {p : Nat} (h : rfind c s = some p) :
    s = s.take p ++ c :: s.drop (p + 1) ∧ c ∉ s.drop (p + 1) ∧ p < s.length := by
  have hmem : c ∈ s := by
    by_contra hn
    unfold rfind at h
    have : s.reverse.findIdx? (· == c) = none := by
      rw [List.findIdx?_eq_none_iff]
      intro x hx
      rw [List.mem_reverse] at hx
      simp only [beq_eq_false_iff_ne]
      rintro rfl; exact hn hx
    rw [this] at h; cases h
  -- last occurrence
  have : ∃ a b, s = a ++ c :: b ∧ c ∉ b := by
    have : c ∈ s.reverse := by simpa using hmem
    obtain ⟨b, a, he, hb⟩ := List.eq_append_cons_of_mem this
    refine ⟨a.reverse, b.reverse, ?_, by simpa using hb⟩
    have := congrArg List.reverse he
    simpa using this
  obtain ⟨a, b, rfl, hb⟩ := this
  rw [rfind_append hb] at h
  cases h
  refine ⟨by simp, by simpa using hb, by simp⟩

/-! ### decoding -/

/-- Printable and not of mixed case. -/
def WellCased (s : PyStr) : Prop := (∀ c ∈ s, 33 ≤ c.toNat ∧ c.toNat ≤ 126) ∧ (lower s = s ∨ upper s = s)

theorem bad_iff (s : PyStr) : (s.any (fun x => decide (x.toNat < 33) || decide (126 < x.toNat)) ||
    (lower s != s && upper s != s)) = true ↔ ¬ WellCased s := by
  unfold WellCased
  simp only [Bool.or_eq_true, List.any_eq_true, decide_eq_true_eq, Bool.and_eq_true, bne_iff_ne, ne_eq]
  constructor
  · rintro (⟨c, hc, h⟩ | ⟨h1, h2⟩) ⟨h3, h4⟩
    · have := h3 c hc; omega
    · exact h4.elim h1 h2
  · intro h
    by_cases hc : ∀ c ∈ s, 33 ≤ c.toNat ∧ c.toNat ≤ 126
    · right
      exact ⟨fun h1 => h ⟨hc, .inl h1⟩, fun h1 => h ⟨hc, .inr h1⟩⟩
    · left
      push Not at hc
      obtain ⟨c, hc, h2⟩ := hc
      refine ⟨c, hc, ?_⟩
      by_contra hn
      push Not at hn
      have := h2 hn.1; omega

/-- What `bech32_decode` accepts. -/
theorem bech32Decode_iff (s hrp : PyStr) (data : List Nat) : bech32Decode s = some (hrp, data) ↔
    WellCased s ∧ hrp ≠ [] ∧ s.length ≤ 90 ∧ Digits 5 data ∧
      lower s = hrp ++ '1' :: (data ++ createChecksum hrp data).map symC := by
  have hll : (lower s).length = s.length := by simp [lower]
  constructor
  · intro h
    unfold bech32Decode at h
    split at h
    · cases h
    · next hbad =>
      rw [bad_iff, Classical.not_not] at hbad
      simp only [] at h
      split at h
      · cases h
      · next pos hpos =>
        obtain ⟨hs, hn, hlt⟩ := rfind_some hpos
        by_cases hc : pos < 1 ∨ (lower s).length < pos + 7 ∨ 90 < (lower s).length
        · rw [if_pos hc] at h; cases h
        · rw [if_neg hc] at h
          by_cases hall : ((lower s).drop (pos + 1)).all (fun x => CHARSET.contains x) = true
          · rw [if_neg (by simpa using hall)] at h
            by_cases hv : verifyChecksum ((lower s).take pos) (((lower s).drop (pos + 1)).map fun x => CHARSET.idxOf x) = true
            · rw [if_neg (by simpa using hv)] at h
              simp only [Option.some.injEq, Prod.mk.injEq] at h
              obtain ⟨rfl, rfl⟩ := h
              rw [List.all_eq_true] at hall
              obtain ⟨hi1, hi2⟩ := idxOf_map_inv (s := (lower s).drop (pos + 1)) (fun c hc => by simpa using hall c hc)
              generalize hvals : ((lower s).drop (pos + 1)).map (fun x => CHARSET.idxOf x) = vals at *
              have hlen : vals.length = (lower s).length - (pos + 1) := by rw [← hvals]; simp
              have hsplit : dropLastN vals 6 ++ vals.drop (vals.length - 6) = vals := by
                unfold dropLastN; exact List.take_append_drop _ _
              have hq : vals.drop (vals.length - 6) = createChecksum ((lower s).take pos) (dropLastN vals 6) := by
                apply checksum_unique
                · intro d hd; exact hi2 d (List.mem_of_mem_drop hd)
                · rw [List.length_drop]; omega
                · rw [hsplit]; exact hv
              refine ⟨hbad, ?_, by omega, ?_, ?_⟩
              · intro h0
                have := congrArg List.length h0
                rw [List.length_take] at this
                simp only [List.length_nil] at this; omega
              · intro d hd; exact hi2 d (List.mem_of_mem_take hd)
              · rw [← hq, hsplit, hi1]; exact hs
            · rw [if_pos (by simpa using hv)] at h; cases h
          · rw [if_pos (by simpa using hall)] at h; cases h
  · rintro ⟨hw, hne, h90, hd, hs⟩
    unfold bech32Decode
    rw [if_neg (by rw [bad_iff, Classical.not_not]; exact hw)]
    simp only []
    have hd' : Digits 5 (data ++ createChecksum hrp data) := by
      intro x hx; rw [List.mem_append] at hx; exact hx.elim (hd x) (createChecksum_digits hrp data x)
    have hn : '1' ∉ (data ++ createChecksum hrp data).map symC := by
      intro hm
      rw [List.mem_map] at hm
      obtain ⟨d, hm, he⟩ := hm
      exact (symC_facts d (hd' d hm)).2.2.2.2.1 he
    rw [hs, rfind_append hn]
    simp only []
    have hpos : 0 < hrp.length := List.length_pos_iff.2 hne
    have hlen := congrArg List.length hs
    simp only [List.length_append, List.length_cons, List.length_map, createChecksum_length] at hlen
    have hdrop : (hrp ++ '1' :: (data ++ createChecksum hrp data).map symC).drop (hrp.length + 1) =
        (data ++ createChecksum hrp data).map symC := by
      rw [← List.drop_drop, List.drop_left]; rfl
    rw [hdrop, if_neg, if_neg, List.take_left, symC_map_inv hd', if_neg]
    · simp only [dropLastN]
      rw [List.take_left' (by simp [createChecksum_length])]
    · rw [Classical.not_not]; exact verify_create hrp data
    · rw [Classical.not_not, List.all_eq_true]
      intro c hc
      rw [List.mem_map] at hc
      obtain ⟨d, hm, rfl⟩ := hc
      exact (symC_facts d (hd' d hm)).2.1
    · simp only [List.length_append, List.length_cons, List.length_map, createChecksum_length]
      omega

theorem char_case : ∀ n < 127, 33 ≤ n → let c := Char.ofNat n
    c.toNat = n ∧ lowerC (upperC c) = lowerC c ∧ upperC (upperC c) = upperC c ∧ lowerC (lowerC c) = lowerC c ∧
    33 ≤ (upperC c).toNat ∧ (upperC c).toNat ≤ 126 ∧ 33 ≤ (lowerC c).toNat ∧ (lowerC c).toNat ≤ 126 := by
  decide +kernel

theorem char_case' (c : Char) (h1 : 33 ≤ c.toNat) (h2 : c.toNat ≤ 126) :
    lowerC (upperC c) = lowerC c ∧ upperC (upperC c) = upperC c ∧ lowerC (lowerC c) = lowerC c ∧
    33 ≤ (upperC c).toNat ∧ (upperC c).toNat ≤ 126 ∧ 33 ≤ (lowerC c).toNat ∧ (lowerC c).toNat ≤ 126 := by
  have := char_case c.toNat (by omega) h1
  simp only [Char.ofNat_toNat] at this
  exact this.2

theorem wellCased_upper {s : PyStr} (h : WellCased s) : WellCased (upper s) ∧ lower (upper s) = lower s := by
  refine ⟨⟨?_, .inr ?_⟩, ?_⟩
  · intro c hc
    simp only [upper, List.mem_map] at hc
    obtain ⟨d, hd, rfl⟩ := hc
    have := char_case' d (h.1 d hd).1 (h.1 d hd).2
    exact ⟨this.2.2.2.1, this.2.2.2.2.1⟩
  · unfold upper; rw [List.map_map]; apply List.map_congr_left
    intro d hd; exact (char_case' d (h.1 d hd).1 (h.1 d hd).2).2.1
  · unfold upper lower; rw [List.map_map]; apply List.map_congr_left
    intro d hd; exact (char_case' d (h.1 d hd).1 (h.1 d hd).2).1

theorem wellCased_lower {s : PyStr} (h : WellCased s) : WellCased (lower s) ∧ lower (lower s) = lower s := by
  have h2 : lower (lower s) = lower s := by
    unfold lower; rw [List.map_map]; apply List.map_congr_left
    intro d hd; exact (char_case' d (h.1 d hd).1 (h.1 d hd).2).2.2.1
  refine ⟨⟨?_, .inl h2⟩, h2⟩
  intro c hc
  simp only [lower, List.mem_map] at hc
  obtain ⟨d, hd, rfl⟩ := hc
  have := char_case' d (h.1 d hd).1 (h.1 d hd).2
  exact ⟨this.2.2.2.2.2.1, this.2.2.2.2.2.2⟩

/-! ### segwit addresses -/

theorem segwitDecode_iff (hrp s : PyStr) (v : Nat) (prog : List Nat) : segwitDecode hrp s = some (v, prog) ↔
    ∃ d, bech32Decode s = some (hrp, v :: d) ∧ convertbits d 5 8 false = some prog ∧ LegalProgram v prog.length := by
  unfold segwitDecode LegalProgram
  constructor
  · intro h
    split at h
    · cases h
    · next hrpgot data hb =>
      by_cases hh : hrpgot ≠ hrp
      · rw [if_pos hh] at h; cases h
      · rw [if_neg hh] at h
        rw [ne_eq, Classical.not_not] at hh
        subst hh
        cases data with
        | nil =>
          simp only [List.drop_nil] at h
          split at h
          · cases h
          · split at h <;> cases h
        | cons x xs =>
          simp only [List.drop_succ_cons, List.drop_zero] at h
          split at h
          · cases h
          · next dec hc =>
            by_cases h1 : dec.length < 2 ∨ 40 < dec.length
            · rw [if_pos h1] at h; cases h
            · rw [if_neg h1] at h
              by_cases h2 : 16 < x
              · rw [if_pos h2] at h; cases h
              · rw [if_neg h2] at h
                by_cases h3 : x = 0 ∧ dec.length ≠ 20 ∧ dec.length ≠ 32
                · rw [if_pos h3] at h; cases h
                · rw [if_neg h3] at h
                  simp only [Option.some.injEq, Prod.mk.injEq] at h
                  obtain ⟨rfl, rfl⟩ := h
                  exact ⟨xs, hb, hc, by omega, by omega, by omega, by omega⟩
  · rintro ⟨d, hb, hc, h1, h2, h3, h4⟩
    rw [hb]
    simp only [ne_eq, not_true_eq_false, if_false, List.drop_succ_cons, List.drop_zero]
    rw [hc]
    simp only []
    rw [if_neg (by omega), if_neg (by omega), if_neg (by omega)]

theorem char_lower : ∀ n < 127, lowerC (Char.ofNat n) = (Char.ofNat n).toLower ∧
    upperC (Char.ofNat n) = (Char.ofNat n).toUpper := by decide +kernel

theorem lower_eq {s : PyStr} (h : WellCased s) : lower s = lowerCased s := by
  unfold lower lowerCased
  apply List.map_congr_left
  intro c hc
  have := (char_lower c.toNat (by have := (h.1 c hc).2; omega)).1
  rwa [Char.ofNat_toNat] at this

theorem upper_eq {s : PyStr} (h : WellCased s) : upper s = upperCased s := by
  unfold upper upperCased
  apply List.map_congr_left
  intro c hc
  have := (char_lower c.toNat (by have := (h.1 c hc).2; omega)).2
  rwa [Char.ofNat_toNat] at this

theorem diffs_comm {α : Type} [DecidableEq α] (a b : List α) : diffs a b = diffs b a := by
  induction a generalizing b with
  | nil => cases b <;> rfl
  | cons x xs ih => cases b with
    | nil => rfl
    | cons y ys => simp only [diffs, ih ys]; by_cases h : x = y <;> simp [h, Ne.symm, eq_comm]

theorem diffs_map_le {α β : Type} [DecidableEq α] [DecidableEq β] (f : α → β) (a b : List α) :
    diffs (a.map f) (b.map f) ≤ diffs a b := by
  induction a generalizing b with
  | nil => cases b <;> simp [diffs]
  | cons x xs ih => cases b with
    | nil => simp [diffs]
    | cons y ys =>
      simp only [List.map_cons, diffs]
      have := ih ys
      by_cases h : x = y
      · simp [h, this]
      · simp only [h, if_false]; split <;> omega

theorem diffs_append {α : Type} [DecidableEq α] (p a b : List α) : diffs (p ++ a) (p ++ b) = diffs a b := by
  induction p with
  | nil => rfl
  | cons x xs ih => simp [diffs, ih]

theorem diffs_eq_zero {α : Type} [DecidableEq α] {a b : List α} (hl : a.length = b.length) (h : diffs a b = 0) : a = b := by
  induction a generalizing b with
  | nil => cases b with
    | nil => rfl
    | cons => simp at hl
  | cons x xs ih => cases b with
    | nil => simp at hl
    | cons y ys =>
      simp only [diffs] at h
      have h1 : x = y := by by_contra hn; simp [hn] at h
      rw [h1, ih (by simpa using hl) (by omega)]

theorem encode_hrp {net : Network} (hs : net.Supported) {hrp : PyStr} (h : net.bech32Hrp = some hrp) :
    hrp ≠ [] ∧ hrp.length ≤ 18 ∧ (∀ c ∈ hrp, 33 ≤ c.toNat ∧ c.toNat ≤ 126) ∧ lower hrp = hrp := by
  have key : ∀ net : Network, net.Supported → ∀ hrp ∈ net.bech32Hrp, hrp ≠ [] ∧ hrp.length ≤ 18 ∧
      (∀ c ∈ hrp, 33 ≤ c.toNat ∧ c.toNat ≤ 126) ∧ lower hrp = hrp := by
    unfold Network.Supported; decide +kernel
  exact key net hs hrp h

/-- The string of the encoder. -/
def addrStr (hrp : PyStr) (d : List Nat) : PyStr := hrp ++ '1' :: (d ++ createChecksum hrp d).map symC

theorem bech32Encode_eq (hrp : PyStr) {d : List Nat} (h : Digits 5 d) : bech32Encode hrp d = .ok (addrStr hrp d) := by
  unfold bech32Encode
  rw [charsetJoin_eq]
  · simp [addrStr]
  · intro x hx; rw [List.mem_append] at hx; exact hx.elim (h x) (createChecksum_digits hrp d x)

theorem addrStr_lower {hrp : PyStr} {d : List Nat} (h1 : lower hrp = hrp) (hd : Digits 5 d) :
    lower (addrStr hrp d) = addrStr hrp d := by
  unfold addrStr lower
  rw [List.map_append, List.map_cons, List.map_map]
  have : hrp.map lowerC = hrp := h1
  rw [this]
  congr 2
  apply List.map_congr_left
  intro x hx
  have : x < 2 ^ 5 := by rw [List.mem_append] at hx; exact hx.elim (hd x) (createChecksum_digits hrp d x)
  exact (symC_facts x this).2.2.2.1

theorem addrStr_wellCased {hrp : PyStr} {d : List Nat} (h1 : lower hrp = hrp) (h2 : ∀ c ∈ hrp, 33 ≤ c.toNat ∧ c.toNat ≤ 126)
    (hd : Digits 5 d) : WellCased (addrStr hrp d) := by
  refine ⟨?_, .inl (addrStr_lower h1 hd)⟩
  intro c hc
  unfold addrStr at hc
  rw [List.mem_append, List.mem_cons, List.mem_map] at hc
  rcases hc with hc | rfl | ⟨x, hx, rfl⟩
  · exact h2 c hc
  · decide
  · have : x < 2 ^ 5 := by rw [List.mem_append] at hx; exact hx.elim (hd x) (createChecksum_digits hrp d x)
    exact (symC_facts x this).2.2.2.2.2

theorem bech32_roundtrip {hrp : PyStr} {d : List Nat} (h0 : hrp ≠ []) (h1 : lower hrp = hrp)
    (h2 : ∀ c ∈ hrp, 33 ≤ c.toNat ∧ c.toNat ≤ 126) (hd : Digits 5 d) (hl : hrp.length + d.length + 7 ≤ 90) :
    bech32Decode (addrStr hrp d) = some (hrp, d) := by
  rw [bech32Decode_iff]
  refine ⟨addrStr_wellCased h1 h2 hd, h0, ?_, hd, addrStr_lower h1 hd⟩
  unfold addrStr
  simp only [List.length_append, List.length_cons, List.length_map, createChecksum_length]; omega

/-! ### the public functions -/

theorem bytes_digits (b : Bytes) : Digits 8 (b.map UInt8.toNat) := by
  intro x hx
  rw [List.mem_map] at hx
  obtain ⟨y, _, rfl⟩ := hx
  have := y.toNat_lt; omega

theorem ofNat_map_toNat (b : Bytes) : (b.map UInt8.toNat).map UInt8.ofNat = b := by
  rw [List.map_map]
  conv_rhs => rw [← List.map_id b]
  apply List.map_congr_left
  intro x _
  simp

theorem toNat_map_ofNat {l : List Nat} (h : Digits 8 l) : (l.map UInt8.ofNat).map UInt8.toNat = l := by
  rw [List.map_map]
  conv_rhs => rw [← List.map_id l]
  apply List.map_congr_left
  intro x hx
  have := h x hx
  simp only [Function.comp_apply, UInt8.toNat_ofNat', id]
  omega

theorem regroup_length {d r : List Nat} (h : Regroups 8 5 d r) : r.length = (8 * d.length + 4) / 5 := by
  obtain ⟨_, _, k, hk, h3⟩ := h
  have := congrArg List.length h3
  simp only [bitsOf_length, List.length_append, List.length_replicate] at this
  omega

/-- Regrouping bytes and back. -/
theorem regroup_back {d r : List Nat} (h : Regroups 8 5 d r) : convertbits r 5 8 false = some d := by
  rw [convertbits_strict_iff (by omega)]
  obtain ⟨h1, h2, k, hk, h3⟩ := h
  exact ⟨h2, h1, k, by omega, hk, h3⟩

theorem regroup_fwd {v d : List Nat} (h : convertbits v 5 8 false = some d) : Regroups 8 5 d v := by
  rw [convertbits_strict_iff (by omega)] at h
  obtain ⟨h1, h2, k, _, hk, h3⟩ := h
  exact ⟨h2, h1, k, hk, h3⟩

/-- Exactly the legal data are encoded. -/
theorem encode_iff {net : Network} (hs : net.Supported) {hrp : PyStr} (hh : net.bech32Hrp = some hrp) (data : Bytes) (s : PyStr) :
    encode net data = .ok (some s) ↔ ∃ v rest r, data = v :: rest ∧ Regroups 8 5 ((rest.drop 1).map UInt8.toNat) r ∧
      LegalProgram v.toNat (rest.drop 1).length ∧ s = addrStr hrp (v.toNat :: r) := by
  obtain ⟨h0, h18, h2, h1⟩ := encode_hrp hs hh
  unfold encode
  rw [hh]
  cases data with
  | nil => simp [getNat]
  | cons v rest =>
    obtain ⟨r, hr, hreg⟩ := convertbits_pad (f := 8) (t := 5) (by omega) ((rest.drop 1).map UInt8.toNat) (bytes_digits _)
    have hdrop : (v :: rest).drop 2 = rest.drop 1 := by cases rest <;> rfl
    simp only [getNat, List.length_cons, List.getElem?_cons_zero, ok_bind, hdrop]
    unfold segwitEncode
    rw [hr]
    simp only [List.singleton_append, bind_ok_iff]
    have hlen := regroup_length hreg
    rw [List.length_map] at hlen
    constructor
    · rintro ⟨ret, hret, h⟩
      have hd : Digits 5 (v.toNat :: r) := by
        unfold bech32Encode at hret
        simp only [bind_ok_iff] at hret
        obtain ⟨j, hj, _⟩ := hret
        intro x hx
        exact charsetJoin_ok hj x (by rw [List.mem_append]; exact .inl hx)
      rw [bech32Encode_eq _ hd] at hret
      cases hret
      split at h
      · simp at h
      · next p hp =>
        simp only [Except.ok.injEq, Option.some.injEq] at h
        subst h
        obtain ⟨v', prog⟩ := p
        rw [segwitDecode_iff] at hp
        obtain ⟨d', hb, hc, hleg⟩ := hp
        rw [bech32Decode_iff] at hb
        obtain ⟨_, _, hl90, hd', hb⟩ := hb
        rw [addrStr_lower h1 hd] at hb
        have hb' : (v.toNat :: r ++ createChecksum hrp (v.toNat :: r)).map symC =
            ((v' :: d') ++ createChecksum hrp (v' :: d')).map symC := by
          have := List.append_cancel_left hb
          simpa using this
        have hb2 := congrArg (List.map fun x => CHARSET.idxOf x) hb'
        rw [symC_map_inv, symC_map_inv] at hb2
        · have hb3 := List.append_inj' hb2 (by simp [createChecksum_length])
          have e := hb3.1
          simp only [List.cons.injEq] at e
          obtain ⟨rfl, rfl⟩ := e
          rw [regroup_back hreg] at hc
          cases hc
          rw [List.length_map] at hleg
          exact ⟨v, rest, r, rfl, hreg, hleg, rfl⟩
        · intro x hx; rw [List.mem_append] at hx; exact hx.elim (hd' x) (createChecksum_digits _ _ x)
        · intro x hx; rw [List.mem_append] at hx; exact hx.elim (hd x) (createChecksum_digits _ _ x)
    · rintro ⟨v', rest', r', he, hreg', hleg, rfl⟩
      simp only [List.cons.injEq] at he
      obtain ⟨rfl, rfl⟩ := he
      have : r' = r := Regroups.unique (by omega) hreg' hreg
      subst this
      have hd : Digits 5 (v.toNat :: r') := by
        intro x hx
        simp only [List.mem_cons] at hx
        rcases hx with rfl | hx
        · have := hleg.1; omega
        · exact hreg.2.1 x hx
      refine ⟨_, bech32Encode_eq _ hd, ?_⟩
      have : segwitDecode hrp (addrStr hrp (v.toNat :: r')) = some (v.toNat, (rest.drop 1).map UInt8.toNat) := by
        rw [segwitDecode_iff]
        refine ⟨r', ?_, regroup_back hreg, by simpa using hleg⟩
        apply bech32_roundtrip h0 h1 h2 hd
        have := hleg.2.2.1
        simp only [List.length_cons]; omega
      rw [this]

/-- What `decode` accepts. -/
theorem decode_iff {net : Network} {hrp : PyStr} (hh : net.bech32Hrp = some hrp) (s : PyStr) (d : Bytes) :
    decode net s = .ok d ↔ ∃ v prog r, d = UInt8.ofNat v :: UInt8.ofNat prog.length :: prog.map UInt8.ofNat ∧
      bech32Decode s = some (hrp, v :: r) ∧ Regroups 8 5 prog r ∧ LegalProgram v prog.length := by
  unfold decode
  rw [hh]
  simp only []
  constructor
  · intro h
    split at h
    · cases h
    · next v prog hp =>
      cases h
      rw [segwitDecode_iff] at hp
      obtain ⟨r, hb, hc, hleg⟩ := hp
      exact ⟨v, prog, r, rfl, hb, regroup_fwd hc, hleg⟩
  · rintro ⟨v, prog, r, rfl, hb, hreg, hleg⟩
    have : segwitDecode hrp s = some (v, prog) := by
      rw [segwitDecode_iff]; exact ⟨r, hb, regroup_back hreg, hleg⟩
    rw [this]

end Verif.Bech32
