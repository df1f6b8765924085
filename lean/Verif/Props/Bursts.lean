import Verif.Props.Bech32
import Verif.Props.Cashaddr

/-! C97: errors in a row in Bech32 and cashaddr strings. -/

namespace Verif.LinCode

variable {w : Nat} {A : BitVec w → BitVec w} (hA : ∀ x y, A (x ^^^ y) = A x ^^^ A y) (hinj : ∀ x, A x = 0#w → x = 0#w)
include hA hinj

/-- The register before a common end is determined by the register after it. -/
theorem run_start_inj (x y : BitVec w) (q : List (BitVec w)) (h : run A x q = run A y q) : x = y := by
  rw [run_eq hA x, run_eq hA y] at h
  have h2 : A^[q.length] x = A^[q.length] y := by
    have := congrArg (run A 0#w q ^^^ ·) h
    simpa [← BitVec.xor_assoc] using this
  have h3 : A^[q.length] (x ^^^ y) = 0#w := by rw [iter_xor hA, h2, BitVec.xor_self]
  exact BitVec.xor_eq_zero_iff.1 (iter_eq_zero hA hinj _ _ h3)

/-- A row of at most `k` symbols is determined by the registers before and after. -/
theorem burst_unique {k : Nat} (hw : w = 5 * k)
    (hshift : ∀ z : BitVec w, (∀ i, w - 5 ≤ i → z.getLsbD i = false) → A z = z <<< 5) (c : BitVec w) (m m' q : List (BitVec w))
    (hm : ∀ x ∈ m, x.toNat < 32) (hm' : ∀ x ∈ m', x.toNat < 32) (hl : m.length = m'.length) (hk : m.length ≤ k)
    (h : run A c (m ++ q) = run A c (m' ++ q)) : m = m' := by
  rw [run_append, run_append] at h
  have h := run_start_inj hA hinj _ _ q h
  rw [run_eq hA c m, run_eq hA c m', hl] at h
  have h2 : run A 0#w m = run A 0#w m' := by
    have := congrArg (· ^^^ A^[m'.length] c) h
    simpa [BitVec.xor_assoc] using this
  have h1 := (run_value hw hshift m hm hk).1
  have h1' := (run_value hw hshift m' hm' (by omega)).1
  exact base32_inj m m' hm hm' hl (by rw [← h1, ← h1', h2])

end Verif.LinCode

namespace Verif.Props

open Verif Bech32 LinCode

theorem map_ofNat_eq {w : Nat} (hw : 5 ≤ w) {a b : List Nat} (ha : Digits 5 a) (hb : Digits 5 b)
    (h : a.map (BitVec.ofNat w) = b.map (BitVec.ofNat w)) : a = b := by
  have h32 : 2 ^ 5 ≤ 2 ^ w := Nat.pow_le_pow_right (by omega) hw
  have e : ∀ l, Digits 5 l → (l.map (BitVec.ofNat w)).map BitVec.toNat = l := by
    intro l hl
    rw [List.map_map]
    conv_rhs => rw [← List.map_id l]
    apply List.map_congr_left
    intro x hx
    have := hl x hx
    simp only [Function.comp, BitVec.toNat_ofNat, id]
    exact Nat.mod_eq_of_lt (by omega)
  rw [← e a ha, ← e b hb, h]

theorem digits_append {a b : List Nat} : Digits 5 (a ++ b) ↔ Digits 5 a ∧ Digits 5 b := by
  unfold Digits
  constructor
  · intro h; exact ⟨fun x hx => h x (by simp [hx]), fun x hx => h x (by simp [hx])⟩
  · rintro ⟨h1, h2⟩ x hx
    rcases List.mem_append.1 hx with hx | hx
    · exact h1 x hx
    · exact h2 x hx

/-! ### C97 -/

/-- **C97** (Bech32): symbols changed within six in a row, however many there are before and after, never verify. -/
theorem C97_bech32 (hrp : PyStr) (p m m' q : List Nat) (hm : Digits 5 m) (hm' : Digits 5 m') (hl : m.length = m'.length)
    (h6 : m.length ≤ 6) (hne : m ≠ m') (h : verifyChecksum hrp (p ++ m ++ q) = true) :
    verifyChecksum hrp (p ++ m' ++ q) = false := by
  by_contra hn
  rw [Bool.not_eq_false] at hn
  unfold verifyChecksum at h hn
  rw [beq_iff_eq, polymod_eq] at h hn
  rw [List.append_assoc, ← List.append_assoc, List.map_append, run_append] at h hn
  have h := h.trans hn.symm
  simp only [List.map_append] at h
  apply hne
  apply map_ofNat_eq (w := 30) (by omega) hm hm'
  exact burst_unique A_lin A_inj (k := 6) rfl A_shift _ _ _ _ (digits_sym hm) (digits_sym hm') (by simpa using hl) (by simpa using h6)
    h

example : Digits 5 [5, 2] ∧ Digits 5 [7, 3] ∧ verifyChecksum (pystr "bc") ([0] ++ [5, 2] ++ [1, 8, 3, 28]) = true :=
  ⟨by simp [Digits], by simp [Digits], by decide +kernel⟩

/-- Two strings that differ in one place, cut after the same number of characters. -/
theorem cut_burst {α : Type} {h D D' t m m' u : List α} (hl : m.length = m'.length) (e : t ++ m ++ u = h ++ D) (e' : t ++ m' ++ u = h ++ D') :
    ∃ p x x' q, D = p ++ x ++ q ∧ D' = p ++ x' ++ q ∧ x.length = x'.length ∧ x.length ≤ m.length := by
  have c : ∀ m : List α, (t ++ m ++ u).drop h.length = t.drop h.length ++ m.drop (h.length - t.length) ++
      u.drop (h.length - (t.length + m.length)) := by
    intro m; rw [List.drop_append, List.drop_append, List.length_append]
  have d1 : D = (t ++ m ++ u).drop h.length := by rw [e]; simp
  have d2 : D' = (t ++ m' ++ u).drop h.length := by rw [e']; simp
  refine ⟨t.drop h.length, m.drop (h.length - t.length), m'.drop (h.length - t.length), u.drop (h.length - (t.length + m.length)), ?_, ?_, ?_, ?_⟩
  · rw [d1, c]
  · rw [d2, c, hl]
  · simp [hl]
  · simp

/-- **C97** for addresses: replacing six (or fewer) characters in a row of an accepted address, anywhere in it, by others (other than by
a change of case) makes `decode` raise. -/
theorem C97_bech32_address (net : Network) (hrp : PyStr) (hh : net.bech32Hrp = some hrp) (t m m' u : PyStr) (d : Bytes)
    (h : decode net (t ++ m ++ u) = .ok d) (hl : m.length = m'.length) (h6 : m.length ≤ 6) (hne : lowerCased m' ≠ lowerCased m) :
    ∃ e, decode net (t ++ m' ++ u) = .error e := by
  cases hr : decode net (t ++ m' ++ u) with
  | error e => exact ⟨e, rfl⟩
  | ok d' =>
    exfalso
    rw [decode_iff hh] at h hr
    obtain ⟨v, prog, r, _, hb, _⟩ := h
    obtain ⟨v', prog', r', _, hb', _⟩ := hr
    rw [bech32Decode_iff] at hb hb'
    obtain ⟨hw, hn, h90, hdd, he⟩ := hb
    obtain ⟨hw', _, h90', hdd', he'⟩ := hb'
    have hD : ∀ x, Digits 5 x → Digits 5 (x ++ createChecksum hrp x) := fun x hx =>
      digits_append.2 ⟨hx, createChecksum_digits hrp x⟩
    have hcons : ∀ x : PyStr, hrp ++ '1' :: x = (hrp ++ ['1']) ++ x := by simp
    rw [hcons] at he he'
    have hlow : ∀ a b c : PyStr, lower (a ++ b ++ c) = lower a ++ lower b ++ lower c := by intros; simp [lower]
    have hne' : lower m ≠ lower m' := by
      intro hc
      apply hne
      have e1 := lower_eq hw
      have e2 := lower_eq hw'
      rw [hlow] at e1 e2
      simp only [lowerCased, List.map_append] at e1 e2
      have k1 := (List.append_inj (List.append_inj e1 (by simp [lower])).1 (by simp [lower])).2
      have k2 := (List.append_inj (List.append_inj e2 (by simp [lower])).1 (by simp [lower])).2
      unfold lowerCased
      rw [← k1, ← k2, hc]
    rw [hlow] at he he'
    obtain ⟨p, x, x', q, h1, h2, h3, h4⟩ := cut_burst (by simpa [lower] using hl) he he'
    have g : ∀ l : List Nat, Digits 5 l → (l.map symC).map (fun c => CHARSET.idxOf c) = l := fun l hl => symC_map_inv hl
    have f1 := congrArg (List.map fun c => CHARSET.idxOf c) h1
    have f2 := congrArg (List.map fun c => CHARSET.idxOf c) h2
    rw [g _ (hD _ hdd), List.map_append, List.map_append] at f1
    rw [g _ (hD _ hdd'), List.map_append, List.map_append] at f2
    have v1 := verify_create hrp (v :: r)
    have v2 := verify_create hrp (v' :: r')
    have D1 := hD _ hdd
    have D2 := hD _ hdd'
    rw [f1] at v1 D1
    rw [f2] at v2 D2
    have hx := (digits_append.1 (digits_append.1 D1).1).2
    have hx' := (digits_append.1 (digits_append.1 D2).1).2
    have hlm : (lower m).length ≤ 6 := by simpa [lower] using h6
    by_cases hxx : x.map (fun c => CHARSET.idxOf c) = x'.map (fun c => CHARSET.idxOf c)
    · -- the same characters after all
      have a1 : (p.map (fun c => CHARSET.idxOf c) ++ x.map (fun c => CHARSET.idxOf c) ++ q.map fun c => CHARSET.idxOf c).map symC =
          p ++ x ++ q := by
        rw [← f1]; exact h1
      have a2 : (p.map (fun c => CHARSET.idxOf c) ++ x'.map (fun c => CHARSET.idxOf c) ++ q.map fun c => CHARSET.idxOf c).map symC =
          p ++ x' ++ q := by
        rw [← f2]; exact h2
      rw [hxx, a2] at a1
      have hD : (((v :: r) ++ createChecksum hrp (v :: r)).map symC) = (((v' :: r') ++ createChecksum hrp (v' :: r')).map symC) := by
        rw [h1, h2, a1]
      rw [hD, ← he'] at he
      exact hne' (List.append_inj (List.append_inj he (by simp [lower, hl])).1 (by simp [lower])).2
    · have := C97_bech32 hrp _ _ _ _ hx hx' (by simpa using h3) (by simp; omega) hxx v1
      rw [v2] at this
      cases this

example : decode bitcoinMain (pystr "bc1qw508d6" ++ pystr "qejxtd" ++ pystr "g4y5r3zarvary0c5xw7kv8f3t4") =
      .ok (0 :: 20 :: [0x75, 0x1e, 0x76, 0xe8, 0x19, 0x91, 0x96, 0xd4, 0x54, 0x94, 0x1c, 0x45, 0xd1, 0xb3, 0xa3, 0x23, 0xf1, 0x43,
        0x3b, 0xd6]) ∧
    bitcoinMain.bech32Hrp = some (pystr "bc") ∧ lowerCased (pystr "pppppp") ≠ lowerCased (pystr "qejxtd") := by
  refine ⟨by decide +kernel, by decide, by decide⟩

/-- **C97** (cashaddr): symbols changed within eight in a row never verify. -/
theorem C97_cashaddr (pre : PyStr) (p m m' q : List Nat) (hm : Digits 5 m) (hm' : Digits 5 m') (hl : m.length = m'.length)
    (h8 : m.length ≤ 8) (hne : m ≠ m') (h : Cashaddr.verifyChecksum pre ((p ++ m ++ q).map Int.ofNat) = true) :
    Cashaddr.verifyChecksum pre ((p ++ m' ++ q).map Int.ofNat) = false := by
  by_contra hn
  rw [Bool.not_eq_false] at hn
  rw [Cashaddr.verify_nat, beq_iff_eq, Cashaddr.polymod_eq, List.map_append, run_append, Cashaddr.ofInt_ofNat] at h hn
  have h := (BitVec.xor_eq_zero_iff.1 h).trans (BitVec.xor_eq_zero_iff.1 hn).symm
  simp only [List.append_assoc, List.map_append] at h
  rw [run_append (a := p.map _), run_append (a := p.map _)] at h
  apply hne
  apply map_ofNat_eq (w := 40) (by omega) hm hm'
  exact burst_unique Cashaddr.A_lin Cashaddr.A_inj (k := 8) rfl Cashaddr.A_shift _ _ _ _ (Cashaddr.digits_sym hm) (Cashaddr.digits_sym hm')
    (by simpa using hl) (by simpa using h8) h

/-- **C97** for cashaddr strings: replacing eight (or fewer) characters in a row after the colon makes `decode` raise. -/
theorem C97_cashaddr_address (net : Network) (hp : net.cashaddrPrefix.isSome) (a t m m' u : PyStr) (ha : ':' ∉ a) (d : Bytes)
    (h : Cashaddr.decode net (a ++ ':' :: (t ++ m ++ u)) = .ok d) (hl : m.length = m'.length) (h8 : m.length ≤ 8) (hne : m' ≠ m) :
    ∃ e, Cashaddr.decode net (a ++ ':' :: (t ++ m' ++ u)) = .error e := by
  obtain ⟨pre, hp⟩ := Option.isSome_iff_exists.1 hp
  apply decode_error_of_not_ok
  intro d' h'
  obtain ⟨a1, q1, e1, hn1, _, _, hc1, hv1⟩ := Cashaddr.decode_ok hp h
  obtain ⟨a2, q2, e2, hn2, _, _, hc2, hv2⟩ := Cashaddr.decode_ok hp h'
  obtain ⟨rfl, rfl⟩ := split_unique ha hn1 e1
  obtain ⟨rfl, rfl⟩ := split_unique ha hn2 e2
  rw [(Cashaddr.b32decode_digits hc1).1] at hv1
  rw [(Cashaddr.b32decode_digits hc2).1] at hv2
  have hd1 := (Cashaddr.b32decode_digits hc1).2
  have hd2 := (Cashaddr.b32decode_digits hc2).2
  simp only [List.map_append (l₁ := t ++ m), List.map_append (l₁ := t ++ m'), List.map_append (l₁ := t)] at hv1 hv2 hd1 hd2
  have hm : ∀ c ∈ m, c ∈ CHARSET := fun c hc => hc1 c (by simp [hc])
  have hm' : ∀ c ∈ m', c ∈ CHARSET := fun c hc => hc2 c (by simp [hc])
  have := C97_cashaddr _ _ _ _ _ (digits_append.1 (digits_append.1 hd1).1).2 (digits_append.1 (digits_append.1 hd2).1).2 (by simpa using hl)
    (by simpa using h8) (fun hc => hne (by rw [← (idxOf_map_inv hm).1, ← (idxOf_map_inv hm').1, hc]))
    (by simpa only [List.map_append] using hv1)
  simp only [List.map_append] at this hv2
  rw [hv2] at this
  cases this

example : bitcoinCashMain.cashaddrPrefix.isSome ∧ ':' ∉ pystr "bitcoincash" ∧
    Cashaddr.decode bitcoinCashMain (pystr "bitcoincash" ++ ':' :: (pystr "qqrswpc8" ++ pystr "qurswpc8" ++ pystr "qurswpc8qurswpc8qutdt3aw7w")) =
      .ok (0 :: List.replicate 20 7) ∧
    pystr "pppppppp" ≠ pystr "qurswpc8" := by
  refine ⟨by decide, by decide, by decide +kernel, by decide⟩

end Verif.Props
