import Verif.Lemmas.BchPoly
import Verif.Props.Bech32
import Verif.Props.Cashaddr2

/-! Property C110: the checksums are the BCH codes of the specifications; which strings are Bech32 and cashaddr addresses. -/

namespace Verif.Props
open Verif Spec Polynomial

theorem hrp_digits (hrp : PyStr) (hc : ∀ c ∈ hrp, c.toNat < 1024) : Digits 5 (bech32Hrp hrp) ∧ Bech32.hrpExpand hrp = bech32Hrp hrp := by
  constructor
  · intro x hx
    simp only [bech32Hrp, List.mem_append, List.mem_map, List.mem_cons] at hx
    rcases hx with ⟨c, h, rfl⟩ | rfl | ⟨c, h, rfl⟩
    · have := hc c h; omega
    · decide
    · omega
  · unfold Bech32.hrpExpand bech32Hrp
    rw [List.append_assoc]
    congr 1
    · exact List.map_congr_left fun c _ => Nat.shiftRight_eq_div_pow _ 5
    · rw [List.singleton_append]; congr 1
      exact List.map_congr_left fun c _ => Nat.and_two_pow_sub_one_eq_mod _ 5

/-- C110: `bech32_verify_checksum` accepts exactly the code words of BIP 173: the polynomial of the symbols, with a 1 in front, has remainder 1 modulo the
generator, over the field with 32 elements. For every human-readable part of ASCII characters (or up to code 1023) and five-bit symbols. -/
theorem C110_bech32 (hrp : PyStr) (hc : ∀ c ∈ hrp, c.toNat < 1024) (data : List Nat) (hd : Digits 5 data) :
    Bech32.verifyChecksum hrp data = true ↔ IsBech32Code hrp data := by
  obtain ⟨h1, h2⟩ := hrp_digits hrp hc
  unfold Bech32.verifyChecksum IsBech32Code
  rw [beq_iff_eq, h2, List.cons_append, ← bech32_poly]
  · rfl
  · intro x hx
    rcases List.mem_append.1 hx with h | h
    · exact h1 x h
    · exact hd x h

example : IsBech32Code (pystr "bc") [0, 5, 2, 1, 8, 3, 28] ∧ ¬ IsBech32Code (pystr "bc") [0, 5, 2, 1, 8, 3, 29] ∧ ¬ IsBech32Code (pystr "tb") [0, 5, 2, 1, 8, 3, 28] :=
  ⟨(C110_bech32 _ (by decide +kernel) _ (by unfold Digits; decide)).1 (by decide +kernel),
    fun h => absurd ((C110_bech32 _ (by decide +kernel) _ (by unfold Digits; decide)).2 h) (by decide +kernel),
    fun h => absurd ((C110_bech32 _ (by decide +kernel) _ (by unfold Digits; decide)).2 h) (by decide +kernel)⟩

/-- C110: `bech32_create_checksum` returns the one checksum that makes a code word. -/
theorem C110_bech32_create (hrp : PyStr) (hc : ∀ c ∈ hrp, c.toNat < 1024) (data q : List Nat) (hd : Digits 5 data) (hq : Digits 5 q)
    (hl : q.length = 6) : IsBech32Code hrp (data ++ q) ↔ q = Bech32.createChecksum hrp data := by
  rw [← C19_unique hrp data q hq hl, C110_bech32 hrp hc]
  intro x hx
  rcases List.mem_append.1 hx with h | h
  · exact hd x h
  · exact hq x h

theorem cashHrp_digits (pre : PyStr) : Digits 5 (cashHrp pre) ∧ Cashaddr.prefixExpand pre = (cashHrp pre).map Int.ofNat := by
  constructor
  · intro x hx
    simp only [cashHrp, List.mem_append, List.mem_map, List.mem_singleton] at hx
    rcases hx with ⟨c, h, rfl⟩ | rfl
    · omega
    · decide
  · unfold Cashaddr.prefixExpand cashHrp
    rw [List.map_append, List.map_map]
    congr 1
    exact List.map_congr_left fun c _ => by
      simp only [Function.comp]
      exact congrArg Int.ofNat (Nat.and_two_pow_sub_one_eq_mod _ 5)

/-- C110: the checksum test of cashaddr accepts exactly the code words of the cashaddr specification. -/
theorem C110_cash (pre : PyStr) (payload : List Nat) (hd : Digits 5 payload) :
    Cashaddr.verifyChecksum pre (payload.map Int.ofNat) = true ↔ IsCashCode pre payload := by
  obtain ⟨h1, h2⟩ := cashHrp_digits pre
  unfold Cashaddr.verifyChecksum IsCashCode
  rw [Bool.and_eq_true, and_iff_left (by rw [List.getLast?_map]; cases payload.getLast? <;> simp), beq_iff_eq, h2, ← List.map_append, List.cons_append, ← cash_poly]
  · rfl
  · intro x hx
    rcases List.mem_append.1 hx with h | h
    · exact h1 x h
    · exact hd x h

example : IsCashCode (pystr "bitcoincash") [0, 5, 9, 15, 24, 9, 21, 6, 7, 11] ∧ ¬ IsCashCode (pystr "bitcoincash") [0, 5, 9, 15, 24, 9, 21, 6, 7, 12] :=
  ⟨(C110_cash _ _ (by unfold Digits; decide)).1 (by decide +kernel), fun h => absurd ((C110_cash _ _ (by unfold Digits; decide)).2 h) (by decide +kernel)⟩

theorem symC_bechChar {ds : List Nat} (h : Digits 5 ds) : ds.map Bech32.symC = ds.map bechChar := by
  have key : ∀ d < 32, Bech32.symC d = bechChar d := by decide +kernel
  exact List.map_congr_left fun d hd => key d (h d hd)

theorem lower_ascii (s : PyStr) (h : ∀ c ∈ lowerCased s, 33 ≤ c.toNat ∧ c.toNat ≤ 126) : ∀ c ∈ s, 33 ≤ c.toNat ∧ c.toNat ≤ 126 := by
  intro c hc
  have h1 := h c.toLower (List.mem_map_of_mem hc)
  unfold Char.toLower at h1
  split at h1
  · next hr =>
    have e1 : (65 : Nat) ≤ c.toNat := hr.1
    have e2 : c.toNat ≤ 90 := hr.2
    omega
  · exact h1

/-- C110: `decode` accepts exactly the addresses that BIP 173 allows with the network's human-readable part, and returns the version, the length and the
program. -/
theorem C110_decode (net : Network) (hs : net.Supported) (hrp : PyStr) (hh : net.bech32Hrp = some hrp) (s : PyStr) (d : Bytes) :
    Bech32.decode net s = .ok d ↔ ∃ v prog, IsSegwitAddress hrp v prog s ∧ d = UInt8.ofNat v :: UInt8.ofNat prog.length :: prog := by
  obtain ⟨hne, -, hasc, hlow⟩ := Bech32.encode_hrp hs hh
  have hc : ∀ c ∈ hrp, c.toNat < 1024 := fun c h => by have := hasc c h; omega
  rw [Bech32.decode_iff hh]
  constructor
  · rintro ⟨v, prog, r, rfl, hb, hr, hl⟩
    rw [Bech32.bech32Decode_iff] at hb
    obtain ⟨hw, -, h90, hD, hlo⟩ := hb
    have hDc := Bech32.createChecksum_digits hrp (v :: r)
    have hp : (prog.map UInt8.ofNat).map UInt8.toNat = prog := Bech32.toNat_map_ofNat hr.1
    refine ⟨v, prog.map UInt8.ofNat, ⟨?_, h90, by simpa using hl, r, Bech32.createChecksum hrp (v :: r), by rw [hp]; exact hr, hDc,
      Bech32.createChecksum_length _ _, (C110_bech32_create hrp hc _ _ hD hDc (Bech32.createChecksum_length _ _)).2 rfl, ?_⟩, by simp⟩
    · rw [← Bech32.lower_eq hw, ← Bech32.upper_eq hw]; exact hw.2
    · rw [← Bech32.lower_eq hw, hlo, symC_bechChar]
      intro x hx
      rcases List.mem_append.1 hx with h | h
      · exact hD x h
      · exact hDc x h
  · rintro ⟨v, prog, ⟨hcase, h90, hl, r, c, hr, hDc, h6, hcode, hlo⟩, rfl⟩
    have hD : Digits 5 (v :: r) := by
      intro x hx
      rcases List.mem_cons.1 hx with rfl | h
      · have := hl.1; omega
      · exact hr.2.1 x h
    have hDa : Digits 5 (v :: r ++ c) := by
      intro x hx
      rcases List.mem_append.1 hx with h | h
      · exact hD x h
      · exact hDc x h
    have hq := (C110_bech32_create hrp hc _ _ hD hDc h6).1 hcode
    have hasc' : ∀ x ∈ s, 33 ≤ x.toNat ∧ x.toNat ≤ 126 := by
      apply lower_ascii
      rw [hlo, ← symC_bechChar hDa]
      intro x hx
      rcases List.mem_append.1 hx with h | h
      · exact hasc x h
      rcases List.mem_cons.1 h with rfl | h
      · decide
      · obtain ⟨y, hy, rfl⟩ := List.mem_map.1 h
        exact ⟨(Bech32.symC_facts y (hDa y hy)).2.2.2.2.2.1, (Bech32.symC_facts y (hDa y hy)).2.2.2.2.2.2⟩
    have hw : Bech32.WellCased s := by
      refine ⟨hasc', ?_⟩
      have e1 : Bech32.lower s = lowerCased s := by
        refine List.map_congr_left fun x hx => ?_
        have := Bech32.char_lower x.toNat (by have := hasc' x hx; omega)
        rw [Char.ofNat_toNat] at this; exact this.1
      have e2 : Bech32.upper s = upperCased s := by
        refine List.map_congr_left fun x hx => ?_
        have := Bech32.char_lower x.toNat (by have := hasc' x hx; omega)
        rw [Char.ofNat_toNat] at this; exact this.2
      rw [e1, e2]; exact hcase
    refine ⟨v, prog.map UInt8.toNat, r, by rw [Bech32.ofNat_map_toNat, List.length_map], ?_, hr, by simpa using hl⟩
    rw [Bech32.bech32Decode_iff]
    refine ⟨hw, hne, h90, hD, ?_⟩
    rw [Bech32.lower_eq hw, hlo, ← symC_bechChar hDa, hq]

example : ∃ prog, IsSegwitAddress (pystr "bc") 0 prog (pystr "bc1qqurswpc8qurswpc8qurswpc8qurswpc89fe3yv") ∧ prog = List.replicate 20 7 := by
  have h : Bech32.decode bitcoinMain (pystr "bc1qqurswpc8qurswpc8qurswpc8qurswpc89fe3yv") = .ok (0 :: 20 :: List.replicate 20 7) := by decide +kernel
  obtain ⟨v, prog, h1, h2⟩ := (C110_decode bitcoinMain (by unfold Network.Supported; decide +kernel) _ rfl _ _).1 h
  simp only [List.cons.injEq] at h2
  have hv : v = 0 := by
    have := congrArg UInt8.toNat h2.1
    have h16 := h1.2.2.1.1
    simp at this; omega
  exact ⟨prog, hv ▸ h1, h2.2.2.symm⟩

/-- C110: the strings that cashaddr's `decode` reads as the payload `d`: the text before the colon starts with the network's prefix, the symbols are a code word for
that text, and without the last eight they carry the bits of `d` and one to eight more bits. -/
theorem C110_cash_decode (net : Network) (pre : PyStr) (hp : net.cashaddrPrefix = some pre) (hs : net.Supported) (s : PyStr) (d : Bytes)
    (hd : d ≠ []) :
    Cashaddr.decode net s = .ok d ↔ ∃ more r c pad, ':' ∉ more ∧ Digits 5 r ∧ bitsOf 5 r = bitsOf 8 (d.map UInt8.toNat) ++ pad ∧
      1 ≤ pad.length ∧ pad.length ≤ 8 ∧ Digits 5 c ∧ c.length = 8 ∧ IsCashCode (pre ++ more) (r ++ c) ∧
      s = pre ++ more ++ ':' :: (r ++ c).map bechChar := by
  rw [C74_exact net pre hp hs s d hd]
  have key : ∀ {r c : List Nat}, Digits 5 r → Digits 5 c → Digits 5 (r ++ c) := by
    intro r c h h' x hx
    rcases List.mem_append.1 hx with e | e
    · exact h x e
    · exact h' x e
  constructor
  · rintro ⟨more, r, c, pad, h1, h2, h3, h4, h5, h6, h7, h8, h9⟩
    exact ⟨more, r, c, pad, h1, h2, h3, h4, h5, h6, h7, (C110_cash _ _ (key h2 h6)).1 h8, by rw [← symC_bechChar (key h2 h6)]; exact h9⟩
  · rintro ⟨more, r, c, pad, h1, h2, h3, h4, h5, h6, h7, h8, h9⟩
    exact ⟨more, r, c, pad, h1, h2, h3, h4, h5, h6, h7, (C110_cash _ _ (key h2 h6)).2 h8, by rw [symC_bechChar (key h2 h6)]; exact h9⟩

end Verif.Props
