import Verif.Lemmas.Bech32

/-! Properties C19–C23: bech32 checksums, segwit addresses, bit regrouping. -/

namespace Verif.Props
open Verif Bech32

instance (v n : Nat) : Decidable (LegalProgram v n) := by unfold LegalProgram; infer_instance

/-! ## C19 -/

/-- C19: the created checksum verifies, for every HRP and data. -/
theorem C19_create_verifies (hrp : PyStr) (data : List Nat) :
    verifyChecksum hrp (data ++ createChecksum hrp data) = true := verify_create hrp data

/-- C19: it has six five-bit symbols, and is the only such list that verifies. -/
theorem C19_unique (hrp : PyStr) (data q : List Nat) (hq : Digits 5 q) (hl : q.length = 6) :
    verifyChecksum hrp (data ++ q) = true ↔ q = createChecksum hrp data :=
  ⟨checksum_unique hrp data q hq hl, fun h => h ▸ verify_create hrp data⟩

example : Digits 5 [12, 7, 9, 17, 11, 21] ∧ createChecksum (pystr "bc") [0] = [5, 2, 1, 8, 3, 28] ∧
    verifyChecksum (pystr "bc") [0, 5, 2, 1, 8, 3, 28] = true := by
  refine ⟨by simp [Digits], by decide +kernel, by decide +kernel⟩

/-- C19: decoding an encoded string returns the HRP and the values. -/
theorem C19_roundtrip (hrp : PyStr) (data : List Nat) (hne : hrp ≠ [])
    (hc : ∀ c ∈ hrp, 33 ≤ c.toNat ∧ c.toNat ≤ 126 ∧ ¬ ('A' ≤ c ∧ c ≤ 'Z')) (hd : Digits 5 data)
    (hl : hrp.length + data.length + 7 ≤ 90) :
    ∃ s, bech32Encode hrp data = .ok s ∧ bech32Decode s = some (hrp, data) ∧ (hrp ++ ['1']) <+: s := by
  refine ⟨_, bech32Encode_eq hrp hd, bech32_roundtrip hne ?_ (fun c h => ⟨(hc c h).1, (hc c h).2.1⟩) hd hl, ?_⟩
  · unfold lower
    conv_rhs => rw [← List.map_id hrp]
    apply List.map_congr_left
    intro c h
    obtain ⟨_, _, h3⟩ := hc c h
    unfold lowerC
    rw [if_neg]; · rfl
    intro h4; apply h3
    simp only [Char.le_def, UInt32.le_iff_toNat_le]
    exact h4
  · exact ⟨_, by simp [addrStr]; rfl⟩

example : pystr "bc" ≠ [] ∧ (∀ c ∈ pystr "bc", 33 ≤ c.toNat ∧ c.toNat ≤ 126 ∧ ¬ ('A' ≤ c ∧ c ≤ 'Z')) ∧
    Digits 5 [0, 31, 17] := by
  refine ⟨by decide, by decide, by simp [Digits]⟩

/-! ## C20 -/

/-- C20: one wrong symbol never verifies, at any length. -/
theorem C20_single (hrp : PyStr) (a b : List Nat) (ha : Digits 5 a) (hb : Digits 5 b) (hl : a.length = b.length)
    (hd : diffs a b = 1) (h : verifyChecksum hrp a = true) : verifyChecksum hrp b = false :=
  verify_single hrp a b ha hb hl hd h

/-- C20: up to four wrong symbols never verify within the legal length. -/
theorem C20_up_to_four (hrp : PyStr) (a b : List Nat) (ha : Digits 5 a) (hb : Digits 5 b) (hl : a.length = b.length)
    (h88 : a.length ≤ 88) (hd : 0 < diffs a b) (hd4 : diffs a b ≤ 4) (h : verifyChecksum hrp a = true) :
    verifyChecksum hrp b = false :=
  verify_few hrp a b ha hb hl h88 hd hd4 h

example : Digits 5 [0, 5, 2, 1, 8, 3, 28] ∧ Digits 5 [1, 5, 2, 1, 8, 3, 27] ∧
    diffs [0, 5, 2, 1, 8, 3, 28] [1, 5, 2, 1, 8, 3, 27] = 2 ∧
    verifyChecksum (pystr "bc") [0, 5, 2, 1, 8, 3, 28] = true := by
  refine ⟨by simp [Digits], by simp [Digits], by decide, by decide +kernel⟩

/-- C20 for addresses: changing one to four characters of an accepted address, anywhere in the string (HRP, separator or
data part), into other than a mere change of case, makes `decode` raise. -/
theorem C20_address (net : Network) (hrp : PyStr) (hh : net.bech32Hrp = some hrp) (s s' : PyStr) (d : Bytes)
    (h : decode net s = .ok d) (hl : s'.length = s.length) (hd : diffs s s' ≤ 4) (hne : lowerCased s' ≠ lowerCased s) :
    ∃ e, decode net s' = .error e := by
  cases hr : decode net s' with
  | error e => exact ⟨e, rfl⟩
  | ok d' =>
    exfalso
    rw [decode_iff hh] at h hr
    obtain ⟨v, prog, r, _, hb, _⟩ := h
    obtain ⟨v', prog', r', _, hb', _⟩ := hr
    rw [bech32Decode_iff] at hb hb'
    obtain ⟨hw, hn, h90, hdd, he⟩ := hb
    obtain ⟨hw', _, h90', hdd', he'⟩ := hb'
    rw [← lower_eq hw', ← lower_eq hw] at hne
    have hle : diffs (lower s) (lower s') ≤ 4 := Nat.le_trans (diffs_map_le lowerC s s') hd
    have hll : (lower s).length = (lower s').length := by simp [lower, hl]
    have hpos : diffs (lower s) (lower s') ≠ 0 := fun h0 => hne (diffs_eq_zero hll h0).symm
    rw [he, he'] at hle hll hpos
    have hcons : ∀ x y : List Nat, hrp ++ '1' :: (x ++ y).map symC = (hrp ++ ['1']) ++ (x ++ y).map symC := by simp
    rw [hcons, hcons, diffs_append] at hle hpos
    simp only [List.length_append, List.length_cons, List.length_map, createChecksum_length] at hll
    have hD : ∀ x, Digits 5 x → Digits 5 (x ++ createChecksum hrp x) := by
      intro x hx y hy
      rw [List.mem_append] at hy
      exact hy.elim (hx y) (createChecksum_digits hrp x y)
    have hvals : diffs ((v :: r) ++ createChecksum hrp (v :: r)) ((v' :: r') ++ createChecksum hrp (v' :: r')) =
        diffs (((v :: r) ++ createChecksum hrp (v :: r)).map symC) (((v' :: r') ++ createChecksum hrp (v' :: r')).map symC) := by
      apply Nat.le_antisymm
      · have := diffs_map_le (fun x => CHARSET.idxOf x) (((v :: r) ++ createChecksum hrp (v :: r)).map symC)
          (((v' :: r') ++ createChecksum hrp (v' :: r')).map symC)
        rw [symC_map_inv (hD _ hdd), symC_map_inv (hD _ hdd')] at this
        exact this
      · exact diffs_map_le symC _ _
    rw [← hvals] at hle hpos
    have h88 : ((v :: r) ++ createChecksum hrp (v :: r)).length ≤ 88 := by
      have := congrArg List.length he
      simp only [lower, List.length_append, List.length_cons, List.length_map, createChecksum_length] at this
      have := List.length_pos_iff.2 hn
      simp only [List.length_append, List.length_cons, createChecksum_length]; omega
    have := verify_few hrp _ _ (hD _ hdd) (hD _ hdd')
      (by simp only [List.length_append, List.length_cons, createChecksum_length]; omega) h88 (by omega) hle
      (verify_create hrp (v :: r))
    rw [verify_create] at this
    cases this

example : decode bitcoinMain (pystr "bc1qw508d6qejxtdg4y5r3zarvary0c5xw7kv8f3t4") =
      .ok (0 :: 20 :: [0x75, 0x1e, 0x76, 0xe8, 0x19, 0x91, 0x96, 0xd4, 0x54, 0x94, 0x1c, 0x45, 0xd1, 0xb3, 0xa3, 0x23, 0xf1, 0x43,
        0x3b, 0xd6]) ∧
    diffs (pystr "bc1qw508d6qejxtdg4y5r3zarvary0c5xw7kv8f3t4") (pystr "bc1qw508e6qejxtdg4y5r3zarvary0c5xw7kv8f3t5") = 2 := by
  constructor <;> decide +kernel

/-! ## C21 -/

/-- C21: on every network with an HRP, every legal version and program is encoded, and decodes to the same bytes. -/
theorem C21_roundtrip (net : Network) (hs : net.Supported) (hrp : PyStr) (hh : net.bech32Hrp = some hrp) (v : UInt8) (prog : Bytes)
    (hleg : LegalProgram v.toNat prog.length) :
    ∃ s, encode net (v :: UInt8.ofNat prog.length :: prog) = .ok (some s) ∧
      decode net s = .ok (v :: UInt8.ofNat prog.length :: prog) ∧ (hrp ++ ['1']) <+: s := by
  obtain ⟨r, _, hreg⟩ := convertbits_pad (f := 8) (t := 5) (by omega) (prog.map UInt8.toNat) (bytes_digits _)
  obtain ⟨h0, h18, h2, h1⟩ := encode_hrp hs hh
  refine ⟨addrStr hrp (v.toNat :: r), ?_, ?_, ⟨_, by simp [addrStr]; rfl⟩⟩
  · rw [encode_iff hs hh]
    exact ⟨v, _, r, rfl, hreg, hleg, rfl⟩
  · rw [decode_iff hh]
    refine ⟨v.toNat, prog.map UInt8.toNat, r, ?_, ?_, hreg, by simpa using hleg⟩
    · rw [ofNat_map_toNat, List.length_map, UInt8.ofNat_toNat]
    · apply bech32_roundtrip h0 h1 h2
      · intro x hx
        simp only [List.mem_cons] at hx
        rcases hx with rfl | hx
        · have := hleg.1; omega
        · exact hreg.2.1 x hx
      · have := regroup_length hreg
        have := hleg.2.2.1
        simp only [List.length_cons, List.length_map] at *; omega

example : bitcoinMain.Supported ∧ bitcoinMain.bech32Hrp = some (pystr "bc") ∧ LegalProgram (16 : UInt8).toNat 40 ∧
    LegalProgram (0 : UInt8).toNat 32 := by
  refine ⟨by unfold Network.Supported; decide +kernel, by decide, by decide, by decide⟩

/-- C21: nothing else is encoded: whenever `encode` returns a string, the first byte is a legal version, the program (everything
from the third byte on; the second byte is ignored) has a legal length, and the string decodes to them. -/
theorem C21_only_legal (net : Network) (hs : net.Supported) (data : Bytes) (s : PyStr)
    (h : encode net data = .ok (some s)) :
    ∃ v prog, data.head? = some v ∧ data.drop 2 = prog ∧ LegalProgram v.toNat prog.length ∧
      decode net s = .ok (v :: UInt8.ofNat prog.length :: prog) := by
  cases hh : net.bech32Hrp with
  | none => simp [encode, hh] at h
  | some hrp =>
    have h' := h
    rw [encode_iff hs hh] at h
    obtain ⟨v, rest, r, rfl, hreg, hleg, rfl⟩ := h
    have hdrop : (v :: rest).drop 2 = rest.drop 1 := by cases rest <;> rfl
    refine ⟨v, rest.drop 1, rfl, hdrop, hleg, ?_⟩
    obtain ⟨s, e1, e2, _⟩ := C21_roundtrip net hs hrp hh v (rest.drop 1) hleg
    have : s = addrStr hrp (v.toNat :: r) := by
      rw [encode_iff hs hh] at e1
      obtain ⟨v', rest', r', he, hreg', _, rfl⟩ := e1
      simp only [List.cons.injEq] at he
      obtain ⟨rfl, rfl⟩ := he
      rw [Regroups.unique (by omega) hreg hreg']
    rw [← this]; exact e2

example : encode bitcoinMain (0 :: 0 :: List.replicate 20 7) =
    .ok (some (pystr "bc1qqurswpc8qurswpc8qurswpc8qurswpc89fe3yv")) := by decide +kernel

/-- C21: what happens to illegal data. No data at all and a first byte of 32 or more raise IndexError; every other illegal version or
length returns `None` without raising. The length byte is never looked at. -/
theorem C21_refusals (net : Network) (hs : net.Supported) (hrp : PyStr) (hh : net.bech32Hrp = some hrp) :
    encode net [] = .error .indexError ∧ ∀ (v : UInt8) (rest : Bytes),
      (encode net (v :: rest) = .error .indexError ↔ 32 ≤ v.toNat) ∧
      (encode net (v :: rest) = .ok none ↔ v.toNat < 32 ∧ ¬ LegalProgram v.toNat (rest.length - 1)) := by
  refine ⟨by simp [encode, hh, getNat, bind, Except.bind], fun v rest => ?_⟩
  obtain ⟨r, hr, hreg⟩ := convertbits_pad (f := 8) (t := 5) (by omega) ((rest.drop 1).map UInt8.toNat) (bytes_digits _)
  have hdrop : (v :: rest).drop 2 = rest.drop 1 := by cases rest <;> rfl
  have e : encode net (v :: rest) = (bech32Encode hrp ([v.toNat] ++ r)).bind fun ret =>
      match segwitDecode hrp ret with | none => .ok none | some _ => .ok (some ret) := by
    simp only [encode, hh, getNat, List.getElem?_cons_zero, ok_bind, hdrop, segwitEncode, hr]
    rfl
  by_cases hv : v.toNat < 32
  · have hd : Digits 5 (v.toNat :: r) := by
      intro x hx
      simp only [List.mem_cons] at hx
      rcases hx with rfl | hx
      · exact hv
      · exact hreg.2.1 x hx
    have h1 : encode net (v :: rest) ≠ .error .indexError := by
      rw [e, List.singleton_append, bech32Encode_eq _ hd]
      simp only [Except.bind]
      split <;> simp
    have hlen : (rest.drop 1).length = rest.length - 1 := List.length_drop ..
    refine ⟨⟨fun h => absurd h h1, fun h => by omega⟩, ?_⟩
    have h2 : (∃ s, encode net (v :: rest) = .ok (some s)) ↔ LegalProgram v.toNat (rest.length - 1) := by
      constructor
      · rintro ⟨s, h⟩
        rw [encode_iff hs hh] at h
        obtain ⟨v', rest', r', he, _, hleg, _⟩ := h
        simp only [List.cons.injEq] at he
        obtain ⟨rfl, rfl⟩ := he
        rwa [← hlen]
      · intro h
        exact ⟨_, (encode_iff hs hh _ _).2 ⟨v, rest, r, rfl, hreg, by rwa [hlen], rfl⟩⟩
    rw [← h2]
    constructor
    · intro h
      exact ⟨hv, by rintro ⟨s, hs'⟩; rw [h] at hs'; cases hs'⟩
    · rintro ⟨_, hno⟩
      rw [e, List.singleton_append, bech32Encode_eq _ hd] at hno ⊢
      simp only [Except.bind] at hno ⊢
      split
      · rfl
      · next hp => rw [hp] at hno; exact absurd ⟨_, rfl⟩ hno
  · have : CHARSET[v.toNat]? = none := List.getElem?_eq_none (by
      have : CHARSET.length = 32 := by decide
      omega)
    have h3 : encode net (v :: rest) = .error .indexError := by
      rw [e, List.singleton_append]
      simp [bech32Encode, charsetJoin, getNat, this, bind, Except.bind]
    rw [h3]
    simp only [true_iff, reduceCtorEq, false_iff, not_and]
    exact ⟨by omega, fun h => absurd h hv⟩

/-- A version 1 output script begins with OP_1 = 0x51, which is not a version. -/
example : encode bitcoinMain (0x51 :: 32 :: List.replicate 32 7) = .error .indexError ∧
    encode bitcoinMain (17 :: 32 :: List.replicate 32 7) = .ok none := by decide +kernel

/-! ## C22 -/

/-- C22: an accepted address has one letter case and the network's HRP, and re-encoding gives it in lower case. -/
theorem C22_canonical (net : Network) (hs : net.Supported) (s : PyStr) (d : Bytes) (h : decode net s = .ok d) :
    (lowerCased s = s ∨ upperCased s = s) ∧ encode net d = .ok (some (lowerCased s)) ∧
      ∃ hrp, net.bech32Hrp = some hrp ∧ (hrp ++ ['1']) <+: lowerCased s := by
  cases hh : net.bech32Hrp with
  | none => simp [decode, hh] at h
  | some hrp =>
    rw [decode_iff hh] at h
    obtain ⟨v, prog, r, rfl, hb, hreg, hleg⟩ := h
    rw [bech32Decode_iff] at hb
    obtain ⟨hw, hn, h90, hdd, he⟩ := hb
    have hv : (UInt8.ofNat v).toNat = v := by
      have := hleg.1; rw [UInt8.toNat_ofNat']; omega
    refine ⟨?_, ?_, hrp, rfl, ?_⟩
    · rw [← lower_eq hw, ← upper_eq hw]; exact hw.2
    · rw [encode_iff hs hh]
      refine ⟨_, _, r, rfl, ?_, ?_, ?_⟩
      · simp only [List.drop_succ_cons, List.drop_zero]
        rw [toNat_map_ofNat hreg.1]; exact hreg
      · simp only [List.drop_succ_cons, List.drop_zero, List.length_map]
        rw [hv]; exact hleg
      · rw [hv, ← lower_eq hw]; exact he
    · rw [← lower_eq hw, he]; exact ⟨_, by simp; rfl⟩

/-- C22: two accepted addresses with the same meaning differ in letter case only. -/
theorem C22_injective (net : Network) (hs : net.Supported) (s s' : PyStr) (d : Bytes) (h : decode net s = .ok d)
    (h' : decode net s' = .ok d) : lowerCased s = lowerCased s' := by
  have e := (C22_canonical net hs s d h).2.1
  rw [(C22_canonical net hs s' d h').2.1] at e
  simpa using e.symm

/-- C22: changing the case of a whole address does not change what it decodes to. -/
theorem C22_case (net : Network) (s : PyStr) (d : Bytes) (h : decode net s = .ok d) :
    decode net (upperCased s) = .ok d ∧ decode net (lowerCased s) = .ok d := by
  cases hh : net.bech32Hrp with
  | none => simp [decode, hh] at h
  | some hrp =>
    rw [decode_iff hh] at h
    obtain ⟨v, prog, r, hd, hb, hreg, hleg⟩ := h
    rw [bech32Decode_iff] at hb
    obtain ⟨hw, hn, h90, hdd, he⟩ := hb
    constructor
    · rw [decode_iff hh]
      refine ⟨v, prog, r, hd, ?_, hreg, hleg⟩
      rw [bech32Decode_iff, ← upper_eq hw, (wellCased_upper hw).2]
      exact ⟨(wellCased_upper hw).1, hn, by simpa [upper] using h90, hdd, he⟩
    · rw [decode_iff hh]
      refine ⟨v, prog, r, hd, ?_, hreg, hleg⟩
      rw [bech32Decode_iff, ← lower_eq hw, (wellCased_lower hw).2]
      exact ⟨(wellCased_lower hw).1, hn, by simpa [lower] using h90, hdd, he⟩

example : decode bitcoinMain (pystr "BC1QW508D6QEJXTDG4Y5R3ZARVARY0C5XW7KV8F3T4") =
      decode bitcoinMain (pystr "bc1qw508d6qejxtdg4y5r3zarvary0c5xw7kv8f3t4") ∧
    decode bitcoinMain (pystr "BC1QW508D6QEJXTDG4Y5R3ZARVARY0C5XW7kv8f3t4") = .error .typeError := by
  constructor <;> decide +kernel

/-! ## C23 -/

/-- C23: regrouping bytes into five-bit digits keeps all bits, adds fewer than five zero bits, and is undone by the strict
inverse. -/
theorem C23_roundtrip (d : List Nat) (hd : Digits 8 d) :
    ∃ v, convertbits d 8 5 = some v ∧ Regroups 8 5 d v ∧ convertbits v 5 8 false = some d := by
  obtain ⟨v, h1, h2⟩ := convertbits_pad (f := 8) (t := 5) (by omega) d hd
  exact ⟨v, h1, h2, regroup_back h2⟩

/-- C23: the strict inverse accepts nothing else: if it returns `d`, regrouping `d` gives the input again. -/
theorem C23_strict (v d : List Nat) (h : convertbits v 5 8 false = some d) : convertbits d 8 5 = some v := by
  rw [convertbits_pad_iff (by omega)]; exact regroup_fwd h

/-- C23 for any widths: the padded conversion succeeds exactly on digits of the input width and yields the regrouped bits
followed by fewer than `t` zero bits. -/
theorem C23_padded (f t : Nat) (ht : 0 < t) (d r : List Nat) : convertbits d f t = some r ↔ Regroups f t d r :=
  convertbits_pad_iff ht d r

/-- C23 for any widths: the strict conversion succeeds exactly when the left-over bits are zero and fewer than a digit. -/
theorem C23_unpadded (f t : Nat) (ht : 0 < t) (v d : List Nat) : convertbits v f t false = some d ↔
    Digits f v ∧ Digits t d ∧ ∃ k, k < t ∧ k < f ∧ bitsOf f v = bitsOf t d ++ List.replicate k false :=
  convertbits_strict_iff ht v d

/-- C23: the copy of `convertbits` in cashaddr.py is the same function on non-negative values, and rejects negative ones. -/
theorem C23_cashaddr (d : List Int) (f t : Nat) (p : Bool) :
    Cashaddr.convertbits d f t p = if ∀ x ∈ d, 0 ≤ x then convertbits (d.map Int.toNat) f t p else none := by
  split
  · next h =>
    rw [← cash_convertbits, List.map_map]
    congr 1
    conv_lhs => rw [← List.map_id d]
    apply List.map_congr_left
    intro x hx
    have := h x hx
    simp only [Function.comp_apply, id, Int.ofNat_eq_natCast]; omega
  · next h =>
    push Not at h
    unfold Cashaddr.convertbits
    rw [cash_convertLoop_neg _ _ _ _ _ _ h]

example : convertbits [255, 1] 8 5 = some [31, 28, 0, 16] ∧ convertbits [31, 28, 0, 16] 5 8 false = some [255, 1] ∧
    convertbits [31, 28, 0, 17] 5 8 false = none ∧ convertbits [0] 5 8 false = none ∧ Digits 8 [255, 1] := by
  refine ⟨by decide, by decide, by decide, by decide, by simp [Digits]⟩

end Verif.Props
