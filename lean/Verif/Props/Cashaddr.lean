import Verif.Lemmas.Cashaddr

/-! Properties C24–C26, C74: cashaddr. -/

namespace Verif.Props
open Verif Cashaddr

/-! ## C24 -/

/-- C24: the exact behaviour: every payload is encoded, and decoding gives it back, except that the last byte is lost
when the length is a multiple of five. -/
theorem C24_behaviour (net : Network) (hs : net.Supported) (pre : PyStr) (hp : net.cashaddrPrefix = some pre) (d : Bytes) :
    ∃ s, encode net d = .ok s ∧ (pre ++ [':']) <+: s ∧
      decode net s = .ok (if d.length % 5 = 0 then d.dropLast else d) := by
  obtain ⟨r, hreg, he⟩ := encode_eq hp d
  exact ⟨_, he, ⟨_, by simp [addrStr]; rfl⟩, decode_addrStr hs hp hreg⟩

/-- C24, the lengths for which it holds; the address payloads have 21 bytes. -/
theorem C24_roundtrip_partial (net : Network) (hs : net.Supported) (pre : PyStr) (hp : net.cashaddrPrefix = some pre) (d : Bytes)
    (h5 : d.length % 5 ≠ 0) : ∃ s, encode net d = .ok s ∧ decode net s = .ok d := by
  obtain ⟨s, h1, _, h2⟩ := C24_behaviour net hs pre hp d
  exact ⟨s, h1, by rw [h2, if_neg h5]⟩

/-- C24 fails for every other non-empty payload. -/
theorem C24_false (net : Network) (hs : net.Supported) (pre : PyStr) (hp : net.cashaddrPrefix = some pre) (d : Bytes)
    (h5 : d.length % 5 = 0) (hne : d ≠ []) : ∃ s, encode net d = .ok s ∧ decode net s ≠ .ok d := by
  obtain ⟨s, h1, _, h2⟩ := C24_behaviour net hs pre hp d
  refine ⟨s, h1, ?_⟩
  rw [h2, if_pos h5]
  intro h
  have := congrArg List.length (Except.ok.inj h)
  rw [List.length_dropLast] at this
  have := List.length_pos_iff.2 hne
  omega

example : bitcoinCashMain.Supported ∧ bitcoinCashMain.cashaddrPrefix = some (pystr "bitcoincash") ∧
    encode bitcoinCashMain (0 :: List.replicate 20 7) = .ok (pystr "bitcoincash:qqrswpc8qurswpc8qurswpc8qurswpc8qutdt3aw7w") ∧
    decode bitcoinCashMain (pystr "bitcoincash:qurswpc8qurswpc8qurswpc8qurswpc8gxqks06j") = .ok (List.replicate 19 7) := by
  refine ⟨by unfold Network.Supported; decide +kernel, by decide, by decide +kernel, by decide +kernel⟩

/-! ## C25 -/

/-- C25: the calculated checksum verifies, for every prefix and every list of five-bit values. -/
theorem C25_create_verifies (pre : PyStr) (payload : List Nat) :
    verifyChecksum pre (payload.map Int.ofNat ++ calculateChecksum pre (payload.map Int.ofNat)) = true := by
  have := polymod_create pre (payload.map Int.ofNat)
  rw [calculateChecksum_eq, ← List.map_append] at this ⊢
  rw [verify_nat, beq_iff_eq]; exact this

theorem decode_error_of_not_ok {net : Network} {s : PyStr} (h : ∀ d, decode net s ≠ .ok d) : ∃ e, decode net s = .error e := by
  cases hr : decode net s with
  | error e => exact ⟨e, rfl⟩
  | ok d => exact absurd hr (h d)

theorem split_unique {a b q r : PyStr} (ha : ':' ∉ a) (hb : ':' ∉ b) (h : a ++ ':' :: q = b ++ ':' :: r) : a = b ∧ q = r := by
  induction a generalizing b with
  | nil => cases b with
    | nil => simpa using h
    | cons x xs => simp only [List.nil_append, List.cons_append, List.cons.injEq] at h; simp [← h.1] at hb
  | cons y ys ih => cases b with
    | nil => simp only [List.nil_append, List.cons_append, List.cons.injEq] at h; simp [h.1] at ha
    | cons x xs =>
      simp only [List.cons_append, List.cons.injEq] at h
      simp only [List.mem_cons, not_or] at ha hb
      obtain ⟨rfl, rfl⟩ := ih ha.2 hb.2 h.2
      exact ⟨by rw [h.1], rfl⟩

theorem diffs_idxOf {q q' : PyStr} (h : ∀ c ∈ q, c ∈ Bech32.CHARSET) (h' : ∀ c ∈ q', c ∈ Bech32.CHARSET) :
    diffs (q.map fun c => Bech32.CHARSET.idxOf c) (q'.map fun c => Bech32.CHARSET.idxOf c) = diffs q q' := by
  apply Nat.le_antisymm (Bech32.diffs_map_le _ _ _)
  have := Bech32.diffs_map_le Bech32.symC (q.map fun c => Bech32.CHARSET.idxOf c) (q'.map fun c => Bech32.CHARSET.idxOf c)
  rwa [(Bech32.idxOf_map_inv h).1, (Bech32.idxOf_map_inv h').1] at this

/-- C25: changing one character of the payload of an accepted address (to any character whatever) makes `decode` raise, at
any length. -/
theorem C25_single (net : Network) (hp : net.cashaddrPrefix.isSome) (a q q' : PyStr) (ha : ':' ∉ a) (d : Bytes)
    (h : decode net (a ++ ':' :: q) = .ok d) (hl : q'.length = q.length) (hd : diffs q q' = 1) :
    ∃ e, decode net (a ++ ':' :: q') = .error e := by
  obtain ⟨pre, hp⟩ := Option.isSome_iff_exists.1 hp
  apply decode_error_of_not_ok
  intro d' h'
  obtain ⟨a1, q1, e1, hn1, _, _, hc1, hv1⟩ := decode_ok hp h
  obtain ⟨a2, q2, e2, hn2, _, _, hc2, hv2⟩ := decode_ok hp h'
  obtain ⟨rfl, rfl⟩ := split_unique ha hn1 e1
  obtain ⟨rfl, rfl⟩ := split_unique ha hn2 e2
  rw [(b32decode_digits hc1).1] at hv1
  rw [(b32decode_digits hc2).1] at hv2
  have := verify_single a _ _ (b32decode_digits hc1).2 (b32decode_digits hc2).2 (by simp [hl])
    ((diffs_idxOf hc1 hc2).trans hd) hv1
  rw [hv2] at this
  cases this

/-- C25: likewise for up to four changes when the payload has at most 128 characters (a 21-byte payload has 42). -/
theorem C25_up_to_four (net : Network) (hp : net.cashaddrPrefix.isSome) (a q q' : PyStr) (ha : ':' ∉ a) (d : Bytes)
    (h : decode net (a ++ ':' :: q) = .ok d) (hl : q'.length = q.length) (h128 : q.length ≤ 128) (hd : 0 < diffs q q')
    (hd4 : diffs q q' ≤ 4) : ∃ e, decode net (a ++ ':' :: q') = .error e := by
  obtain ⟨pre, hp⟩ := Option.isSome_iff_exists.1 hp
  apply decode_error_of_not_ok
  intro d' h'
  obtain ⟨a1, q1, e1, hn1, _, _, hc1, hv1⟩ := decode_ok hp h
  obtain ⟨a2, q2, e2, hn2, _, _, hc2, hv2⟩ := decode_ok hp h'
  obtain ⟨rfl, rfl⟩ := split_unique ha hn1 e1
  obtain ⟨rfl, rfl⟩ := split_unique ha hn2 e2
  rw [(b32decode_digits hc1).1] at hv1
  rw [(b32decode_digits hc2).1] at hv2
  have := verify_few a _ _ (b32decode_digits hc1).2 (b32decode_digits hc2).2 (by simp [hl]) (by simpa using h128)
    (by rw [diffs_idxOf hc1 hc2]; exact hd) (by rw [diffs_idxOf hc1 hc2]; exact hd4) hv1
  rw [hv2] at this
  cases this

example : bitcoinCashMain.cashaddrPrefix.isSome ∧ ':' ∉ pystr "bitcoincash" ∧
    decode bitcoinCashMain (pystr "bitcoincash" ++ ':' :: pystr "qqrswpc8qurswpc8qurswpc8qurswpc8qutdt3aw7w") =
      .ok (0 :: List.replicate 20 7) ∧
    diffs (pystr "qqrswpc8qurswpc8qurswpc8qurswpc8qutdt3aw7w") (pystr "qqrswpc8qurswpc8qurswpc8qurswpc8qutdt3aw7b") = 1 := by
  refine ⟨by decide, by decide, by decide +kernel, by decide⟩

/-! ## C26 -/

/-- C26 as far as it holds: an accepted string starts with the network's prefix, has exactly one colon, and nothing but
alphabet characters after it. Missing: the text before the colon may be longer than the prefix. -/
theorem C26_partial (net : Network) (hs : net.Supported) (s : PyStr) (d : Bytes) (h : decode net s = .ok d) :
    ∃ pre more q, net.cashaddrPrefix = some pre ∧ s = pre ++ more ++ ':' :: q ∧ ':' ∉ pre ++ more ∧
      ∀ c ∈ q, c ∈ Bech32.CHARSET := by
  cases hp : net.cashaddrPrefix with
  | none => simp [decode, hp] at h
  | some pre =>
    obtain ⟨a, q, e, hn, _, hpre, hc, _⟩ := decode_ok hp h
    have : pre <+: a := by
      rcases List.prefix_or_prefix_of_prefix hpre (⟨_, e.symm⟩ : a <+: s) with h1 | ⟨t, rfl⟩
      · exact h1
      · cases t with
        | nil => simp
        | cons x xs =>
          rw [e] at hpre
          have := (List.prefix_append_right_inj a).1 hpre
          rw [List.cons_prefix_cons] at this
          have hn := cash_prefix hs hp
          simp [this.1] at hn
    obtain ⟨more, rfl⟩ := this
    exact ⟨pre, more, q, rfl, e, hn, hc⟩

/-- C26 is violated: the prefix `bitcoincashq` is accepted on Bitcoin Cash. -/
theorem C26_false : decode bitcoinCashMain (pystr "bitcoincashq:qqrswpc8qurswpc8qurswpc8qurswpc8qu8vc092np") =
    .ok (0 :: List.replicate 20 7) := by decide +kernel

/-! ## C74 -/

/-- C74: which strings `decode` maps to an address payload: its own encoding is one. -/
theorem C74_own_encoding_partial (net : Network) (hs : net.Supported) (pre : PyStr) (hp : net.cashaddrPrefix = some pre)
    (d d' : Bytes) (s : PyStr) (h5 : d.length % 5 ≠ 0) (h5' : d'.length % 5 ≠ 0) (h : encode net d = .ok s)
    (h' : encode net d' = .ok s) : d = d' := by
  obtain ⟨s1, h1, h2⟩ := C24_roundtrip_partial net hs pre hp d h5
  obtain ⟨s2, h1', h2'⟩ := C24_roundtrip_partial net hs pre hp d' h5'
  rw [h] at h1; rw [h'] at h1'
  cases h1; cases h1'
  rw [h2] at h2'
  exact Except.ok.inj h2'

/-- C74 is violated: the padding bits are not tested, so a second string decodes to the same payload. -/
theorem C74_false :
    decode bitcoinCashMain (pystr "bitcoincash:qqrswpc8qurswpc8qurswpc8qurswpc8qacwj6ydd0") = .ok (0 :: List.replicate 20 7) ∧
    decode bitcoinCashMain (pystr "bitcoincash:qqrswpc8qurswpc8qurswpc8qurswpc8qutdt3aw7w") = .ok (0 :: List.replicate 20 7) := by
  constructor <;> decide +kernel

end Verif.Props
