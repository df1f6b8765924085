import Verif.Lemmas.Addresses

/-! Properties C27–C32: addresses and output scripts. -/

namespace Verif.Props
open Verif Spec Addresses

/-! ## C27 -/

/-- C27 for P2PKH scripts. -/
theorem C27_p2pkh (E : Env) (hs : E.net.Supported) (hH : E.H.LengthOK) (h : Bytes) (hl : h.length = 20) (cashaddr : Bool) :
    ∃ a, fromOutputScript E (p2pkhScript h) cashaddr = .ok (some a) ∧ toOutputScript E a = .ok (p2pkhScript h) := by
  rw [from_p2pkh (netFacts hs) hl]; exact pkh_script E hs hH h hl cashaddr

/-- C27 for P2SH scripts. -/
theorem C27_p2sh (E : Env) (hs : E.net.Supported) (hH : E.H.LengthOK) (h : Bytes) (hl : h.length = 20) (cashaddr : Bool) :
    ∃ a, fromOutputScript E (p2shScript h) cashaddr = .ok (some a) ∧ toOutputScript E a = .ok (p2shScript h) := by
  rw [from_p2sh (netFacts hs) hl]; exact sh_script E hs hH h hl cashaddr

example : (⟨bitcoinCashMain, toyHashes⟩ : Env).net.Supported ∧ toyHashes.LengthOK ∧ (List.replicate 20 (7 : UInt8)).length = 20 ∧
    fromOutputScript ⟨bitcoinCashMain, toyHashes⟩ (p2pkhScript (List.replicate 20 7)) =
      .ok (some (pystr "bitcoincash:qqrswpc8qurswpc8qurswpc8qurswpc8qutdt3aw7w")) :=
  ⟨by unfold Network.Supported; decide +kernel, toyHashes_ok, rfl, by decide +kernel⟩

/-! ## C28 -/

/-- C28 for P2WPKH scripts. The address pays to the script it was made from, or, if it also is a Base58Check string, to
nothing: `to_output_script` then raises ValueError. -/
theorem C28_p2wpkh (E : Env) (hs : E.net.Supported) (hH : E.H.LengthOK) (hsw : E.net.segwit = true) (h : Bytes)
    (hl : h.length = 20) (cashaddr : Bool) :
    ∃ a, fromOutputScript E (p2wpkhScript h) cashaddr = .ok (some a) ∧
      (toOutputScript E a = .ok (p2wpkhScript h) ∨ (E.net.segwitEncoder = .bech32 ∧ (∃ d, Base58.decode E a = .ok d) ∧
        toOutputScript E a = .error .valueError)) := by
  obtain ⟨a, h1, h2⟩ := segwit_script E hs hH hsw 20 h hl (.inl rfl)
  exact ⟨a, from_p2wpkh (netFacts hs) hl _ _ (by rw [wpkh_make E hs hsw]; exact h1), h2⟩

/-- C28 for P2WSH scripts. -/
theorem C28_p2wsh (E : Env) (hs : E.net.Supported) (hH : E.H.LengthOK) (hsw : E.net.segwit = true) (h : Bytes)
    (hl : h.length = 32) (cashaddr : Bool) :
    ∃ a, fromOutputScript E (p2wshScript h) cashaddr = .ok (some a) ∧
      (toOutputScript E a = .ok (p2wshScript h) ∨ (E.net.segwitEncoder = .bech32 ∧ (∃ d, Base58.decode E a = .ok d) ∧
        toOutputScript E a = .error .valueError)) := by
  obtain ⟨a, h1, h2⟩ := segwit_script E hs hH hsw 32 h hl (.inr rfl)
  exact ⟨a, from_p2wsh (netFacts hs) hl _ _ (by rw [wsh_make E hs hsw]; exact h1), h2⟩

/-- C28, the remark: on every cashaddr network a P2WPKH script comes back as the P2PKH script of the same hash. -/
theorem C28_cashaddr_p2wpkh (E : Env) (hs : E.net.Supported) (hc : E.net.cashaddrPrefix.isSome) (h : Bytes) (hl : h.length = 20) :
    ∃ a, fromOutputScript E (p2wpkhScript h) = .ok (some a) ∧ toOutputScript E a = .ok (p2pkhScript h) := by
  rcases (netFacts hs).cash with C | C
  · rw [C.noPrefix] at hc; cases hc
  · obtain ⟨a, h1, h2, _⟩ := cash_make E hs C ([0] ++ h) (by simp [hl])
    refine ⟨a, from_p2wpkh (netFacts hs) hl _ _ ?_, ?_⟩
    · unfold makePkhAddress'; rw [C.p2pkh]; simp only [h1, Except.map]
    · rw [toOutputScript_eq, h2]; exact outScript_cash_p2pkh (netFacts hs) C hl

example : bitcoinMain.Supported ∧ bitcoinMain.segwit = true ∧ bitcoinCashMain.cashaddrPrefix.isSome ∧
    fromOutputScript ⟨bitcoinMain, toyHashes⟩ (p2wpkhScript (List.replicate 20 7)) =
      .ok (some (pystr "bc1qqurswpc8qurswpc8qurswpc8qurswpc89fe3yv")) :=
  ⟨by unfold Network.Supported; decide +kernel, rfl, rfl, by decide +kernel⟩

/-! ## C29 -/

/-- C29: P2PKH addresses, cashaddr where available, and legacy. -/
theorem C29_p2pkh (E : Env) (hs : E.net.Supported) (hH : E.H.LengthOK) (pubkey : Bytes) :
    ∃ a b s, makeP2pkhAddress E pubkey = .ok (some a) ∧ makeLegacyP2pkhAddress E pubkey = .ok (some b) ∧
      makeP2pkhOutputScript E pubkey = .ok s ∧ toOutputScript E a = .ok s ∧ toOutputScript E b = .ok s := by
  have hl := E.hash160_length hH pubkey
  obtain ⟨a, a1, a2⟩ := pkh_script E hs hH (E.hash160 pubkey) hl true
  obtain ⟨b, b1, b2⟩ := pkh_script E hs hH (E.hash160 pubkey) hl false
  exact ⟨a, b, p2pkhScript (E.hash160 pubkey), a1, b1, rfl, a2, b2⟩

/-- C29: P2SH addresses. Whenever the script serialises, both addresses and the output script exist and agree. -/
theorem C29_p2sh (E : Env) (hs : E.net.Supported) (hH : E.H.LengthOK) (script : PyStr) (b : Bytes)
    (hser : serialize E.net script = .ok b) :
    ∃ a a' s, makeP2shAddress E script = .ok (some a) ∧ makeLegacyP2shAddress E script = .ok (some a') ∧
      makeP2shOutputScript E script = .ok s ∧ toOutputScript E a = .ok s ∧ toOutputScript E a' = .ok s := by
  have hl := E.hash160_length hH b
  obtain ⟨a, a1, a2⟩ := sh_script E hs hH (E.hash160 b) hl true
  obtain ⟨a', b1, b2⟩ := sh_script E hs hH (E.hash160 b) hl false
  refine ⟨a, a', p2shScript (E.hash160 b), ?_, ?_, ?_, a2, b2⟩
  · unfold makeP2shAddress makeShAddress; rw [hser]; exact a1
  · unfold makeLegacyP2shAddress makeShAddress; rw [hser]; exact b1
  · unfold makeP2shOutputScript makeShOutputScript; simp only [check, hser, ok_bind]; rfl

/-- C29: when the script does not serialise, none of the three functions returns. -/
theorem C29_p2sh_error (E : Env) (script : PyStr) (e : PyErr) (hser : serialize E.net script = .error e) :
    makeP2shAddress E script = .error e ∧ makeLegacyP2shAddress E script = .error e ∧ makeP2shOutputScript E script = .error e := by
  unfold makeP2shAddress makeLegacyP2shAddress makeShAddress makeP2shOutputScript makeShOutputScript
  rw [hser]
  exact ⟨rfl, rfl, rfl⟩

/-- C29: P2WPKH addresses on SegWit networks. -/
theorem C29_p2wpkh (E : Env) (hs : E.net.Supported) (hH : E.H.LengthOK) (hsw : E.net.segwit = true) (pubkey : Bytes) :
    ∃ a s, makeP2wpkhAddress E pubkey = .ok (some a) ∧ makeP2wpkhOutputScript E pubkey = .ok s ∧
      (toOutputScript E a = .ok s ∨ (E.net.segwitEncoder = .bech32 ∧ (∃ d, Base58.decode E a = .ok d) ∧
        toOutputScript E a = .error .valueError)) := by
  obtain ⟨a, a1, a2⟩ := segwit_script E hs hH hsw 20 (E.hash160 pubkey) (E.hash160_length hH pubkey) (.inl rfl)
  refine ⟨a, p2wpkhScript (E.hash160 pubkey), ?_, ?_, a2⟩
  · unfold makeP2wpkhAddress makePkhAddress; rw [wpkh_make E hs hsw]; exact a1
  · unfold makeP2wpkhOutputScript makePkhOutputScript
    rw [hsw, (netFacts hs).wpkh]; rfl

/-- C29: P2WSH addresses on SegWit networks. -/
theorem C29_p2wsh (E : Env) (hs : E.net.Supported) (hH : E.H.LengthOK) (hsw : E.net.segwit = true) (script : PyStr) (b : Bytes)
    (hser : serialize E.net script = .ok b) :
    ∃ a s, makeP2wshAddress E script = .ok (some a) ∧ makeP2wshOutputScript E script = .ok s ∧
      (toOutputScript E a = .ok s ∨ (E.net.segwitEncoder = .bech32 ∧ (∃ d, Base58.decode E a = .ok d) ∧
        toOutputScript E a = .error .valueError)) := by
  obtain ⟨a, a1, a2⟩ := segwit_script E hs hH hsw 32 (E.H.sha256 b) (hH.1 b) (.inr rfl)
  refine ⟨a, p2wshScript (E.H.sha256 b), ?_, ?_, a2⟩
  · unfold makeP2wshAddress makeShAddress serScriptToShAddress; rw [hser]
    simp only [ok_bind, if_true]
    rw [wsh_make E hs hsw]; exact a1
  · unfold makeP2wshOutputScript makeShOutputScript makeShScriptPubkey
    rw [hsw, (netFacts hs).wsh, hser]; rfl

/-- C29: the scripts agreed on are the templates around the hashes of the key or of the serialised script. -/
theorem C29_templates (E : Env) (hs : E.net.Supported) (pubkey : Bytes) (script : PyStr) (b : Bytes)
    (hser : serialize E.net script = .ok b) :
    makeP2pkhOutputScript E pubkey = .ok (p2pkhScript (E.hash160 pubkey)) ∧
    makeP2shOutputScript E script = .ok (p2shScript (E.hash160 b)) ∧
    (E.net.segwit = true → makeP2wpkhOutputScript E pubkey = .ok (p2wpkhScript (E.hash160 pubkey)) ∧
      makeP2wshOutputScript E script = .ok (p2wshScript (E.H.sha256 b))) ∧
    (E.net.segwit = false → makeP2wpkhOutputScript E pubkey = .error .valueError ∧
      makeP2wshOutputScript E script = .error .valueError) := by
  refine ⟨rfl, ?_, fun hsw => ⟨?_, ?_⟩, fun hsw => ⟨?_, ?_⟩⟩
  · unfold makeP2shOutputScript makeShOutputScript; simp only [check, hser, ok_bind]; rfl
  · unfold makeP2wpkhOutputScript makePkhOutputScript
    rw [hsw, (netFacts hs).wpkh]; rfl
  · unfold makeP2wshOutputScript makeShOutputScript makeShScriptPubkey
    rw [hsw, (netFacts hs).wsh, hser]; rfl
  · unfold makeP2wpkhOutputScript makePkhOutputScript
    rw [hsw]; rfl
  · unfold makeP2wshOutputScript makeShOutputScript
    rw [hsw]; rfl

example : serialize bitcoinMain (pystr "OP_DUP OP_HASH160") = .ok [0x76, 0xa9] ∧
    serialize bitcoinMain (pystr "OP_NOTHING") = .error .valueError := by
  constructor <;> decide +kernel

/-! ## C30 -/

theorem base58_zero_head {E : Env} (hH : E.H.LengthOK) {d : Bytes} {a : PyStr} (h : Base58.encode E (0 :: d) = .ok a) :
    a.head? = some '1' := by
  obtain ⟨s, h1, _, h3⟩ := C16_roundtrip E hH (0 :: d) true
  rw [h] at h1
  cases h1
  have hz := h3.zeros
  simp only [if_true, List.cons_append] at hz
  rw [List.takeWhile_cons_of_pos (by rfl)] at hz
  cases a with
  | nil => simp at hz
  | cons c cs =>
    by_cases hc : c = '1'
    · rw [hc]; rfl
    · rw [List.takeWhile_cons_of_neg (by simpa using hc)] at hz; simp at hz

/-- Addresses that are Base58Check strings are not read by the segwit branch of `parse_hash`. -/
theorem not_segwit_branch {E : Env} (hs : E.net.Supported) (hH : E.H.LengthOK) {hrp : PyStr} {raw : Bytes} {a : PyStr}
    (h : Base58.encode E raw = .ok a) (hh : E.net.bech32Hrp = some hrp) (hp : a.take hrp.length = hrp) (y : Bytes) :
    startsWith raw (0 :: y) = false := by
  rw [← Bool.not_eq_true, startsWith_iff]
  rintro ⟨r, rfl⟩
  have h1 := base58_zero_head hH h
  obtain ⟨h2, h3⟩ := hrp_len hs hh
  cases hrp with
  | nil => simp at h2
  | cons c cs =>
    cases a with
    | nil => cases h1
    | cons z zs =>
      simp only [List.length_cons, List.take_succ_cons, List.cons.injEq] at hp
      simp only [List.head?_cons, Option.some.injEq] at h1
      exact h3 (congrArg some (hp.1.symm.trans h1))

theorem startsWith_str {a p : PyStr} : startsWith a p = true ↔ p <+: a := by
  unfold startsWith; rw [List.isPrefixOf_iff_prefix]

/-- The legacy part of `parse_hash`. -/
def legacyHash (net : Network) (raw : Bytes) : Py Bytes :=
  if startsWith raw net.p2shPrefix then .ok (raw.drop net.p2shPrefix.length)
  else if startsWith raw net.p2pkhPrefix then .ok (raw.drop net.p2pkhPrefix.length)
  else .error .valueError

/-- C30: legacy P2PKH and P2SH addresses, on every network. -/
theorem C30_legacy (E : Env) (hs : E.net.Supported) (hH : E.H.LengthOK) (h : Bytes) (hl : h.length = 20) :
    (∃ a, makePkhAddress' E h false false = .ok (some a) ∧ parseHash E a = .ok h) ∧
    (∃ a, hashToShAddress E h false false = .ok (some a) ∧ parseHash E a = .ok h) := by
  have F := netFacts hs
  have key : ∀ (p : Bytes) (a : PyStr), Base58.encode E (p ++ h) = .ok a → parse E a = .ok (p ++ h) →
      (p = E.net.p2pkhPrefix ∨ p = E.net.p2shPrefix) → parseHash E a = .ok h := by
    intro p a h1 h2 hp
    have hleg : legacyHash E.net (p ++ h) = .ok h := by
      unfold legacyHash
      rcases hp with rfl | rfl
      · rw [if_neg (by rw [startsWith_ne F.len.symm F.ne]; simp), if_pos (startsWith_append _ _), List.drop_left]
      · rw [if_pos (startsWith_append _ _), List.drop_left]
    have hseg : (match E.net.bech32Hrp with
        | none => legacyHash E.net (p ++ h)
        | some hrp =>
          if startsWith a hrp then
            if startsWith (p ++ h) E.net.p2wshPrefix then .ok ((p ++ h).drop E.net.p2wshPrefix.length)
            else if startsWith (p ++ h) E.net.p2wpkhPrefix then .ok ((p ++ h).drop E.net.p2wpkhPrefix.length)
            else legacyHash E.net (p ++ h)
          else legacyHash E.net (p ++ h)) = .ok h := by
      cases hh : E.net.bech32Hrp with
      | none => exact hleg
      | some hrp =>
        simp only []
        by_cases hst : startsWith a hrp = true
        · obtain ⟨t, rfl⟩ := startsWith_str.1 hst
          have hn := not_segwit_branch hs hH h1 hh (by simp)
          rw [if_pos hst, F.wsh, F.wpkh, hn, hn]
          exact hleg
        · rw [if_neg hst]; exact hleg
    unfold parseHash
    rw [h2, ok_bind]
    simp only []
    rcases F.cash with C | C
    · rw [C.noPrefix]; exact hseg
    · obtain ⟨pre, hpre⟩ := Option.isSome_iff_exists.1 C.pre
      rw [hpre, C.p2sh, C.p2pkh]
      simp only []
      have l1 := C.l1
      have l2 := F.len
      have hp8 : startsWith (p ++ h) [8] = false := by
        rcases hp with rfl | rfl
        · exact startsWith_ne (by simp [l1]) C.n1
        · exact startsWith_ne (by simp [l1, l2]) C.n2
      by_cases hst : startsWith a pre = true
      · rw [if_pos hst, hp8]
        by_cases h0 : startsWith (p ++ h) [0] = true
        · have : p = [0] := by
            obtain ⟨r, hr⟩ := (startsWith_iff _ _).1 h0
            exact (List.append_inj hr (by rcases hp with rfl | rfl <;> simp [l1, l2])).1
          subst this
          rfl
        · simp only [Bool.not_eq_true] at h0
          rw [h0]; exact hseg
      · rw [if_neg hst]; exact hseg
  constructor
  · obtain ⟨a, h1, h2⟩ := base58_make E hH (E.net.p2pkhPrefix ++ h)
    refine ⟨a, ?_, key _ a h1 h2 (.inl rfl)⟩
    unfold makePkhAddress'; cases E.net.cashaddrP2pkh <;> simp [h1, Except.map]
  · obtain ⟨a, h1, h2⟩ := base58_make E hH (E.net.p2shPrefix ++ h)
    refine ⟨a, ?_, key _ a h1 h2 (.inr rfl)⟩
    unfold hashToShAddress; cases E.net.cashaddrP2sh <;> simp [h1, Except.map]

/-- C30: cashaddr addresses. -/
theorem C30_cashaddr (E : Env) (hs : E.net.Supported) (hc : E.net.cashaddrPrefix.isSome) (h : Bytes) (hl : h.length = 20) (w : Bool) :
    (∃ a, makePkhAddress' E h w true = .ok (some a) ∧ parseHash E a = .ok h) ∧
    (∃ a, hashToShAddress E h w true = .ok (some a) ∧ parseHash E a = .ok h) := by
  rcases (netFacts hs).cash with C | C
  · rw [C.noPrefix] at hc; cases hc
  · constructor
    · obtain ⟨a, h1, h2, pre, hp, hpa⟩ := cash_make E hs C ([0] ++ h) (by simp [hl])
      refine ⟨a, by unfold makePkhAddress'; rw [C.p2pkh]; simp only [h1, Except.map], ?_⟩
      unfold parseHash
      rw [h2, ok_bind, hp, C.p2sh, C.p2pkh]
      simp only []
      rw [if_pos (startsWith_str.2 hpa)]
      rfl
    · obtain ⟨a, h1, h2, pre, hp, hpa⟩ := cash_make E hs C ([8] ++ h) (by simp [hl])
      refine ⟨a, by unfold hashToShAddress; rw [C.p2sh]; simp only [h1, Except.map], ?_⟩
      unfold parseHash
      rw [h2, ok_bind, hp, C.p2sh, C.p2pkh]
      simp only []
      rw [if_pos (startsWith_str.2 hpa)]
      rfl

/-- C30 for witness addresses, as far as it holds: on the networks with bech32 witness addresses, unless the address is also a
Base58Check string. Missing: the networks with base58 witness addresses (C30_false). -/
theorem C30_segwit_partial (E : Env) (hs : E.net.Supported) (hH : E.H.LengthOK) (hsw : E.net.segwit = true)
    (henc : E.net.segwitEncoder = .bech32) :
    (∀ h : Bytes, h.length = 20 → ∃ a, makePkhAddress' E h true true = .ok (some a) ∧
      (parseHash E a = .ok h ∨ ∃ d, Base58.decode E a = .ok d)) ∧
    (∀ h : Bytes, h.length = 32 → ∃ a, hashToShAddress E h true true = .ok (some a) ∧
      (parseHash E a = .ok h ∨ ∃ d, Base58.decode E a = .ok d)) := by
  have F := netFacts hs
  have P := plain_of_segwit hs hsw
  have key : ∀ (l : UInt8) (h : Bytes), h.length = l.toNat → (l = 20 ∨ l = 32) → ∃ a, segwitEncode E ([0, l] ++ h) = .ok (some a) ∧
      (parseHash E a = .ok h ∨ ∃ d, Base58.decode E a = .ok d) := by
    intro l h hl hl2
    obtain ⟨a, h1, h2, h3⟩ := segwit_make E hs hH hsw l h hl hl2
    refine ⟨a, h1, ?_⟩
    rcases h3 with h3 | ⟨d, _, h3, _⟩
    · left
      obtain ⟨hrp, hh, hpa⟩ := h2 henc
      unfold parseHash
      rw [h3, ok_bind, P.noPrefix, hh, F.wsh, F.wpkh]
      simp only []
      rw [if_pos (startsWith_str.2 hpa)]
      rcases hl2 with rfl | rfl
      · rw [startsWith_ne (p := [0, 20]) (q := [0, 32]) rfl (by decide), startsWith_append]; rfl
      · rw [startsWith_append]; rfl
    · exact .inr ⟨d, h3⟩
  exact ⟨fun h hl => by rw [wpkh_make E hs hsw]; exact key 20 h hl (.inl rfl),
    fun h hl => by rw [wsh_make E hs hsw]; exact key 32 h hl (.inr rfl)⟩

/-- C30 fails for every P2WPKH address on every network with base58 witness addresses. -/
theorem C30_false (E : Env) (hs : E.net.Supported) (hH : E.H.LengthOK) (hsw : E.net.segwit = true)
    (henc : E.net.segwitEncoder = .base58) (h : Bytes) (hl : h.length = 20) :
    ∃ a, makePkhAddress' E h true true = .ok (some a) ∧ parse E a = .ok (p2wpkhScript h) ∧ parseHash E a ≠ .ok h := by
  have F := netFacts hs
  have P := plain_of_segwit hs hsw
  obtain ⟨a, h1, h2⟩ := base58_make E hH ([0, 20] ++ h)
  refine ⟨a, ?_, h2, ?_⟩
  · rw [wpkh_make E hs hsw]; unfold segwitEncode; rw [henc, h1]; rfl
  · have hleg : legacyHash E.net ([0, 20] ++ h) ≠ .ok h := by
      unfold legacyHash
      have hlen : ∀ q : Bytes, startsWith ([0, 20] ++ h) q = true → q ≠ [0, 20] → q.length = 1 ∨ q.length = 2 →
          (.ok (([0, 20] ++ h).drop q.length) : Py Bytes) ≠ .ok h := by
        intro q hq hne hq2 he
        have hq1 : q.length = 1 := by
          rcases hq2 with h' | h'
          · exact h'
          · rw [startsWith_ne (by simp [h']) (Ne.symm hne)] at hq; cases hq
        have := congrArg List.length (Except.ok.inj he)
        rw [List.length_drop, hq1] at this
        simp at this
      have l12 := F.len12
      have l := F.len
      by_cases c1 : startsWith ([0, 20] ++ h) E.net.p2shPrefix = true
      · rw [if_pos c1]; exact hlen _ c1 F.ne2 (by omega)
      · rw [if_neg c1]
        by_cases c2 : startsWith ([0, 20] ++ h) E.net.p2pkhPrefix = true
        · rw [if_pos c2]; exact hlen _ c2 F.ne1 l12
        · rw [if_neg c2]; simp
    unfold parseHash
    rw [h2, ok_bind, P.noPrefix]
    simp only []
    cases hh : E.net.bech32Hrp with
    | none => exact hleg
    | some hrp =>
      simp only []
      by_cases hst : startsWith a hrp = true
      · exfalso
        obtain ⟨t, rfl⟩ := startsWith_str.1 hst
        have := not_segwit_branch hs hH h1 hh (by simp) [20]
        rw [startsWith_append] at this
        cases this
      · rw [if_neg hst]; exact hleg

example : bitcoreMain.Supported ∧ bitcoreMain.segwit = true ∧ bitcoreMain.segwitEncoder = .base58 ∧
    bitcoinMain.segwitEncoder = .bech32 :=
  ⟨by unfold Network.Supported; decide +kernel, rfl, rfl, rfl⟩

/-! ## C31 -/

/-- C31: `to_output_script` returns one of the four templates around a hash of the right length, or raises ValueError. -/
theorem C31_to (E : Env) (hs : E.net.Supported) (a : PyStr) :
    (∃ s h, toOutputScript E a = .ok s ∧ ((h.length = 20 ∧ (s = p2pkhScript h ∨ s = p2shScript h ∨ s = p2wpkhScript h)) ∨
      (h.length = 32 ∧ s = p2wshScript h))) ∨
    toOutputScript E a = .error .valueError := by
  rw [toOutputScript_eq]
  cases hp : parse E a with
  | error e => rw [parse_error hp]; exact .inr rfl
  | ok d =>
    rw [ok_bind]
    cases ho : outScript E.net d with
    | error e => rw [outScript_error ho]; exact .inr rfl
    | ok s =>
      left
      rcases outScript_ok (netFacts hs) ho with ⟨_, x, ⟨h1, h2⟩ | ⟨h1, h2⟩⟩ | ⟨p, x, h1, _, ⟨h2, _⟩ | ⟨h2, _⟩⟩
      · exact ⟨s, x, rfl, .inl ⟨h1, .inr (.inr h2)⟩⟩
      · exact ⟨s, x, rfl, .inr ⟨h1, h2⟩⟩
      · exact ⟨s, x, rfl, .inl ⟨h1, .inl h2⟩⟩
      · exact ⟨s, x, rfl, .inl ⟨h1, .inr (.inl h2)⟩⟩

/-- C31: `from_output_script` returns only for scripts of the four shapes, by length and leading bytes (it does not look at
the bytes after the hash). -/
theorem C31_from (E : Env) (hs : E.net.Supported) (s : Bytes) (c : Bool) (a : Option PyStr) (h : fromOutputScript E s c = .ok a) :
    (∃ x y, x.length = 20 ∧ y.length = 2 ∧ s = [0x76, 0xa9, 0x14] ++ x ++ y) ∨
    (∃ x y, x.length = 20 ∧ y.length = 1 ∧ s = [0xa9, 0x14] ++ x ++ y) ∨
    (∃ x, x.length = 20 ∧ s = p2wpkhScript x) ∨ (∃ x, x.length = 32 ∧ s = p2wshScript x) := by
  unfold fromOutputScript at h
  rw [(netFacts hs).wsh, (netFacts hs).wpkh] at h
  simp only [] at h
  by_cases c1 : s.length = ([0, 32] : Bytes).length + 32 ∧ startsWith s [0, 32] = true
  · obtain ⟨x, rfl⟩ := (startsWith_iff _ _).1 c1.2
    exact .inr (.inr (.inr ⟨x, by simpa using c1.1, rfl⟩))
  rw [if_neg c1] at h
  by_cases c2 : s.length = ([0, 20] : Bytes).length + 20 ∧ startsWith s [0, 20] = true
  · obtain ⟨x, rfl⟩ := (startsWith_iff _ _).1 c2.2
    exact .inr (.inr (.inl ⟨x, by simpa using c2.1, rfl⟩))
  rw [if_neg c2] at h
  by_cases c3 : s.length = 25 ∧ startsWith s [0x76, 0xa9, 0x14] = true
  · obtain ⟨x, rfl⟩ := (startsWith_iff _ _).1 c3.2
    have hx : x.length = 22 := by simpa using c3.1
    exact .inl ⟨x.take 20, x.drop 20, by simp [hx], by simp [hx], by rw [List.append_assoc, List.take_append_drop]⟩
  rw [if_neg c3] at h
  by_cases c4 : s.length = 23 ∧ startsWith s [0xa9, 0x14] = true
  · obtain ⟨x, rfl⟩ := (startsWith_iff _ _).1 c4.2
    have hx : x.length = 21 := by simpa using c4.1
    exact .inr (.inl ⟨x.take 20, x.drop 20, by simp [hx], by simp [hx], by rw [List.append_assoc, List.take_append_drop]⟩)
  rw [if_neg c4] at h
  cases h

/-! ## C32 -/

theorem hrp_plain {net : Network} (hs : net.Supported) {hrp : PyStr} (hh : net.bech32Hrp = some hrp) :
    PlainNet net ∧ net.p2pkhPrefix.length = 1 := by
  have key : ∀ net : Network, net.Supported → net.bech32Hrp.isSome → net.p2pkhPrefix.length = 1 := by
    unfold Network.Supported; decide +kernel
  refine ⟨?_, key net hs (by rw [hh]; rfl)⟩
  rcases (netFacts hs).cash with C | C
  · exact C
  · rw [C.hrp] at hh; cases hh

/-- C32 for bech32 addresses, as far as it holds: one of version 0 is turned into its own witness script, and one of another
version is rejected. Missing: programs of 19 bytes (C32_false_bech32). -/
theorem C32_bech32_partial (E : Env) (hs : E.net.Supported) (henc : E.net.segwitEncoder = .bech32) (a : PyStr) (v : UInt8) (prog : Bytes)
    (hb : Base58.decode E a = .error .valueError) (hd : Bech32.decode E.net a = .ok (v :: UInt8.ofNat prog.length :: prog))
    (h19 : v ≠ 0 → prog.length ≠ 19) :
    toOutputScript E a = if v = 0 then .ok (0 :: UInt8.ofNat prog.length :: prog) else .error .valueError := by
  have F := netFacts hs
  have hp : parse E a = .ok (v :: UInt8.ofNat prog.length :: prog) := by
    apply parse_segwit hb; unfold segwitDecode; rw [henc]; exact hd
  rw [toOutputScript_eq, hp, ok_bind]
  cases hh : E.net.bech32Hrp with
  | none => simp [Bech32.decode, hh] at hd
  | some hrp =>
    obtain ⟨P, l1⟩ := hrp_plain hs hh
    by_cases hv : v = 0
    · subst hv
      rw [if_pos rfl]
      rw [Bech32.decode_iff hh] at hd
      obtain ⟨v', prog', r, he, _, _, hleg⟩ := hd
      simp only [List.cons.injEq] at he
      have hpl : prog.length = prog'.length := by rw [he.2.2]; simp
      have hv0 : v' = 0 := by
        have h1 := hleg.1
        have := congrArg UInt8.toNat he.1
        simp at this; omega
      rw [hv0, ← hpl] at hleg
      rcases hleg.2.2.2 rfl with h20 | h32
      · rw [h20]; exact outScript_wpkh F h20
      · rw [h32]; exact outScript_wsh F h32
    · rw [if_neg hv]
      have hne : ∀ q, startsWith (v :: UInt8.ofNat prog.length :: prog) (0 :: q) = false := by
        intro q
        rw [← Bool.not_eq_true, startsWith_iff]
        rintro ⟨r, hr⟩
        simp only [List.cons_append, List.cons.injEq] at hr
        exact hv hr.1
      obtain ⟨w1, w2⟩ := not_witness F (fun _ => hne [20]) (fun _ => hne [32])
      have h19 := h19 hv
      have l := F.len
      unfold outScript
      rw [if_neg w1, if_neg w2, P.noP2sh, P.noP2pkh]
      simp only []
      rw [if_neg (c := startsWith _ E.net.p2shPrefix = true ∧ _) (by rw [l, l1]; simp; omega),
        if_neg (c := startsWith _ E.net.p2pkhPrefix = true ∧ _) (by rw [l1]; simp; omega)]
      rfl

example : (⟨bitcoinMain, toyHashes⟩ : Env).net.segwitEncoder = .bech32 ∧
    Base58.decode ⟨bitcoinMain, toyHashes⟩ (pystr "bc1qqurswpc8qurswpc8qurswpc8qurswpc89fe3yv") = .error .valueError ∧
    Bech32.decode bitcoinMain (pystr "bc1qqurswpc8qurswpc8qurswpc8qurswpc89fe3yv") = .ok (0 :: 20 :: List.replicate 20 7) :=
  ⟨rfl, by decide +kernel, by decide +kernel⟩

/-- C32 fails: a version-5 bech32 address with a 19-byte program is turned into a P2SH script, whatever the hash functions. -/
theorem C32_false_bech32 (H : Hashes) :
    let a := pystr "bc19qyqszqgpqyqszqgpqyqszqgpqyqszqgnvs0q7"
    Bech32.decode bitcoinMain a = .ok (5 :: 19 :: List.replicate 19 1) ∧
      toOutputScript ⟨bitcoinMain, H⟩ a = .ok (p2shScript (19 :: List.replicate 19 1)) := by
  have h1 : Bech32.decode bitcoinMain (pystr "bc19qyqszqgpqyqszqgpqyqszqgpqyqszqgnvs0q7") = .ok (5 :: 19 :: List.replicate 19 1) := by
    decide +kernel
  refine ⟨h1, ?_⟩
  have hb : Base58.decode ⟨bitcoinMain, H⟩ (pystr "bc19qyqszqgpqyqszqgpqyqszqgpqyqszqgnvs0q7") = .error .valueError := by
    rw [decode_check_eq, if_neg]
    intro h; exact absurd h.1 (by decide)
  rw [toOutputScript_eq, parse_segwit hb (show segwitDecode ⟨bitcoinMain, H⟩ _ = _ from h1), ok_bind]
  show outScript bitcoinMain _ = _
  decide

/-- C32 for base58 addresses, as far as it holds: a Base58Check string whose version bytes are not the network's is rejected,
if they are not a cashaddr version byte either and not 00 14. -/
theorem C32_base58_partial (E : Env) (hs : E.net.Supported) (a : PyStr) (v h : Bytes) (hl : h.length = 20)
    (hd : Base58.decode E a = .ok (v ++ h)) (h1 : v ≠ E.net.p2pkhPrefix) (h2 : v ≠ E.net.p2shPrefix)
    (h3 : E.net.cashaddrP2pkh ≠ some v) (h4 : E.net.cashaddrP2sh ≠ some v) (h5 : v ≠ [0, 20])
    (h6 : v.length ≠ 14) : toOutputScript E a = .error .valueError := by
  rw [toOutputScript_eq, parse_base58 hd, ok_bind]
  cases ho : outScript E.net (v ++ h) with
  | error e => rw [outScript_error ho]
  | ok s =>
    exfalso
    rcases outScript_ok (netFacts hs) ho with ⟨e, x, ⟨hx, h'⟩ | ⟨hx, h'⟩⟩ | ⟨p, x, hx, e, ⟨h', hp⟩ | ⟨h', hp⟩⟩
    · exact h5 (List.append_inj (e.trans h') (by have := congrArg List.length (e.trans h'); simp [p2wpkhScript, hl, hx] at this; simp [this])).1
    · have := congrArg List.length (e.trans h')
      simp [p2wshScript, hl, hx] at this
      omega
    · obtain ⟨rfl, _⟩ := List.append_inj' e (by rw [hl, hx])
      rcases hp with hp | hp
      · exact h1 hp
      · exact h3 hp
    · obtain ⟨rfl, _⟩ := List.append_inj' e (by rw [hl, hx])
      rcases hp with hp | hp
      · exact h2 hp
      · exact h4 hp

/-- C32 fails: on the Bitcoin Cash test network every Base58Check string with version byte 0 is accepted as P2PKH although
the network's version bytes are 6f and c4. -/
theorem C32_false_cash (H : Hashes) (hH : H.LengthOK) (h : Bytes) (hl : h.length = 20) :
    bitcoinCashTest.p2pkhPrefix = [0x6f] ∧ bitcoinCashTest.p2shPrefix = [0xc4] ∧
    ∃ a, Base58.decode ⟨bitcoinCashTest, H⟩ a = .ok (0 :: h) ∧ toOutputScript ⟨bitcoinCashTest, H⟩ a = .ok (p2pkhScript h) := by
  refine ⟨rfl, rfl, ?_⟩
  obtain ⟨a, _, h2, _⟩ := C16_roundtrip ⟨bitcoinCashTest, H⟩ hH (0 :: h) true
  refine ⟨a, h2, ?_⟩
  have hs : bitcoinCashTest.Supported := by unfold Network.Supported; decide +kernel
  rw [toOutputScript_eq, parse_base58 h2, ok_bind]
  rcases (netFacts hs).cash with C | C
  · cases C.noP2sh
  · exact outScript_cash_p2pkh (netFacts hs) C hl

/-- C32 fails: on every network, SegWit or not, the Base58Check string of 00 14 and a hash is accepted as a witness output. -/
theorem C32_false_base58_witness (E : Env) (hs : E.net.Supported) (hH : E.H.LengthOK) (h : Bytes) (hl : h.length = 20) :
    ∃ a, Base58.decode E a = .ok ([0, 20] ++ h) ∧ toOutputScript E a = .ok (p2wpkhScript h) := by
  obtain ⟨a, _, h2, _⟩ := C16_roundtrip E hH ([0, 20] ++ h) true
  refine ⟨a, h2, ?_⟩
  rw [toOutputScript_eq, parse_base58 h2, ok_bind]
  exact outScript_wpkh (netFacts hs) hl

example : ∃ a, Base58.decode ⟨bitcoinMain, toyHashes⟩ a = .ok ([0x6f] ++ List.replicate 20 7) ∧
    [0x6f] ≠ bitcoinMain.p2pkhPrefix ∧ [0x6f] ≠ bitcoinMain.p2shPrefix ∧ bitcoinMain.cashaddrP2pkh ≠ some [0x6f] := by
  obtain ⟨a, _, h2, _⟩ := C16_roundtrip ⟨bitcoinMain, toyHashes⟩ toyHashes_ok ([0x6f] ++ List.replicate 20 7) true
  exact ⟨a, h2, by decide, by decide, by decide⟩

end Verif.Props
