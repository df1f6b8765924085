import Verif.Props.AddrStrings
import Verif.Props.Letters

/-! Property C113: `parse_hash` returns the hash in the script of the address, and when it does not. -/

namespace Verif.Props
open Verif Spec Addresses

/-- The hash in a standard output script. -/
def IsHashOf (s h : Bytes) : Prop :=
  h.length = 20 ∧ (s = p2pkhScript h ∨ s = p2shScript h ∨ s = p2wpkhScript h) ∨ h.length = 32 ∧ s = p2wshScript h

/-- `parse_hash` after the cashaddr case: encoding/addresses.py:367-382. -/
def segwitHash (net : Network) (a : PyStr) (raw : Bytes) : Py Bytes :=
  match net.bech32Hrp with
  | none => legacyHash net raw
  | some hrp =>
    if startsWith a hrp then
      if startsWith raw net.p2wshPrefix then .ok (raw.drop net.p2wshPrefix.length)
      else if startsWith raw net.p2wpkhPrefix then .ok (raw.drop net.p2wpkhPrefix.length)
      else legacyHash net raw
    else legacyHash net raw

theorem parseHash_plain {E : Env} (P : PlainNet E.net) {a : PyStr} {d : Bytes} (h : parse E a = .ok d) :
    parseHash E a = segwitHash E.net a d := by
  unfold parseHash
  rw [h, ok_bind, P.noPrefix]
  rfl

theorem parseHash_cash {E : Env} (K : CashNet E.net) {pre : PyStr} (hc : E.net.cashaddrPrefix = some pre) {a : PyStr} {d : Bytes}
    (h : parse E a = .ok d) : parseHash E a =
      if pre <+: a ∧ [8] <+: d then .ok (d.drop 1) else if pre <+: a ∧ [0] <+: d then .ok (d.drop 1) else legacyHash E.net d := by
  unfold parseHash
  rw [h, ok_bind, hc, K.p2sh, K.p2pkh, K.hrp]
  simp only []
  have e8 : startsWith d [8] = true ↔ [8] <+: d := List.isPrefixOf_iff_prefix
  have e0 : startsWith d [0] = true ↔ [0] <+: d := List.isPrefixOf_iff_prefix
  have ea : startsWith a pre = true ↔ pre <+: a := startsWith_str
  simp only [e8, e0, ea]
  by_cases h1 : pre <+: a
  · simp only [h1, if_true, true_and]; rfl
  · simp only [h1, if_false, false_and]; rfl

theorem legacyHash_ok {net : Network} (F : NetFacts net) (h : Bytes) : legacyHash net (net.p2pkhPrefix ++ h) = .ok h ∧ legacyHash net (net.p2shPrefix ++ h) = .ok h := by
  unfold legacyHash
  constructor
  · rw [if_neg (by rw [startsWith_ne F.len.symm F.ne]; simp), if_pos (startsWith_append _ _), List.drop_left]
  · rw [if_pos (startsWith_append _ _), List.drop_left]

/-- No version byte but that of Bitcoin's key hashes is zero. -/
theorem zero_prefix {net : Network} (hs : net.Supported) : net.p2shPrefix.head? ≠ some 0 ∧ (net.p2pkhPrefix.head? = some 0 → net.p2pkhPrefix = [0]) ∧
    net.p2pkhPrefix ≠ [] ∧ net.p2shPrefix ≠ [] := by
  have key : ∀ net : Network, net.Supported → net.p2shPrefix.head? ≠ some 0 ∧ (net.p2pkhPrefix.head? = some 0 → net.p2pkhPrefix = [0]) ∧
    net.p2pkhPrefix ≠ [] ∧ net.p2shPrefix ≠ [] := by
    unfold Network.Supported; decide +kernel
  exact key net hs

theorem startsWith_head {x : UInt8} {d p : Bytes} (hp : p ≠ []) (h : startsWith (x :: d) p = true) : p.head? = some x := by
  obtain ⟨r, hr⟩ := (startsWith_iff _ _).1 h
  cases p with
  | nil => exact absurd rfl hp
  | cons y ys => rw [List.cons_append, List.cons.injEq] at hr; rw [hr.1]; rfl

/-- What the legacy part makes of a payload that begins with a zero. -/
theorem legacyHash_zero {net : Network} (hs : net.Supported) (d : Bytes) :
    legacyHash net (0 :: d) = if net.p2pkhPrefix = [0] then .ok d else .error .valueError := by
  obtain ⟨h1, h2, h3, h4⟩ := zero_prefix hs
  unfold legacyHash
  rw [if_neg (fun e => h1 (startsWith_head h4 e))]
  by_cases h : net.p2pkhPrefix = [0]
  · rw [if_pos h, h]; exact if_pos (startsWith_append [0] d)
  · rw [if_neg h, if_neg (fun e => h (h2 (startsWith_head h3 e)))]

theorem hash_p2pkh {h x : Bytes} (hl : x.length = 20) (e : IsHashOf (p2pkhScript x) h) : h = x := by
  rcases e with ⟨hh, e | e | e⟩ | ⟨-, e⟩
  · simp only [p2pkhScript, List.append_assoc] at e
    exact (List.append_inj (List.append_cancel_left e) (by omega)).1.symm
  all_goals exact absurd (congrArg List.head? e) (by simp [p2pkhScript, p2shScript, p2wpkhScript, p2wshScript])

theorem hash_p2sh {h x : Bytes} (hl : x.length = 20) (e : IsHashOf (p2shScript x) h) : h = x := by
  rcases e with ⟨hh, e | e | e⟩ | ⟨-, e⟩
  · exact absurd (congrArg List.head? e) (by simp [p2pkhScript, p2shScript])
  · simp only [p2shScript, List.append_assoc] at e
    exact (List.append_inj (List.append_cancel_left e) (by omega)).1.symm
  all_goals exact absurd (congrArg List.head? e) (by simp [p2shScript, p2wpkhScript, p2wshScript])

theorem not_witness_p2pkh (x : Bytes) : ¬ IsWitness0 (p2pkhScript x) := by
  rintro ⟨y, ⟨-, e⟩ | ⟨-, e⟩⟩ <;> exact absurd (congrArg List.head? e) (by simp [p2pkhScript, p2wpkhScript, p2wshScript])

theorem not_witness_p2sh (x : Bytes) : ¬ IsWitness0 (p2shScript x) := by
  rintro ⟨y, ⟨-, e⟩ | ⟨-, e⟩⟩ <;> exact absurd (congrArg List.head? e) (by simp [p2shScript, p2wpkhScript, p2wshScript])

theorem witness_form {s h : Bytes} (hw : IsWitness0 s) (hh : IsHashOf s h) :
    s = [0, 20] ++ h ∧ h.length = 20 ∨ s = [0, 32] ++ h ∧ h.length = 32 := by
  rcases hh with ⟨l, e | e | e⟩ | ⟨l, e⟩
  · rw [e] at hw; exact absurd hw (not_witness_p2pkh h)
  · rw [e] at hw; exact absurd hw (not_witness_p2sh h)
  · exact .inl ⟨e, l⟩
  · exact .inr ⟨e, l⟩

/-- C113, networks without cashaddr: whenever a string is an address of a script, `parse_hash` returns the hash in the script, if and only if the script is not a witness
script or the string begins with the network's human-readable part (in lower case). -/
theorem C113_plain (E : Env) (hs : E.net.Supported) (hH : E.H.LengthOK) (hc : E.net.cashaddrPrefix = none) (a : PyStr) (s h : Bytes)
    (ha : toOutputScript E a = .ok s) (hh : IsHashOf s h) :
    parseHash E a = .ok h ↔ (IsWitness0 s → ∃ hrp, E.net.bech32Hrp = some hrp ∧ hrp <+: a) := by
  have F := netFacts hs
  have P : PlainNet E.net := by
    rcases F.cash with P | P
    · exact P
    · have := P.pre; rw [hc] at this; cases this
  obtain ⟨d, hp, ho⟩ := (toOutputScript_iff E a s).1 ha
  rw [parseHash_plain P hp]
  -- the payloads of 21 bytes are not read in the segwit branch
  have noseg : ∀ (p x : Bytes) (hrp : PyStr), p.length = E.net.p2pkhPrefix.length → d = p ++ x → x.length = 20 → E.net.bech32Hrp = some hrp → startsWith a hrp = true →
      ∀ y : UInt8, startsWith d [0, y] = false := by
    intro p x hrp hpl hd hl hh' hpre y
    rcases (parse_iff E hH a d).1 hp with hb | ⟨hn, hb | ⟨-, hb⟩⟩
    · obtain ⟨t, rfl⟩ := startsWith_str.1 hpre
      exact not_segwit_branch hs hH (C17_canonical E _ d true ((b58_iff E hH _ d).2 hb)) hh' (by simp) [y]
    · unfold segwitDecode at hb
      split at hb
      · obtain ⟨v, prog, hA, e⟩ := (C110_decode E.net hs hrp hh' a d).1 hb
        obtain ⟨hv, -, -, h0⟩ := hA.2.2.1
        rw [← Bool.not_eq_true]
        intro hst
        rw [e] at hst
        have hz := startsWith_head (by simp) hst
        have l1 := (hrp_encoder hs hh').2
        have hl' := congrArg List.length (hd.symm.trans e)
        simp only [List.length_append, List.length_cons] at hl'
        have hv0 : v = 0 := by
          have := congrArg UInt8.toNat (Option.some.inj hz)
          simp only [UInt8.toNat_ofNat'] at this
          simp at this
          omega
        have := h0 hv0
        omega
      · exact absurd ⟨d, (b58_iff E hH a d).1 hb⟩ hn
    · unfold Cashaddr.decode at hb; rw [hc] at hb; simp at hb
  have legacy : ∀ p x : Bytes, p.length = E.net.p2pkhPrefix.length → d = p ++ x → x.length = 20 → legacyHash E.net d = .ok x → segwitHash E.net a d = .ok x := by
    intro p x hpl hd hl hleg
    unfold segwitHash
    split
    · exact hleg
    · next hrp hh' =>
      by_cases hst : startsWith a hrp = true
      · have hn := noseg p x hrp hpl hd hl hh' hst
        rw [if_pos hst, F.wsh, F.wpkh, hn, hn]; exact hleg
      · rw [if_neg hst]; exact hleg
  rcases (outScript_plain F P d s).1 ho with ⟨x, hx, ⟨e, rfl⟩ | ⟨e, rfl⟩⟩ | ⟨rfl, hw⟩
  · obtain rfl := hash_p2pkh hx hh
    rw [legacy _ h rfl e hx (by rw [e]; exact (legacyHash_ok F h).1)]
    exact ⟨fun _ hw => absurd hw (not_witness_p2pkh h), fun _ => rfl⟩
  · obtain rfl := hash_p2sh hx hh
    rw [legacy _ h F.len e hx (by rw [e]; exact (legacyHash_ok F h).2)]
    exact ⟨fun _ hw => absurd hw (not_witness_p2sh h), fun _ => rfl⟩
  · have hf := witness_form hw hh
    have hleg : legacyHash E.net d ≠ .ok h := by
      intro e
      rcases hf with ⟨rfl, -⟩ | ⟨rfl, -⟩ <;>
      · simp only [List.cons_append, legacyHash_zero hs] at e
        split at e
        · have := congrArg List.length (Except.ok.inj e); simp at this
        · cases e
    unfold segwitHash
    split
    · next hh' =>
      exact ⟨fun e => absurd e hleg, fun e => by obtain ⟨hrp, h', -⟩ := e hw; rw [hh'] at h'; cases h'⟩
    · next hrp hh' =>
      by_cases hst : startsWith a hrp = true
      · rw [if_pos hst, F.wsh, F.wpkh]
        refine ⟨fun _ _ => ⟨hrp, hh', startsWith_str.1 hst⟩, fun _ => ?_⟩
        rcases hf with ⟨rfl, -⟩ | ⟨rfl, -⟩
        · rw [startsWith_ne (p := [0, 20]) (q := [0, 32]) rfl (by decide), startsWith_append]; rfl
        · rw [startsWith_append]; rfl
      · rw [if_neg hst]
        refine ⟨fun e => absurd e hleg, fun e => ?_⟩
        obtain ⟨hrp', h', hp'⟩ := e hw
        rw [hh'] at h'; cases h'
        exact absurd (startsWith_str.2 hp') hst

/-- C113, networks with cashaddr: `parse_hash` returns the hash in the script if and only if the script is not a witness script, and the string begins with the cashaddr
prefix or is the Base58Check string of the version byte and the hash. -/
theorem C113_cash (E : Env) (hs : E.net.Supported) (hH : E.H.LengthOK) (pre : PyStr) (hc : E.net.cashaddrPrefix = some pre) (a : PyStr) (s h : Bytes)
    (ha : toOutputScript E a = .ok s) (hh : IsHashOf s h) : parseHash E a = .ok h ↔
    ¬ IsWitness0 s ∧ (pre <+: a ∨ IsBase58Check E (E.net.p2pkhPrefix ++ h) a ∨ IsBase58Check E (E.net.p2shPrefix ++ h) a) := by
  have F := netFacts hs
  have K : CashNet E.net := by
    rcases F.cash with P | K
    · have := P.noPrefix; rw [hc] at this; cases this
    · exact K
  obtain ⟨d, hp, ho⟩ := (toOutputScript_iff E a s).1 ha
  rw [parseHash_cash K hc hp]
  have l1 := K.l1
  have l2 := F.len
  have hsd : ∃ e, segwitDecode E a = .error e := by
    unfold segwitDecode; rw [K.enc]; unfold Bech32.decode; rw [K.hrp]; exact ⟨_, rfl⟩
  have hstr : d ≠ [] → IsBase58Check E d a ∨ pre <+: a := by
    intro hd
    rcases (parse_iff E hH a d).1 hp with hb | ⟨hn, hb | ⟨-, hb⟩⟩
    · exact .inl hb
    · obtain ⟨e, he⟩ := hsd; rw [he] at hb; cases hb
    · obtain ⟨more, r, c, pad, -, -, -, -, -, -, -, -, rfl⟩ := (C110_cash_decode E.net pre hc hs a d hd).1 hb
      exact .inr ⟨more ++ ':' :: (r ++ c).map bechChar, by simp⟩
  have huniq : ∀ d', IsBase58Check E d' a → d' = d := by
    intro d' h'
    have := (parse_iff E hH a d').2 (.inl h')
    rw [hp] at this; exact (Except.ok.inj this).symm
  have one : ∀ (x : UInt8) (p : Bytes), p.length = 1 → ([x] <+: p ++ h ↔ p = [x]) := by
    intro x p lp
    obtain ⟨y, rfl⟩ := List.length_eq_one_iff.1 lp
    simp [eq_comm]
  have lsh : E.net.p2shPrefix.length = 1 := by omega
  have hleg := legacyHash_ok F h
  have n8 : legacyHash E.net (8 :: h) = .error .valueError := by
    unfold legacyHash
    have ne : ∀ p : Bytes, p.length = 1 → p ≠ [8] → ¬ startsWith (8 :: h) p = true := by
      intro p lp n e
      obtain ⟨y, rfl⟩ := List.length_eq_one_iff.1 lp
      have := startsWith_head (by simp) e
      simp at this
      exact n (by rw [this])
    rw [if_neg (ne _ lsh K.n2), if_neg (ne _ l1 K.n1)]
  -- the payload of the network's own version bytes
  have own : ∀ p : Bytes, p.length = 1 → p ≠ [8] → legacyHash E.net (p ++ h) = .ok h → d = p ++ h →
      (if pre <+: a ∧ [8] <+: d then .ok (d.drop 1) else if pre <+: a ∧ [0] <+: d then .ok (d.drop 1) else legacyHash E.net d) = .ok h := by
    intro p lp n hl hd
    rw [hd, if_neg (fun e => n ((one 8 p lp).1 e.2))]
    split
    · next e => rw [(one 0 p lp).1 e.2]; rfl
    · exact hl
  rcases (outScript_cash F K d s).1 ho with ⟨x, hx, ⟨e, rfl⟩ | ⟨e, rfl⟩⟩ | ⟨rfl, hw⟩
  · obtain rfl := hash_p2pkh hx hh
    rcases e with e | e
    · rw [own _ l1 K.n1 hleg.1 e]
      refine ⟨fun _ => ⟨not_witness_p2pkh h, ?_⟩, fun _ => rfl⟩
      rcases hstr (by rw [e]; intro e'; rw [(List.append_eq_nil_iff.1 e').2] at hx; cases hx) with hb | hb
      · exact .inr (.inl (e ▸ hb))
      · exact .inl hb
    · rw [e, if_neg (fun e' => by have := e'.2; simp at this)]
      by_cases hpre : pre <+: a
      · rw [if_pos ⟨hpre, ⟨h, rfl⟩⟩]
        exact ⟨fun _ => ⟨not_witness_p2pkh h, .inl hpre⟩, fun _ => rfl⟩
      · rw [if_neg (fun e' => hpre e'.1), legacyHash_zero hs]
        by_cases hz : E.net.p2pkhPrefix = [0]
        · rw [if_pos hz]
          refine ⟨fun _ => ⟨not_witness_p2pkh h, .inr (.inl ?_)⟩, fun _ => rfl⟩
          rcases hstr (by rw [e]; simp) with hb | hb
          · rw [hz, List.singleton_append, ← e]; exact hb
          · exact absurd hb hpre
        · rw [if_neg hz]
          refine ⟨fun e' => (by cases e'), ?_⟩
          rintro ⟨-, hb | hb | hb⟩
          · exact absurd hb hpre
          · exact absurd ((one 0 _ l1).1 (by rw [huniq _ hb, e]; exact ⟨h, rfl⟩)) hz
          · exact absurd ((one 0 _ lsh).1 (by rw [huniq _ hb, e]; exact ⟨h, rfl⟩)) K.n3
  · obtain rfl := hash_p2sh hx hh
    rcases e with e | e
    · rw [own _ lsh K.n2 hleg.2 e]
      refine ⟨fun _ => ⟨not_witness_p2sh h, ?_⟩, fun _ => rfl⟩
      rcases hstr (by rw [e]; intro e'; rw [(List.append_eq_nil_iff.1 e').2] at hx; cases hx) with hb | hb
      · exact .inr (.inr (e ▸ hb))
      · exact .inl hb
    · rw [e]
      by_cases hpre : pre <+: a
      · rw [if_pos ⟨hpre, ⟨h, rfl⟩⟩]
        exact ⟨fun _ => ⟨not_witness_p2sh h, .inl hpre⟩, fun _ => rfl⟩
      · rw [if_neg (fun e' => hpre e'.1), if_neg (fun e' => hpre e'.1), n8]
        refine ⟨fun e' => (by cases e'), ?_⟩
        rintro ⟨-, hb | hb | hb⟩
        · exact absurd hb hpre
        · exact absurd ((one 8 _ l1).1 (by rw [huniq _ hb, e]; exact ⟨h, rfl⟩)) K.n1
        · exact absurd ((one 8 _ lsh).1 (by rw [huniq _ hb, e]; exact ⟨h, rfl⟩)) K.n2
  · have hf := witness_form hw hh
    refine ⟨fun e => ?_, fun e => absurd hw e.1⟩
    exfalso
    have hd0 : ∃ y, d = 0 :: y :: h := by
      rcases hf with ⟨e', -⟩ | ⟨e', -⟩ <;> exact ⟨_, e'⟩
    obtain ⟨y, rfl⟩ := hd0
    rw [if_neg (fun e' => by have := e'.2; simp at this)] at e
    have long : ∀ z : Bytes, (if E.net.p2pkhPrefix = [0] then (.ok (y :: h) : Py Bytes) else .error .valueError) ≠ .ok h := by
      intro _ e'
      split at e'
      · have := congrArg List.length (Except.ok.inj e'); simp at this
      · cases e'
    split at e
    · have := congrArg List.length (Except.ok.inj e); simp at this
    · rw [legacyHash_zero hs] at e; exact long [] e

/-- C113: what `parse_hash` returns for a witness address that does not begin with the human-readable part in lower case: on the networks with version byte zero (Bitcoin's) the
length byte and the hash, on the others ValueError. -/
theorem C113_wrong (E : Env) (hs : E.net.Supported) (hc : E.net.cashaddrPrefix = none) (a : PyStr) (s h : Bytes)
    (ha : toOutputScript E a = .ok s) (hw : IsWitness0 s) (hh : IsHashOf s h) (hp : ∀ hrp, E.net.bech32Hrp = some hrp → ¬ hrp <+: a) :
    parseHash E a = if E.net.p2pkhPrefix = [0] then .ok (UInt8.ofNat h.length :: h) else .error .valueError := by
  have F := netFacts hs
  have P : PlainNet E.net := by
    rcases F.cash with P | P
    · exact P
    · have := P.pre; rw [hc] at this; cases this
  obtain ⟨d, hd, ho⟩ := (toOutputScript_iff E a s).1 ha
  have hds : d = 0 :: UInt8.ofNat h.length :: h := by
    rcases (outScript_plain F P d s).1 ho with ⟨x, hx, ⟨e, rfl⟩ | ⟨e, rfl⟩⟩ | ⟨rfl, -⟩
    · exact absurd hw (not_witness_p2pkh x)
    · exact absurd hw (not_witness_p2sh x)
    · rcases witness_form hw hh with ⟨e, l⟩ | ⟨e, l⟩ <;> rw [e, l] <;> rfl
  rw [parseHash_plain P hd, ← legacyHash_zero hs, ← hds]
  unfold segwitHash
  split
  · rfl
  · next hrp hh' => rw [if_neg (fun e => hp hrp hh' (startsWith_str.1 e))]

example : toOutputScript ⟨bitcoinMain, toyHashes⟩ (pystr "bc1qqurswpc8qurswpc8qurswpc8qurswpc89fe3yv") = .ok (p2wpkhScript (List.replicate 20 7)) ∧
    IsHashOf (p2wpkhScript (List.replicate 20 7)) (List.replicate 20 7) ∧ bitcoinMain.cashaddrPrefix = none ∧
    parseHash ⟨bitcoinMain, toyHashes⟩ (pystr "bc1qqurswpc8qurswpc8qurswpc8qurswpc89fe3yv") = .ok (List.replicate 20 7) :=
  ⟨by decide +kernel, .inl ⟨rfl, .inr (.inr rfl)⟩, rfl, by decide +kernel⟩

example : toOutputScript ⟨bitcoinCashMain, toyHashes⟩ (pystr "bitcoincash:qqrswpc8qurswpc8qurswpc8qurswpc8qutdt3aw7w") = .ok (p2pkhScript (List.replicate 20 7)) ∧
    IsHashOf (p2pkhScript (List.replicate 20 7)) (List.replicate 20 7) ∧ bitcoinCashMain.cashaddrPrefix = some (pystr "bitcoincash") :=
  ⟨by decide +kernel, .inl ⟨rfl, .inl rfl⟩, rfl⟩

/-- C113 fails for Bech32 addresses in upper case, which BIP 173 allows (and recommends for QR codes): on Bitcoin `parse_hash` returns 21 bytes, the length byte and the hash; on
Litecoin it raises. `to_output_script` reads both addresses. -/
theorem C113_false_upper (H : Hashes) :
    let h : Bytes := List.replicate 20 0x7b
    (toOutputScript ⟨bitcoinMain, H⟩ (pystr "BC1Q0DAHK7MM0DAHK7MM0DAHK7MM0DAHK7MMY2Z623") = .ok (p2wpkhScript h) ∧
      parseHash ⟨bitcoinMain, H⟩ (pystr "BC1Q0DAHK7MM0DAHK7MM0DAHK7MM0DAHK7MMY2Z623") = .ok (20 :: h)) ∧
    (toOutputScript ⟨litecoinMain, H⟩ (pystr "LTC1Q0DAHK7MM0DAHK7MM0DAHK7MM0DAHK7MMQKC7JP") = .ok (p2wpkhScript h) ∧
      parseHash ⟨litecoinMain, H⟩ (pystr "LTC1Q0DAHK7MM0DAHK7MM0DAHK7MM0DAHK7MMQKC7JP") = .error .valueError) := by
  have b : ∀ (net : Network) (a : PyStr), '0' ∈ a → Base58.decode ⟨net, H⟩ a = .error .valueError := by
    intro net a h0
    rw [decode_check_eq, if_neg]
    intro h; exact absurd (h.1 '0' h0) (by decide)
  have d1 : Bech32.decode bitcoinMain (pystr "BC1Q0DAHK7MM0DAHK7MM0DAHK7MM0DAHK7MMY2Z623") = .ok (p2wpkhScript (List.replicate 20 0x7b)) := by decide +kernel
  have d2 : Bech32.decode litecoinMain (pystr "LTC1Q0DAHK7MM0DAHK7MM0DAHK7MM0DAHK7MMQKC7JP") = .ok (p2wpkhScript (List.replicate 20 0x7b)) := by decide +kernel
  have p1 : parse ⟨bitcoinMain, H⟩ (pystr "BC1Q0DAHK7MM0DAHK7MM0DAHK7MM0DAHK7MMY2Z623") = .ok (p2wpkhScript (List.replicate 20 0x7b)) :=
    parse_segwit (b bitcoinMain _ (by decide)) d1
  have p2 : parse ⟨litecoinMain, H⟩ (pystr "LTC1Q0DAHK7MM0DAHK7MM0DAHK7MM0DAHK7MMQKC7JP") = .ok (p2wpkhScript (List.replicate 20 0x7b)) :=
    parse_segwit (b litecoinMain _ (by decide)) d2
  refine ⟨⟨?_, ?_⟩, ?_, ?_⟩
  · rw [toOutputScript_eq, p1, ok_bind]; show outScript bitcoinMain _ = _; decide
  · rw [parseHash_plain (by show PlainNet bitcoinMain; decide) p1]; show segwitHash bitcoinMain _ _ = _; decide
  · rw [toOutputScript_eq, p2, ok_bind]; show outScript litecoinMain _ = _; decide
  · rw [parseHash_plain (by show PlainNet litecoinMain; decide) p2]; show segwitHash litecoinMain _ _ = _; decide

/-- C113 fails for every P2SH hash on bitcoin_cash_main: `to_output_script` reads the Base58Check string of the cashaddr version byte and the hash, `parse_hash` raises. -/
theorem C113_false_crossed (H : Hashes) (hH : H.LengthOK) (h : Bytes) (hl : h.length = 20) :
    ∃ a, toOutputScript ⟨bitcoinCashMain, H⟩ a = .ok (p2shScript h) ∧ parseHash ⟨bitcoinCashMain, H⟩ a ≠ .ok h := by
  have hs : bitcoinCashMain.Supported := by unfold Network.Supported; decide +kernel
  obtain ⟨a, h1, h2, -⟩ := C16_roundtrip ⟨bitcoinCashMain, H⟩ hH (8 :: h) true
  have hb := (b58_iff ⟨bitcoinCashMain, H⟩ hH a _).1 h2
  have ha : toOutputScript ⟨bitcoinCashMain, H⟩ a = .ok (p2shScript h) :=
    (C111_cash _ hs hH _ rfl a _).2 ⟨8 :: h, .inl hb, .inl ⟨h, hl, .inr ⟨.inr rfl, rfl⟩⟩⟩
  refine ⟨a, ha, fun e => ?_⟩
  obtain ⟨-, hp | hp | hp⟩ := (C113_cash _ hs hH _ rfl a _ h ha (.inl ⟨hl, .inr (.inl rfl)⟩)).1 e
  · obtain ⟨a', h1', p, hp', hpre⟩ := encode_leads (E := ⟨bitcoinCashMain, H⟩) hH (v := [8]) (l := ["4".toList]) (by decide +kernel) h hl
    rw [List.singleton_append, h1] at h1'; cases h1'
    rw [List.mem_singleton.1 hp'] at hpre
    exact not_prefix (List.IsPrefix.trans ⟨"itcoincash".toList, rfl⟩ hp : "b".toList <+: a) (y := "4".toList) rfl (by decide) hpre
  · have := (b58_iff ⟨bitcoinCashMain, H⟩ hH a _).2 hp
    rw [h2] at this; cases this
  · have := (b58_iff ⟨bitcoinCashMain, H⟩ hH a _).2 hp
    rw [h2] at this; cases this

end Verif.Props
