import Verif.Props.Tx

/-! Property C39, exactly: which inputs parse back to the same script sig. -/

namespace Verif.Props
open Verif Spec

theorem tokens_serialize {net : Network} (hn : net.Supported) (ts : List PyStr)
    (h : ∀ t ∈ ts, t ≠ [] ∧ ((∃ c, IsOpByte net.isDecred c ∧ opName net c = .ok t) ∨ ∃ d : Bytes, t = toHex d))
    (hl : ∀ t ∈ ts, t.length ≤ 2000) : ∃ b, serializeTokens net ts = .ok b := by
  induction ts with
  | nil => exact ⟨[], rfl⟩
  | cons t ts ih =>
    obtain ⟨y, hy⟩ := ih (fun u hu => h u (by simp [hu])) (fun u hu => hl u (by simp [hu]))
    have ht : ∃ x, serializeToken net t = .ok x := by
      rcases (h t (by simp)).2 with ⟨c, hc, hc'⟩ | ⟨d, rfl⟩
      · obtain ⟨u, hu, _, h3, h4⟩ := opName_isOk hn hc
        rw [hc'] at hu; cases hu
        exact ⟨_, h4⟩
      · have h1 := (h (toHex d) (by simp)).1
        have h2 := hl (toHex d) (by simp)
        rw [toHex_length] at h2
        have h3 : d.length ≠ 0 := by
          intro h0; rw [List.length_eq_zero_iff] at h0; subst h0; exact h1 rfl
        rw [serializeToken_toHex hn, if_neg h3, if_pos (by omega)]
        exact ⟨_, rfl⟩
    obtain ⟨x, hx⟩ := ht
    exact ⟨x ++ y, by simp only [serializeTokens, hx, hy, ok_bind]⟩

def shortName (net : Network) (b : UInt8) : Bool :=
  match opName net b with
  | .ok t => decide (t.length ≤ 100)
  | .error _ => true

theorem shortName_btc : ∀ n < 256, shortName bitcoinMain (UInt8.ofNat n) = true := by decide +kernel
theorem shortName_dcr : ∀ n < 256, shortName decredMain (UInt8.ofNat n) = true := by decide +kernel

theorem opName_length {net : Network} (hn : net.Supported) {b : UInt8} {t : PyStr} (h : opName net b = .ok t) : t.length ≤ 100 := by
  have hb : b = UInt8.ofNat b.toNat := by simp
  rcases changes_cases net hn with ⟨h', -⟩ | ⟨h', -⟩
  · have := shortName_btc b.toNat b.toNat_lt
    rw [← hb] at this
    unfold shortName at this
    rw [← opName_congr (m := bitcoinMain) h', h] at this
    simpa using this
  · have := shortName_dcr b.toNat b.toNat_lt
    rw [← hb] at this
    unfold shortName at this
    rw [← opName_congr (m := decredMain) h', h] at this
    simpa using this

theorem tokens_big {net : Network} (hn : net.Supported) (ts : List PyStr)
    (h : ∀ t ∈ ts, t ≠ [] ∧ ((∃ c, IsOpByte net.isDecred c ∧ opName net c = .ok t) ∨ ∃ d : Bytes, t = toHex d))
    (hl : ∃ t ∈ ts, 2000 < t.length) (b : Bytes) : serializeTokens net ts ≠ .ok b := by
  intro hb
  obtain ⟨items, hv, -, hf⟩ := serializeTokens_minimal hn ts (fun t ht => (h t ht).2) hb
  obtain ⟨t, ht, hlt⟩ := hl
  clear hb h
  induction hf with
  | nil => simp at ht
  | @cons i u _ _ h1 _ ih =>
    rcases List.mem_cons.1 ht with rfl | ht
    · cases i with
      | op c =>
        have := opName_length hn (t := t) (b := c) h1
        omega
      | push d =>
        have hd := hv (.push d) (by simp)
        have h1' : t = toHex d := h1
        rw [h1', toHex_length] at hlt
        have := hd.2
        omega
    · exact ih (fun j hj => hv j (by simp [hj])) ht

/-- What the split does once its preconditions are met. -/
theorem parseScriptSig_split {net : Network} (hn : net.Supported) {b : Bytes} {s : PyStr} {init : List PyStr} {last x : PyStr}
    {stack : Bytes} (hd : deserialize net b = .ok s) (hsp : pySplit s = init ++ [last]) (hx : hexDeserialize net last = .ok x)
    (hi : serializeTokens net init = .ok stack) :
    (∃ redeem, serializeTokens net [last] = .ok redeem ∧ TxIn.parseScriptSig net b = .ok (stack, redeem)) ∨
      TxIn.parseScriptSig net b = .ok (stack, []) := by
  have hp := printed_tokens hn hd
  rw [hsp] at hp
  unfold TxIn.parseScriptSig
  simp only [hd, ok_bind, hsp, getItem_last, hx, List.dropLast_concat]
  have hj : serialize net (joinSpace init) = serializeTokens net init := by
    unfold serialize
    rw [pySplit_joinSpace_filter init (fun t ht => (hp t (by simp [ht])).2.1), List.filter_eq_self.2]
    intro t ht
    have := (hp t (by simp [ht])).1
    cases t <;> simp at *
  have hj' : serialize net last = serializeTokens net [last] := by
    unfold serialize
    rw [pySplit_token last (hp last (by simp)).1 (hp last (by simp)).2.1]
  simp only [hj, hi, ok_bind, hj']
  cases hl : serializeTokens net [last] with
  | ok redeem => exact .inl ⟨redeem, rfl, rfl⟩
  | error e =>
    right
    have := serializeTokens_error hn [last] (fun t ht => ⟨(hp t (by simp at ht; simp [ht])).1, (hp t (by simp at ht; simp [ht])).2.2⟩) hl
    subst this
    simp

/-- The split of a script sig reassembles to it exactly in these cases. -/
theorem parseScriptSig_exact {net : Network} (hn : net.Supported) (b : Bytes) :
    (∃ x y, TxIn.parseScriptSig net b = .ok (x, y) ∧ x ++ y = b) ↔
      (MinimalScript net.isDecred b ∨ ∀ s init last, deserialize net b = .ok s → pySplit s = init ++ [last] →
        (∀ x, hexDeserialize net last ≠ .ok x) ∨ ∃ t ∈ init, 2000 < t.length) := by
  constructor
  · rintro ⟨x, y, hp, hxy⟩
    by_contra hc
    rw [not_or] at hc
    obtain ⟨hm, hc⟩ := hc
    push Not at hc
    obtain ⟨s, init, last, hd, hsp, ⟨z, hz⟩, hl⟩ := hc
    have hpr := printed_tokens hn hd
    rw [hsp] at hpr
    obtain ⟨stack, hi⟩ := tokens_serialize hn init (fun t ht => ⟨(hpr t (by simp [ht])).1, (hpr t (by simp [ht])).2.2⟩) (fun t ht => Nat.le_of_not_lt (hl t ht))
    rcases parseScriptSig_split hn hd hsp hz hi with ⟨redeem, hr, h⟩ | h
    · rw [h] at hp
      cases hp
      refine hm ((C11_identity_iff_minimal hn b).1 ⟨s, hd, ?_⟩)
      unfold serialize
      rw [hsp, serializeTokens_append, hi, hr, ← hxy]; rfl
    · rw [h] at hp
      cases hp
      rw [List.append_nil] at hxy
      subst hxy
      obtain ⟨items, hv, he, -⟩ := serializeTokens_minimal hn init (fun t ht => (hpr t (by simp [ht])).2.2) hi
      exact hm ⟨items, hv, he⟩
  · rintro (h | h)
    · exact parseScriptSig_minimal hn h
    · rcases parseScriptSig_cases hn b with h1 | ⟨s, init, last, stack, h1, h2, ⟨x, h3⟩, h4, -⟩
      · exact ⟨b, [], h1, by simp⟩
      · have hpr := printed_tokens hn h1
        rw [h2] at hpr
        rcases h s init last h1 h2 with h5 | h5
        · exact absurd h3 (h5 x)
        · exact absurd h4 (tokens_big hn init (fun t ht => ⟨(hpr t (by simp [ht])).1, (hpr t (by simp [ht])).2.2⟩) h5 stack)

/-! ## C39 -/

theorem varBytes_left {p q r s : Bytes} (hp : p.length ≤ 1650) (hq : q.length ≤ 1650) (h : varBytes p ++ r = varBytes q ++ s)
    : p.length = q.length ∧ p ++ r = q ++ s := by
  unfold varBytes at h
  rw [List.append_assoc, List.append_assoc] at h
  exact compactSize_inj (by omega) (by omega) h

/-- C39, exactly: an input parses back to one with the same script sig if and only if its outpoint is null, or the script sig consists of
minimal pushes and named opcodes, or it is left whole: it does not deserialize, its last token is not the hex of a script that
deserializes, or some token before the last is a push of more than 1000 bytes, which cannot be serialized. -/
theorem C39_exact (net : Network) (hn : net.Supported) (t : TxIn) (h : t.Built)
    (hz : (net.isOverwinter = false ∧ net.isSapling = false) ∨ ¬ (253 ≤ t.scriptSig.length ∧ t.scriptSig.length < 256))
    (rest : Bytes) :
    ((∃ t', TxIn.fromBytes net (t.bytes ++ rest) = .ok t' ∧ t'.scriptSig = t.scriptSig) ↔
      ((t.outpoint.txId = List.replicate 32 0x00 ∧ t.outpoint.index = List.replicate 4 0xff) ∨
      MinimalScript net.isDecred t.scriptSig ∨
      ∀ s init last, deserialize net t.scriptSig = .ok s → pySplit s = init ++ [last] →
        (∀ x, hexDeserialize net last ≠ .ok x) ∨ ∃ u ∈ init, 2000 < u.length)) ∧
    ∀ t', TxIn.fromBytes net (t.bytes ++ rest) = .ok t' → t'.outpoint = t.outpoint ∧ t'.sequence = t.sequence ∧
      (t'.scriptSig = t.scriptSig ↔ t'.bytes = t.bytes) := by
  have hnull : (t.outpoint.txId = List.replicate 32 0x00 ∧ t.outpoint.index = List.replicate 4 0xff) ↔
      t.outpoint.bytes = List.replicate 32 0x00 ++ List.replicate 4 0xff := by
    rw [h.eq.1.eq.2.2]
    constructor
    · rintro ⟨h1, h2⟩; rw [h1, h2]
    · intro h1
      exact List.append_inj h1 (by rw [h.eq.1.eq.1, List.length_replicate])
  refine ⟨?_, fun t' h1 => ?_⟩
  rotate_left
  · have key : ∃ ss rs, TxIn.make t.outpoint ss rs t.sequence = .ok t' := by
      rw [TxIn.fromBytes_parts h hz] at h1
      split at h1
      · exact ⟨_, _, h1⟩
      · split at h1
        · exact ⟨_, _, h1⟩
        · obtain ⟨⟨x, y⟩, h3, h4⟩ := bind_ok_iff.1 h1
          exact ⟨_, _, h4⟩
    obtain ⟨ss, rs, hm⟩ := key
    obtain ⟨-, -, hl, rfl⟩ := TxIn.make_iff.1 hm
    refine ⟨rfl, rfl, ?_⟩
    obtain ⟨a, b, c, d, h2, h3⟩ := h
    obtain ⟨-, -, hl', rfl⟩ := TxIn.make_iff.1 h3
    simp only
    constructor
    · intro h4; rw [h4]
    · intro h4
      rw [List.append_assoc, List.append_assoc] at h4
      exact (List.append_inj' (varBytes_left (by rw [List.length_append]; omega) (by rw [List.length_append]; omega) (List.append_cancel_left h4)).2 rfl).1
  constructor
  · rintro ⟨t', h1, h2⟩
    rw [hnull]
    rw [TxIn.fromBytes_parts h hz] at h1
    by_cases h0 : t.scriptSig = []
    · right; left; rw [h0]; exact ⟨[], by simp, rfl⟩
    rw [if_neg h0] at h1
    by_cases ho : t.outpoint.bytes = List.replicate 32 0x00 ++ List.replicate 4 0xff
    · exact .inl ho
    right
    rw [if_neg ho] at h1
    obtain ⟨⟨x, y⟩, h3, h4⟩ := bind_ok_iff.1 h1
    rw [← parseScriptSig_exact hn]
    refine ⟨x, y, h3, ?_⟩
    obtain ⟨-, -, -, rfl⟩ := TxIn.make_iff.1 h4
    exact h2
  · intro hs
    have hs' : t.Stable net := by
      refine ⟨hz, ?_⟩
      rcases hs with h1 | h1
      · exact .inl (hnull.1 h1)
      · exact .inr (.inr (.inr ((parseScriptSig_exact hn _).2 h1)))
    obtain ⟨t', h1, _, h2, h3, h4, h5⟩ := TxIn.fromBytes_bytes hn h hs' rest
    exact ⟨t', h1, h3⟩

/-- C39: how an input is damaged. A last push of more than 1000 bytes that is itself a printable script cannot be serialized again; it is
dropped, and the input parses to one without it. -/
theorem C39_drops (net : Network) (hn : net.Supported) (t : TxIn) (h : t.Built)
    (hz : (net.isOverwinter = false ∧ net.isSapling = false) ∨ ¬ (253 ≤ t.scriptSig.length ∧ t.scriptSig.length < 256))
    (ho : ¬ (t.outpoint.txId = List.replicate 32 0x00 ∧ t.outpoint.index = List.replicate 4 0xff)) (rest : Bytes)
    (s : PyStr) (init : List PyStr) (last x : PyStr) (hd : deserialize net t.scriptSig = .ok s) (hsp : pySplit s = init ++ [last])
    (hx : hexDeserialize net last = .ok x) (hi : ∀ u ∈ init, u.length ≤ 2000) (hl : 2000 < last.length)
    (t' : TxIn) (hp : TxIn.fromBytes net (t.bytes ++ rest) = .ok t') :
    t'.redeemScript = [] ∧ t'.scriptSig ≠ t.scriptSig ∧
      ∃ s', deserialize net t'.scriptSig = .ok s' ∧ pySplit s' = init := by
  have hpr := printed_tokens hn hd
  rw [hsp] at hpr
  obtain ⟨stack, hst⟩ := tokens_serialize hn init (fun t ht => ⟨(hpr t (by simp [ht])).1, (hpr t (by simp [ht])).2.2⟩) hi
  rw [TxIn.fromBytes_parts h hz] at hp
  have h0 : t.scriptSig ≠ [] := by
    intro h0
    rw [h0] at hd
    cases hd
    rw [show pySplit (joinSpace []) = [] from rfl] at hsp
    cases init <;> cases hsp
  rw [if_neg h0, if_neg] at hp
  · obtain ⟨⟨a, b⟩, h3, h4⟩ := bind_ok_iff.1 hp
    obtain ⟨-, -, -, rfl⟩ := TxIn.make_iff.1 h4
    rcases parseScriptSig_split hn hd hsp hx hst with ⟨redeem, hr, -⟩ | h5
    · exact absurd hr (tokens_big hn [last] (by simpa using ⟨(hpr last (by simp)).1, (hpr last (by simp)).2.2⟩) ⟨last, by simp, hl⟩ _)
    · rw [h5] at h3
      cases h3
      obtain ⟨items, hv, rfl, hf⟩ := serializeTokens_minimal hn init (fun t ht => (hpr t (by simp [ht])).2.2) hst
      obtain ⟨us, hf', hne, hsp', hs', hd'⟩ := items_roundtrip hn items hv
      obtain rfl := itemText_functional hf hf'
      have hdd : deserialize net (List.flatMap ScriptItem.wire items) = .ok (joinSpace init) := by
        unfold deserialize; rw [hd']; rfl
      have hss : pySplit (joinSpace init) = init := pySplit_joinSpace _ hne hsp'
      refine ⟨rfl, ?_, ?_⟩
      · intro he
        simp only [List.append_nil] at he
        rw [← he, hdd] at hd
        cases hd
        rw [hss] at hsp
        have := congrArg List.length hsp
        simp at this
      · simp only [List.append_nil]
        exact ⟨_, hdd, hss⟩
  · intro hb
    rw [h.eq.1.eq.2.2] at hb
    exact ho (List.append_inj hb (by rw [h.eq.1.eq.1, List.length_replicate]))

/-- A script of 1001 bytes: one push. -/
def exBig : Bytes := [0x4d, 0xe6, 0x03] ++ List.replicate 998 7

/-- A script sig of 1004 bytes: the push of that script. -/
def exBigPush : Bytes := [0x4d, 0xe9, 0x03] ++ exBig

example : ∃ t : TxIn, t.Built ∧ t.scriptSig = exBigPush ∧
    ¬ (t.outpoint.txId = List.replicate 32 0x00 ∧ t.outpoint.index = List.replicate 4 0xff) ∧
    deserialize bitcoinMain exBigPush = .ok (toHex exBig) ∧ pySplit (toHex exBig) = [] ++ [toHex exBig] ∧
    (∃ x, hexDeserialize bitcoinMain (toHex exBig) = .ok x) ∧ 2000 < (toHex exBig).length := by
  have hl : exBigPush.length = 1004 := by decide +kernel
  have hl' : exBig.length = 1001 := by decide +kernel
  have hs : pySplit (toHex exBig) = [toHex exBig] :=
    pySplit_token _ (toHex_ne_nil (by omega)) (toHex_noSpace _)
  have hd : deserialize bitcoinMain exBigPush = .ok (toHex exBig) := by decide +kernel
  have hx : hexDeserialize bitcoinMain (toHex exBig) = .ok (toHex (List.replicate 998 7)) := by
    unfold hexDeserialize; rw [fromHex_toHex, ok_bind]; decide +kernel
  generalize exBigPush = b at *
  refine ⟨⟨exOutpoint, b, [], b ++ [], [0, 0, 0, 0], exOutpoint.bytes ++ varBytes (b ++ []) ++ [0, 0, 0, 0]⟩,
    ⟨exOutpoint, b, [], [0, 0, 0, 0], exOutpoint_built, TxIn.make_iff.2 ⟨by decide, rfl, by rw [hl]; decide, rfl⟩⟩, by simp,
    (by decide : ¬ (exOutpoint.txId = List.replicate 32 0x00 ∧ exOutpoint.index = List.replicate 4 0xff)), hd, hs, ⟨_, hx⟩, by rw [toHex_length]; omega⟩

example : exIn.Built ∧ MinimalScript false exIn.scriptSig := ⟨exIn_built, [.push [7], .push [0x51, 0x51]], by
  simp [ScriptItem.Valid], by decide⟩

end Verif.Props
