import Verif.Lemmas.TxParse

namespace Verif
open Spec Props

/-! ### parsing serialized elements back -/

theorem Outpoint.fromBytes_bytes {o : Outpoint} (h : o.Built) (rest : Bytes) : Outpoint.fromBytes (o.bytes ++ rest) = .ok o := by
  obtain ⟨h1, h2, h3⟩ := h.eq
  unfold Outpoint.fromBytes
  rw [h3, List.append_assoc, slice_zero_append' _ _ _ h1, slice_mid _ _ _ _ _ h1 (by rw [h2])]
  rw [Outpoint.make_iff]
  refine ⟨h1, h2, ?_⟩
  cases o; simp only at *; rw [h3]

theorem LenOK.small {net : Network} {n : Nat} (h : n < 253) : LenOK net n := .inr (by omega)

theorem TxOut.fromBytes_bytes {net : Network} {o : TxOut} (h : o.Built) (hs : o.outputScript.length < 252) (rest : Bytes) :
    TxOut.fromBytes net (o.bytes ++ rest) = .ok o := by
  obtain ⟨h1, h2, h3⟩ := h.eq
  unfold TxOut.fromBytes
  rw [h3]
  unfold wireOut varBytes
  simp only [List.append_assoc]
  rw [List.drop_left' h1, VarInt.fromBytes_len h2 (LenOK.small (by omega)), ok_bind]
  simp only []
  rw [if_pos (by omega), slice_zero_append' _ _ _ h1, ← List.append_assoc,
    slice_mid _ _ _ _ _ (by simp [h1]) rfl, TxOut.make_iff]
  refine ⟨h1, h2, ?_⟩
  cases o; simp only at *; rw [h3]

theorem TxOut.fromBytes_long {net : Network} {o : TxOut} (h : o.Built) (hs : ¬ o.outputScript.length < 252)
    (hz : LenOK net o.outputScript.length) (rest : Bytes) :
    TxOut.fromBytes net (o.bytes ++ rest) = .error .notImplementedError := by
  obtain ⟨h1, h2, h3⟩ := h.eq
  unfold TxOut.fromBytes
  rw [h3]
  unfold wireOut varBytes
  simp only [List.append_assoc]
  rw [List.drop_left' h1, VarInt.fromBytes_len h2 hz, ok_bind]
  simp only []
  rw [if_neg (by omega)]

theorem WitnessStackItem.fromBytes_bytes {net : Network} {w : WitnessStackItem} (h : w.Built) (hz : LenOK net w.item.length)
    (rest : Bytes) : WitnessStackItem.fromBytes net (w.bytes ++ rest) = .ok w := by
  obtain ⟨h1, h2⟩ := h.eq
  unfold WitnessStackItem.fromBytes
  rw [h2]
  unfold varBytes
  rw [List.append_assoc, VarInt.fromBytes_len h1 hz, ok_bind]
  simp only []
  rw [slice_mid _ _ _ _ _ rfl rfl, WitnessStackItem.make_iff]
  refine ⟨h1, ?_⟩
  cases w; simp only at *; rw [h2]

/-- The parsing loop on the concatenated bytes of objects that parse back (up to `R`). -/
theorem parseMany_bytes {α : Type} {f : Bytes → Py α} {bytes : α → Bytes} {R : α → α → Prop}
    (xs : List α) (hf : ∀ x ∈ xs, ∀ rest, ∃ x', f (bytes x ++ rest) = .ok x' ∧ R x x' ∧ bytes x' = bytes x) (pre rest : Bytes) :
    ∃ xs', parseMany f (fun x => (bytes x).length) (pre ++ ((xs.map bytes).flatten ++ rest)) xs.length pre.length =
      .ok (xs', pre.length + ((xs.map bytes).flatten).length) ∧ List.Forall₂ R xs xs' ∧ xs'.map bytes = xs.map bytes := by
  induction xs generalizing pre with
  | nil => exact ⟨[], rfl, .nil, rfl⟩
  | cons x xs ih =>
    obtain ⟨x', h1, h2, h3⟩ := hf x (by simp) ((xs.map bytes).flatten ++ rest)
    obtain ⟨xs', i1, i2, i3⟩ := ih (fun y hy => hf y (by simp [hy])) (pre ++ bytes x)
    refine ⟨x' :: xs', ?_, .cons h2 i2, by simp [h3, i3]⟩
    simp only [List.length_cons, parseMany, List.map_cons, List.flatten_cons, List.append_assoc, List.drop_left]
    rw [h1, ok_bind, h3]
    simp only [List.length_append, List.append_assoc] at i1
    rw [i1, ok_bind, Nat.add_assoc, List.length_append]

theorem forall₂_eq {α : Type} {xs ys : List α} (h : List.Forall₂ (fun a b => a = b) xs ys) : xs = ys := by
  induction h with
  | nil => rfl
  | cons h _ ih => rw [h, ih]

theorem parseMany_bytes_eq {α : Type} {f : Bytes → Py α} {bytes : α → Bytes}
    (xs : List α) (hf : ∀ x ∈ xs, ∀ rest, f (bytes x ++ rest) = .ok x) (pre rest : Bytes) :
    parseMany f (fun x => (bytes x).length) (pre ++ ((xs.map bytes).flatten ++ rest)) xs.length pre.length =
      .ok (xs, pre.length + ((xs.map bytes).flatten).length) := by
  obtain ⟨xs', h1, h2, _⟩ := parseMany_bytes (R := fun a b => a = b) xs (fun x hx rest => ⟨x, hf x hx rest, rfl, rfl⟩) pre rest
  rw [h1, forall₂_eq h2]

/-- The lengths inside a witness that the Zcash rule does not reject. -/
def InputWitness.LenOK (net : Network) (w : InputWitness) : Prop :=
  Verif.LenOK net w.stack.length ∧ ∀ i ∈ w.stack, Verif.LenOK net i.item.length

theorem InputWitness.fromBytes_bytes {net : Network} {w : InputWitness} (h : w.Built) (hz : w.LenOK net)
    (rest : Bytes) : InputWitness.fromBytes net (w.bytes ++ rest) = .ok w := by
  obtain ⟨h0, h1, h2, -⟩ := h.eq
  unfold InputWitness.fromBytes
  rw [h2]
  unfold vector
  rw [List.append_assoc, VarInt.fromBytes_len (by simpa using h1) (by simpa using hz.1), ok_bind]
  simp only []
  have := parseMany_bytes_eq (f := WitnessStackItem.fromBytes net) (bytes := (·.bytes)) w.stack
    (fun x hx rest => WitnessStackItem.fromBytes_bytes (h0 x hx) (hz.2 x hx) rest)
    (compactSize (w.stack.map (·.bytes)).length) rest
  rw [List.length_map] at *
  rw [this, ok_bind]
  simp only []
  rw [InputWitness.make_iff]
  refine ⟨h1, ?_⟩
  cases w; simp only at *; rw [h2]

/-! ### script sigs -/

theorem deserializeTokens_error (net : Network) : ∀ (k : Nat) (b : Bytes) (e : PyErr), b.length ≤ k →
    deserializeTokens net b = .error e → e = .indexError ∨ e = .valueError ∨ e = .notImplementedError := by
  intro k
  induction k with
  | zero =>
    intro b e hb h
    rw [List.length_eq_zero_iff.1 (Nat.le_zero.1 hb)] at h
    cases h
  | succ k ih =>
    intro b e hb h
    cases b with
    | nil => cases h
    | cons cur rest =>
      simp only [List.length_cons] at hb
      rw [deserializeTokens_cons] at h
      by_cases c1 : cur = 0xab
      · rw [if_pos c1] at h; cases h; simp
      rw [if_neg c1] at h
      by_cases c2 : cur.toNat ≤ 75 ∧ cur ≠ 0
      · rw [if_pos c2] at h
        by_cases c3 : rest.length < cur.toNat
        · rw [if_pos c3] at h; cases h; simp
        rw [if_neg c3] at h
        rcases bind_error_iff.1 h with h | ⟨_, _, h⟩
        · exact ih _ _ (by simp; omega) h
        · cases h
      rw [if_neg c2] at h
      by_cases c3 : cur = 76
      · rw [if_pos c3] at h
        cases rest with
        | nil => cases h; simp
        | cons l rest =>
          rcases bind_error_iff.1 h with h | ⟨_, _, h⟩
          · exact ih _ _ (by simp at *; omega) h
          · cases h
      rw [if_neg c3] at h
      by_cases c4 : cur = 77
      · rw [if_pos c4] at h
        rcases bind_error_iff.1 h with h | ⟨_, _, h⟩
        · exact ih _ _ (by simp; omega) h
        · cases h
      rw [if_neg c4] at h
      by_cases c5 : cur = 78
      · rw [if_pos c5] at h; cases h; simp
      rw [if_neg c5] at h
      rcases bind_error_iff.1 h with h | ⟨_, _, h⟩
      · unfold opName at h
        split at h
        · cases h
        · split at h
          · cases h
          · cases h; simp
      · rcases bind_error_iff.1 h with h | ⟨_, _, h⟩
        · exact ih _ _ (by omega) h
        · cases h

theorem deserialize_error {net : Network} {b : Bytes} {e : PyErr} (h : deserialize net b = .error e) :
    e = .indexError ∨ e = .valueError ∨ e = .notImplementedError := by
  unfold deserialize at h
  rcases bind_error_iff.1 h with h | ⟨_, _, h⟩
  · exact deserializeTokens_error net _ b e (Nat.le_refl _) h
  · cases h

theorem fromHex_error : ∀ (s : PyStr) (e : PyErr), fromHex s = .error e → e = .valueError
  | [], e, h => by cases h
  | c :: [], e, h => by
    unfold fromHex at h
    split at h
    · cases h
    · cases h; rfl
  | c :: d :: ds, e, h => by
    unfold fromHex at h
    split at h
    · exact fromHex_error (d :: ds) e h
    · simp only [] at h
      split at h
      · split at h
        · cases h
        · rename_i e' he
          cases h
          exact fromHex_error ds _ he
      · cases h; rfl

theorem hexDeserialize_error {net : Network} {s : PyStr} {e : PyErr} (h : hexDeserialize net s = .error e) :
    e = .indexError ∨ e = .valueError ∨ e = .notImplementedError := by
  unfold hexDeserialize at h
  rcases bind_error_iff.1 h with h | ⟨_, _, h⟩
  · rw [fromHex_error _ _ h]; simp
  · exact deserialize_error h

theorem serializeTokens_error {net : Network} (hn : net.Supported) (ts : List PyStr)
    (h : ∀ t ∈ ts, t ≠ [] ∧ ((∃ c, IsOpByte net.isDecred c ∧ opName net c = .ok t) ∨ ∃ d : Bytes, t = toHex d)) {e : PyErr}
    (he : serializeTokens net ts = .error e) : e = .notImplementedError := by
  induction ts with
  | nil => cases he
  | cons t ts ih =>
    unfold serializeTokens at he
    rcases bind_error_iff.1 he with he | ⟨_, _, he⟩
    · obtain ⟨hne, hc⟩ := h t (by simp)
      rcases hc with ⟨c, hc, hc'⟩ | ⟨d, rfl⟩
      · obtain ⟨u, hu, _, _, h4⟩ := opName_isOk hn hc
        rw [hc'] at hu; cases hu
        rw [h4] at he; cases he
      · rw [serializeToken_toHex hn] at he
        split at he
        · rename_i hd
          rw [List.length_eq_zero_iff.1 hd] at hne
          exact absurd rfl hne
        · split at he
          · cases he
          · cases he; rfl
    · rcases bind_error_iff.1 he with he | ⟨_, _, he⟩
      · exact ih (fun t ht => h t (by simp [ht])) he
      · cases he

/-- The tokens of a printed script. -/
theorem printed_tokens {net : Network} (hn : net.Supported) {b : Bytes} {s : PyStr} (h : deserialize net b = .ok s) :
    ∀ t ∈ pySplit s, t ≠ [] ∧ (∀ c ∈ t, isPySpace c = false) ∧
      ((∃ c, IsOpByte net.isDecred c ∧ opName net c = .ok t) ∨ ∃ d : Bytes, t = toHex d) := by
  unfold deserialize at h
  obtain ⟨ts, hts, h⟩ := bind_ok_iff.1 h
  cases h
  rw [pySplit_joinSpace_filter ts (deserialized_noSpace hn hts)]
  intro t ht
  obtain ⟨h1, h2⟩ := List.mem_filter.1 ht
  exact ⟨by rintro rfl; simp at h2, deserialized_noSpace hn hts t h1, deserialized_canon hn hts t h1⟩

theorem getItem_last {α : Type} (l : List α) (x : α) : getItem (l ++ [x]) (-1) = .ok x := by
  unfold getItem pyIndex
  rw [if_neg (by omega), if_pos (by simp only [List.length_append, List.length_singleton]; omega)]
  have : (-1 + ((l ++ [x]).length : Int)).toNat = l.length := by simp only [List.length_append, List.length_singleton]; omega
  simp only [this]
  simp

theorem getItem_nil {α : Type} : getItem ([] : List α) (-1) = .error .indexError := rfl

/-- What `_parse_script_sig` does to a script that is not a `<stack script> <redeem script>` pair: leave it. -/
theorem parseScriptSig_cases {net : Network} (hn : net.Supported) (b : Bytes) :
    TxIn.parseScriptSig net b = .ok (b, []) ∨
    ∃ s init last stack, deserialize net b = .ok s ∧ pySplit s = init ++ [last] ∧ (∃ x, hexDeserialize net last = .ok x) ∧
      serializeTokens net init = .ok stack ∧
      ((∃ redeem, serializeTokens net [last] = .ok redeem ∧ TxIn.parseScriptSig net b = .ok (stack, redeem)) ∨
       (serializeTokens net [last] = .error .notImplementedError ∧ TxIn.parseScriptSig net b = .ok (stack, []))) := by
  unfold TxIn.parseScriptSig
  cases hd : deserialize net b with
  | error e =>
    left
    rcases deserialize_error hd with rfl | rfl | rfl <;> simp
  | ok s =>
    simp only [ok_bind]
    have hp := printed_tokens hn hd
    rcases List.eq_nil_or_concat (pySplit s) with h0 | ⟨init, last, h0⟩
    · left; rw [h0, getItem_nil]; simp
    · rw [List.concat_eq_append] at h0
      rw [h0] at hp
      rw [h0, getItem_last, ok_bind]
      cases hx : hexDeserialize net last with
      | error e =>
        left
        rcases hexDeserialize_error hx with rfl | rfl | rfl <;> simp
      | ok x =>
        rw [ok_bind, List.dropLast_concat]
        have hj : serialize net (joinSpace init) = serializeTokens net init := by
          unfold serialize
          rw [pySplit_joinSpace_filter init (fun t ht => (hp t (by simp [ht])).2.1), List.filter_eq_self.2]
          intro t ht
          have := (hp t (by simp [ht])).1
          cases t <;> simp at *
        have hj' : serialize net last = serializeTokens net [last] := by
          unfold serialize
          rw [pySplit_token last (hp last (by simp)).1 (hp last (by simp)).2.1]
        rw [hj]
        cases hi : serializeTokens net init with
        | error e =>
          left
          rw [serializeTokens_error hn init (fun t ht => ⟨(hp t (by simp [ht])).1, (hp t (by simp [ht])).2.2⟩) hi]
          simp
        | ok stack =>
          right
          refine ⟨s, init, last, stack, rfl, h0, ⟨x, hx⟩, hi, ?_⟩
          simp only [ok_bind, hj']
          cases hl : serializeTokens net [last] with
          | ok redeem => exact .inl ⟨redeem, rfl, rfl⟩
          | error e =>
            right
            have := serializeTokens_error hn [last] (fun t ht => ⟨(hp t (by simp at ht; simp [ht])).1, (hp t (by simp at ht; simp [ht])).2.2⟩) hl
            subst this
            exact ⟨rfl, by simp⟩

/-- Splitting a minimal script loses nothing. -/
theorem parseScriptSig_minimal {net : Network} (hn : net.Supported) {b : Bytes} (h : MinimalScript net.isDecred b) :
    ∃ x y, TxIn.parseScriptSig net b = .ok (x, y) ∧ x ++ y = b := by
  rcases parseScriptSig_cases hn b with h1 | ⟨s, init, last, stack, h1, h2, -, h3, h4⟩
  · exact ⟨b, [], h1, by simp⟩
  · obtain ⟨s', h5, h6⟩ := (C11_identity_iff_minimal hn b).2 h
    rw [h1] at h5; cases h5
    unfold serialize at h6
    rw [h2, serializeTokens_append, h3, ok_bind] at h6
    rcases h4 with ⟨redeem, h7, h8⟩ | ⟨h7, -⟩
    · rw [h7, ok_bind] at h6
      cases h6
      exact ⟨stack, redeem, h8, rfl⟩
    · rw [h7] at h6; cases h6

/-- The last element of the script is not itself a script the library can print. -/
def LastNotScript (net : Network) (b : Bytes) : Prop :=
  ∀ s init last, deserialize net b = .ok s → pySplit s = init ++ [last] → ∀ x, hexDeserialize net last ≠ .ok x

theorem parseScriptSig_lastNotScript {net : Network} (hn : net.Supported) {b : Bytes} (h : LastNotScript net b) :
    TxIn.parseScriptSig net b = .ok (b, []) := by
  rcases parseScriptSig_cases hn b with h1 | ⟨s, init, last, stack, h1, h2, ⟨x, h3⟩, -⟩
  · exact h1
  · exact absurd h3 (h s init last h1 h2 x)

/-- Inputs that parse back to the same bytes. The last alternative says so of the split itself; the others are sufficient for it and
do not mention the split. -/
def TxIn.Stable (net : Network) (t : TxIn) : Prop :=
  LenOK net t.scriptSig.length ∧
  (t.outpoint.bytes = List.replicate 32 0x00 ++ List.replicate 4 0xff ∨ MinimalScript net.isDecred t.scriptSig ∨
    LastNotScript net t.scriptSig ∨ ∃ x y, TxIn.parseScriptSig net t.scriptSig = .ok (x, y) ∧ x ++ y = t.scriptSig)

theorem Outpoint.null_eq : Outpoint.null = .ok ⟨List.replicate 32 0x00, List.replicate 4 0xff, List.replicate 32 0x00 ++ List.replicate 4 0xff⟩ := by
  decide

theorem TxIn.fromBytes_parts {net : Network} {t : TxIn} (h : t.Built) (hz : LenOK net t.scriptSig.length) (rest : Bytes) :
    TxIn.fromBytes net (t.bytes ++ rest) =
      (if t.scriptSig = [] then TxIn.make t.outpoint [] [] t.sequence
      else if t.outpoint.bytes = List.replicate 32 0x00 ++ List.replicate 4 0xff then TxIn.make t.outpoint t.scriptSig [] t.sequence
      else do
        let (x, y) ← TxIn.parseScriptSig net t.scriptSig
        TxIn.make t.outpoint x y t.sequence) := by
  obtain ⟨h1, h2, h3, h4, h5⟩ := h.eq
  have ho := h1.length
  unfold TxIn.fromBytes
  rw [h5]
  unfold varBytes
  simp only [List.append_assoc]
  rw [slice_zero_append' _ _ _ ho]
  have := Outpoint.fromBytes_bytes h1 []
  rw [List.append_nil] at this
  rw [this, ok_bind]
  have e : slice (t.outpoint.bytes ++ (compactSize t.scriptSig.length ++ (t.scriptSig ++ (t.sequence ++ rest)))) 36 45 =
      compactSize t.scriptSig.length ++ (t.scriptSig ++ (t.sequence ++ rest)).take (9 - (compactSize t.scriptSig.length).length) := by
    have hc := compactSize_le t.scriptSig.length
    unfold slice
    rw [List.take_append, List.drop_append, ho, List.drop_eq_nil_of_le (by simp [ho]), List.take_append,
      List.take_of_length_le (i := 45 - 36) (by omega)]
    simp [ho]
  rw [e, VarInt.fromBytes_len (by omega) hz, ok_bind, Outpoint.null_eq]
  simp only [ok_bind]
  have e2 : slice (t.outpoint.bytes ++ (compactSize t.scriptSig.length ++ (t.scriptSig ++ (t.sequence ++ rest))))
      (36 + (compactSize t.scriptSig.length).length) (36 + (compactSize t.scriptSig.length).length + t.scriptSig.length) = t.scriptSig := by
    rw [← List.append_assoc, slice_mid _ _ _ _ _ (by simp [ho]) rfl]
  have e3 : slice (t.outpoint.bytes ++ (compactSize t.scriptSig.length ++ (t.scriptSig ++ (t.sequence ++ rest))))
      (36 + (compactSize t.scriptSig.length).length + t.scriptSig.length)
      (36 + (compactSize t.scriptSig.length).length + t.scriptSig.length + 4) = t.sequence := by
    rw [← List.append_assoc, ← List.append_assoc, slice_mid _ _ _ _ _ (by simp [ho]; omega) (by rw [h2])]
  rw [e2, e3]

theorem TxIn.fromBytes_bytes {net : Network} (hn : net.Supported) {t : TxIn} (h : t.Built) (hs : t.Stable net) (rest : Bytes) :
    ∃ t', TxIn.fromBytes net (t.bytes ++ rest) = .ok t' ∧ t'.Built ∧ t'.outpoint = t.outpoint ∧ t'.scriptSig = t.scriptSig ∧
      t'.sequence = t.sequence ∧ t'.bytes = t.bytes := by
  rw [TxIn.fromBytes_parts h hs.1]
  obtain ⟨h1, h2, h3, h4, h5⟩ := h.eq
  have fin : ∀ x y, x ++ y = t.scriptSig → ∃ t', TxIn.make t.outpoint x y t.sequence = .ok t' ∧ t'.Built ∧ t'.outpoint = t.outpoint ∧
      t'.scriptSig = t.scriptSig ∧ t'.sequence = t.sequence ∧ t'.bytes = t.bytes := by
    intro x y hxy
    have hm := TxIn.make_iff (o := t.outpoint) (ss := x) (rs := y) (sq := t.sequence) |>.2 ⟨h1.length, h2, by
      rw [← List.length_append, hxy]; exact h4, rfl⟩
    refine ⟨_, hm, ⟨_, _, _, _, h1, hm⟩, rfl, hxy, rfl, ?_⟩
    simp only []
    rw [h5, hxy]
  by_cases c1 : t.scriptSig = []
  · rw [if_pos c1]; exact fin [] [] (by rw [c1]; rfl)
  rw [if_neg c1]
  by_cases c2 : t.outpoint.bytes = List.replicate 32 0x00 ++ List.replicate 4 0xff
  · rw [if_pos c2]; exact fin _ [] (by simp)
  rw [if_neg c2]
  rcases hs.2 with h6 | h6 | h6 | ⟨x, y, h7, h8⟩
  · exact absurd h6 c2
  · obtain ⟨x, y, h7, h8⟩ := parseScriptSig_minimal hn h6
    rw [h7, ok_bind]
    exact fin x y h8
  · rw [parseScriptSig_lastNotScript hn h6, ok_bind]
    exact fin t.scriptSig [] (by simp)
  · rw [h7, ok_bind]
    exact fin x y h8

/-- Splitting what a split has given loses nothing. -/
theorem parseScriptSig_idem {net : Network} (hn : net.Supported) {b x y : Bytes} (h : TxIn.parseScriptSig net b = .ok (x, y)) :
    ∃ x' y', TxIn.parseScriptSig net (x ++ y) = .ok (x', y') ∧ x' ++ y' = x ++ y := by
  rcases parseScriptSig_cases hn b with h1 | ⟨s, init, last, stack, h1, h2, -, h3, h4⟩
  · rw [h1] at h; cases h
    exact ⟨b, [], by rw [List.append_nil]; exact h1, by simp⟩
  · have hp := printed_tokens hn h1
    rw [h2] at hp
    rcases h4 with ⟨redeem, h5, h6⟩ | ⟨h5, h6⟩
    · rw [h6] at h; cases h
      apply parseScriptSig_minimal hn
      have h7 : serializeTokens net (init ++ [last]) = .ok (x ++ y) := by rw [serializeTokens_append, h3, h5]; rfl
      obtain ⟨items, hv, he, _⟩ := serializeTokens_minimal hn _ (fun t ht => (hp t ht).2.2) h7
      exact ⟨items, hv, he⟩
    · rw [h6] at h; cases h
      apply parseScriptSig_minimal hn
      rw [List.append_nil]
      obtain ⟨items, hv, he, _⟩ := serializeTokens_minimal hn _ (fun t ht => (hp t (by simp [ht])).2.2) h3
      exact ⟨items, hv, he⟩

end Verif
