import Verif.Lemmas.Script

/-! Properties C10–C15: script serialization and deserialization. -/

namespace Verif.Props
open Verif Spec

/-! ## C10 -/

/-- A canonical token on a network: an opcode name as `deserialize` prints it, or the lowercase hex of 1..1000 bytes. -/
def CanonTok (net : Network) (t : PyStr) : Prop :=
  (∃ b : UInt8, deserialize net [b] = .ok t ∧ t ≠ []) ∨ ∃ d : Bytes, 1 ≤ d.length ∧ d.length ≤ 1000 ∧ t = toHex d

theorem single_byte {net : Network} (hn : net.Supported) {b : UInt8} {t : PyStr} (h : deserialize net [b] = .ok t)
    (ht : t ≠ []) : IsOpByte net.isDecred b ∧ opName net b = .ok t := by
  unfold deserialize at h
  obtain ⟨ts, hts, h⟩ := bind_ok_iff.1 h
  cases h
  rw [deserializeTokens_cons] at hts
  split at hts; · simp at hts
  rename_i hab
  split at hts
  · rename_i hp
    rw [if_pos] at hts
    · simp at hts
    · have : b.toNat ≠ 0 := fun h => hp.2 (UInt8.toNat_inj.1 h)
      simp; omega
  rename_i hnp
  split at hts; · simp at hts
  rename_i h76
  split at hts
  · simp [leToNat, deserializeTokens_nil, slice, toHex] at hts
    subst hts; exact absurd rfl ht
  rename_i h77
  split at hts; · simp at hts
  rename_i h78
  obtain ⟨t0, ht0, hts⟩ := bind_ok_iff.1 hts
  rw [deserializeTokens_nil] at hts
  cases hts
  refine ⟨(opName_ok hn ht0 ?_ hab).1, ht0⟩
  by_cases hc0 : b = 0
  · exact .inl hc0
  · right
    have h1 : ¬ b.toNat ≤ 75 := fun h => hnp ⟨h, hc0⟩
    have h2 : b.toNat ≠ 76 := fun h => h76 (UInt8.toNat_inj.1 h)
    have h3 : b.toNat ≠ 77 := fun h => h77 (UInt8.toNat_inj.1 h)
    have h4 : b.toNat ≠ 78 := fun h => h78 (UInt8.toNat_inj.1 h)
    omega

theorem canon_items {net : Network} (hn : net.Supported) (ts : List PyStr) (h : ∀ t ∈ ts, CanonTok net t) :
    ∃ items : List ScriptItem, (∀ i ∈ items, i.Valid net.isDecred) ∧ List.Forall₂ (ItemText net) items ts := by
  induction ts with
  | nil => exact ⟨[], by simp, .nil⟩
  | cons t ts ih =>
    obtain ⟨is, h1, h2⟩ := ih (fun u hu => h u (by simp [hu]))
    rcases h t (by simp) with ⟨b, hb, hne⟩ | ⟨d, hd1, hd2, rfl⟩
    · obtain ⟨ha, hb'⟩ := single_byte hn hb hne
      exact ⟨.op b :: is, by simpa [ScriptItem.Valid, ha] using h1, .cons hb' h2⟩
    · exact ⟨.push d :: is, by simpa [ScriptItem.Valid, hd1, hd2] using h1, .cons rfl h2⟩

theorem itemText_functional {net : Network} {items : List ScriptItem} {ts us : List PyStr}
    (h1 : List.Forall₂ (ItemText net) items ts) (h2 : List.Forall₂ (ItemText net) items us) : ts = us := by
  induction h1 generalizing us with
  | nil => cases h2; rfl
  | @cons i t is ts hi _ ih =>
    cases h2 with
    | @cons _ u _ us hu h2 =>
      rw [ih h2]
      cases i with
      | op b => have : Except.ok t = Except.ok u := hi.symm.trans hu
                cases this; rfl
      | push d => have h1 : t = toHex d := hi
                  have h2 : u = toHex d := hu
                  rw [h1, h2]

/-- C10: deserialize inverts serialize on canonical token sequences of any length, on every supported network. -/
theorem C10_roundtrip {net : Network} (hn : net.Supported) (ts : List PyStr) (h : ∀ t ∈ ts, CanonTok net t) :
    ∃ b, serialize net (joinSpace ts) = .ok b ∧ deserialize net b = .ok (joinSpace ts) := by
  obtain ⟨items, hv, hf⟩ := canon_items hn ts h
  obtain ⟨us, hf', hne, hsp, hs, hd⟩ := items_roundtrip hn items hv
  obtain rfl := itemText_functional hf hf'
  refine ⟨items.flatMap ScriptItem.wire, ?_, ?_⟩
  · unfold serialize; rw [pySplit_joinSpace ts hne hsp]; exact hs
  · unfold deserialize; rw [hd]; rfl

/-- `Layout ts s`: the text `s` is the tokens `ts` in order, separated by non-empty whitespace, with optional whitespace around. -/
inductive Layout : List PyStr → PyStr → Prop where
  | blank (w : PyStr) : (∀ c ∈ w, isPySpace c = true) → Layout [] w
  | last (w t w' : PyStr) : (∀ c ∈ w, isPySpace c = true) → (∀ c ∈ w', isPySpace c = true) → Layout [t] (w ++ t ++ w')
  | cons (w t : PyStr) (c : Char) (ts : List PyStr) (s : PyStr) : (∀ c ∈ w, isPySpace c = true) → isPySpace c = true →
      Layout ts s → Layout (t :: ts) (w ++ t ++ c :: s)

theorem pySplit_blank (w s : PyStr) (h : ∀ c ∈ w, isPySpace c = true) : pySplit (w ++ s) = pySplit s := by
  unfold pySplit
  induction w with
  | nil => rfl
  | cons c w ih => simp [splitAux, h c (by simp), ih (fun d hd => h d (by simp [hd]))]

theorem splitAux_sep (cur : PyStr) (c : Char) (s s' : PyStr) (hc : isPySpace c = true) :
    splitAux cur (s ++ c :: s') = splitAux cur s ++ pySplit s' := by
  induction s generalizing cur with
  | nil => simp only [List.nil_append, splitAux, hc, if_true]; split <;> simp [pySplit]
  | cons d s ih =>
    simp only [List.cons_append, splitAux]
    split
    · split <;> simp [ih]
    · exact ih _

theorem pySplit_token (t : PyStr) (h1 : t ≠ []) (h2 : ∀ c ∈ t, isPySpace c = false) : pySplit t = [t] := by
  have := pySplit_joinSpace [t] (by simpa using h1) (by simpa using h2)
  simpa [joinSpace] using this

theorem pySplit_layout {ts : List PyStr} {s : PyStr} (h : Layout ts s) (hne : ∀ t ∈ ts, t ≠ [])
    (hsp : ∀ t ∈ ts, ∀ c ∈ t, isPySpace c = false) : pySplit s = ts := by
  induction h with
  | blank w hw => have := pySplit_blank w [] hw; simpa [pySplit, splitAux] using this
  | last w t w' hw hw' =>
    rw [List.append_assoc, pySplit_blank _ _ hw]
    have ht := pySplit_token t (hne t (by simp)) (hsp t (by simp))
    cases w' with
    | nil => simpa using ht
    | cons c w' =>
      have := splitAux_sep [] c t w' (hw' c (by simp))
      unfold pySplit at *
      rw [this, ht]
      have := pySplit_blank w' [] (fun d hd => hw' d (by simp [hd]))
      simpa [pySplit, splitAux] using this
  | cons w t c ts s hw hc _ ih =>
    rw [List.append_assoc, pySplit_blank _ _ hw]
    have ht := pySplit_token t (hne t (by simp)) (hsp t (by simp))
    have := splitAux_sep [] c t s hc
    have ih' := ih (fun u hu => hne u (by simp [hu])) (fun u hu => hsp u (by simp [hu]))
    unfold pySplit at *
    rw [this, ht, ih']; rfl

/-- C10: the amount and kind of whitespace between (and around) tokens does not matter. -/
theorem C10_whitespace (net : Network) {ts : List PyStr} {s : PyStr} (h : Layout ts s) (hne : ∀ t ∈ ts, t ≠ [])
    (hsp : ∀ t ∈ ts, ∀ c ∈ t, isPySpace c = false) : serialize net s = serialize net (joinSpace ts) := by
  unfold serialize; rw [pySplit_layout h hne hsp, pySplit_joinSpace ts hne hsp]

example : CanonTok bitcoinMain (pystr "OP_DUP") ∧ CanonTok bitcoinMain (pystr "deadbeef") :=
  ⟨.inl ⟨118, by decide +kernel, by decide⟩, .inr ⟨[0xde, 0xad, 0xbe, 0xef], by decide, by decide, by decide⟩⟩

example : Layout [pystr "OP_DUP", pystr "aa"] (pystr " OP_DUP  aa\n") :=
  .cons (pystr " ") (pystr "OP_DUP") ' ' [pystr "aa"] (pystr " aa\n") (by decide) (by decide)
    (.last (pystr " ") (pystr "aa") (pystr "\n") (by decide) (by decide))

/-! ## C11 -/

theorem deserialized_canon {net : Network} (hn : net.Supported) {b : Bytes} {ts : List PyStr}
    (h : deserializeTokens net b = .ok ts) : ∀ t ∈ ts, (∃ c, IsOpByte net.isDecred c ∧ opName net c = .ok t) ∨ ∃ d : Bytes, t = toHex d :=
  deserializeTokens_ok hn b.length b ts (Nat.le_refl _) h

theorem deserialized_noSpace {net : Network} (hn : net.Supported) {b : Bytes} {ts : List PyStr}
    (h : deserializeTokens net b = .ok ts) : ∀ t ∈ ts, ∀ c ∈ t, isPySpace c = false := by
  intro t ht
  rcases deserialized_canon hn h t ht with ⟨c, hc, hc'⟩ | ⟨d, rfl⟩
  · obtain ⟨u, hu, _, h3, _⟩ := opName_isOk hn hc
    rw [hc'] at hu; cases hu; exact h3
  · exact toHex_noSpace d

/-- serializing tokens that are names or hex gives a minimal script -/
theorem serializeTokens_minimal {net : Network} (hn : net.Supported) (ts : List PyStr)
    (h : ∀ t ∈ ts, (∃ c, IsOpByte net.isDecred c ∧ opName net c = .ok t) ∨ ∃ d : Bytes, t = toHex d) {b : Bytes}
    (hb : serializeTokens net ts = .ok b) :
    ∃ items : List ScriptItem, (∀ i ∈ items, i.Valid net.isDecred) ∧ b = items.flatMap ScriptItem.wire ∧
      List.Forall₂ (ItemText net) items ts := by
  induction ts generalizing b with
  | nil => cases hb; exact ⟨[], by simp, by simp, .nil⟩
  | cons t ts ih =>
    simp only [serializeTokens] at hb
    obtain ⟨x, hx, hb⟩ := bind_ok_iff.1 hb
    obtain ⟨y, hy, hb⟩ := bind_ok_iff.1 hb
    cases hb
    obtain ⟨items, hv, rfl, hf⟩ := ih (fun u hu => h u (by simp [hu])) hy
    rcases h t (by simp) with ⟨c, hc, hc'⟩ | ⟨d, rfl⟩
    · obtain ⟨u, hu, _, h3, h4⟩ := opName_isOk hn hc
      rw [hc'] at hu; cases hu
      rw [h4] at hx; cases hx
      exact ⟨.op c :: items, by simpa [ScriptItem.Valid, hc] using hv, by simp [ScriptItem.wire], .cons hc' hf⟩
    · rw [serializeToken_toHex hn] at hx
      by_cases h0 : d.length = 0
      · rw [if_pos h0] at hx; simp at hx
      rw [if_neg h0] at hx
      by_cases h1 : d.length ≤ 1000
      · rw [if_pos h1] at hx
        cases hx
        exact ⟨.push d :: items, by
            intro j hj; rcases List.mem_cons.1 hj with rfl | hj
            · exact ⟨by omega, h1⟩
            · exact hv j hj,
          by simp [ScriptItem.wire], .cons rfl hf⟩
      · rw [if_neg h1] at hx; simp at hx

/-- C11: serialize(deserialize(b)) = b exactly for the scripts made of named opcodes and minimal pushes. -/
theorem C11_identity_iff_minimal {net : Network} (hn : net.Supported) (b : Bytes) :
    (∃ s, deserialize net b = .ok s ∧ serialize net s = .ok b) ↔ MinimalScript net.isDecred b := by
  constructor
  · rintro ⟨s, hd, hs⟩
    unfold deserialize at hd
    obtain ⟨ts, hts, hd⟩ := bind_ok_iff.1 hd
    cases hd
    unfold serialize at hs
    rw [pySplit_joinSpace_filter ts (deserialized_noSpace hn hts)] at hs
    obtain ⟨items, hv, he, _⟩ := serializeTokens_minimal hn _
      (fun t ht => deserialized_canon hn hts t (List.mem_filter.1 ht).1) hs
    exact ⟨items, hv, he⟩
  · rintro ⟨items, hv, rfl⟩
    obtain ⟨us, hf', hne, hsp, hs, hd⟩ := items_roundtrip hn items hv
    refine ⟨joinSpace us, ?_, ?_⟩
    · unfold deserialize; rw [hd]; rfl
    · unfold serialize; rw [pySplit_joinSpace us hne hsp]; exact hs

/-- C11: a script that deserializes and reserializes becomes a minimal script with the same tokens. -/
theorem C11_normalises {net : Network} (hn : net.Supported) {b b' : Bytes} {s : PyStr}
    (hd : deserialize net b = .ok s) (hs : serialize net s = .ok b') :
    MinimalScript net.isDecred b' ∧ ∃ s', deserialize net b' = .ok s' ∧ pySplit s' = pySplit s ∧ serialize net s' = .ok b' := by
  unfold deserialize at hd
  obtain ⟨ts, hts, hd⟩ := bind_ok_iff.1 hd
  cases hd
  have hs0 := hs
  unfold serialize at hs
  have hsplit := pySplit_joinSpace_filter ts (deserialized_noSpace hn hts)
  rw [hsplit] at hs
  obtain ⟨items, hv, rfl, hf⟩ := serializeTokens_minimal hn _
    (fun t ht => deserialized_canon hn hts t (List.mem_filter.1 ht).1) hs
  refine ⟨⟨items, hv, rfl⟩, ?_⟩
  obtain ⟨us, hf', hne, hsp, hs', hd'⟩ := items_roundtrip hn items hv
  obtain rfl := itemText_functional hf hf'
  refine ⟨_, by unfold deserialize; rw [hd']; rfl, ?_, ?_⟩
  · rw [pySplit_joinSpace _ hne hsp, hsplit]
  · unfold serialize; rw [pySplit_joinSpace _ hne hsp]; exact hs'

/-- C11: the identity is false for non-minimal pushes. -/
theorem C11_false : ∃ b s, deserialize bitcoinMain b = .ok s ∧ ∃ b', serialize bitcoinMain s = .ok b' ∧ b' ≠ b :=
  ⟨[0x4c, 0x01, 0x01], pystr "01", by decide +kernel, [0x01, 0x01], by decide +kernel, by decide⟩

theorem btc_supported : bitcoinMain.Supported := by unfold Network.Supported; decide +kernel
theorem dcr_supported : decredMain.Supported := by unfold Network.Supported; decide +kernel

example : MinimalScript false ([0x76, 0xa9, 0x14] ++ List.replicate 20 7 ++ [0x88, 0xac]) :=
  ⟨[.op 0x76, .op 0xa9, .push (List.replicate 20 7), .op 0x88, .op 0xac], by
    intro i hi; simp only [List.mem_cons, List.not_mem_nil, or_false] at hi
    rcases hi with rfl | rfl | rfl | rfl | rfl <;> simp only [ScriptItem.Valid] <;> decide, by decide⟩

/-! ## C12 -/

theorem fromHex_head {t : PyStr} {d : Bytes} (h : fromHex t = .ok d) : t.head? ≠ some 'O' := by
  cases t with
  | nil => simp
  | cons c cs =>
    simp only [List.head?_cons, ne_eq, Option.some.injEq]
    rintro rfl
    cases cs with
    | nil => simp [fromHex, show isAsciiSpace 'O' = false by decide] at h
    | cons d ds => simp [fromHex, show isAsciiSpace 'O' = false by decide, show hexVal 'O' = none by decide] at h

theorem hex_not_space {c : Char} (h : (hexVal c).isSome) : isPySpace c = false := by
  unfold hexVal at h
  unfold isPySpace
  by_cases h1 : 48 ≤ c.toNat ∧ c.toNat ≤ 57
  · simp; omega
  rw [if_neg h1] at h
  by_cases h2 : 97 ≤ c.toNat ∧ c.toNat ≤ 102
  · simp; omega
  rw [if_neg h2] at h
  by_cases h3 : 65 ≤ c.toNat ∧ c.toNat ≤ 70
  · simp; omega
  · rw [if_neg h3] at h; simp at h

/-- C12: how a hex token (either case) of `m` bytes is pushed, by the size of `m`. -/
theorem C12_push_forms {net : Network} (hn : net.Supported) {t : PyStr} {d : Bytes}
    (hx : ∀ c ∈ t, (hexVal c).isSome) (hd : fromHex t = .ok d) (h1 : 1 ≤ d.length) :
    (d.length ≤ 75 → serialize net t = .ok (UInt8.ofNat d.length :: d)) ∧
    (76 ≤ d.length → d.length ≤ 255 → serialize net t = .ok (0x4c :: UInt8.ofNat d.length :: d)) ∧
    (256 ≤ d.length → d.length ≤ 1000 →
      serialize net t = .ok (0x4d :: UInt8.ofNat (d.length % 256) :: UInt8.ofNat (d.length / 256) :: d)) ∧
    (1000 < d.length → serialize net t = .error .notImplementedError) := by
  have hne : t ≠ [] := by rintro rfl; simp [fromHex] at hd; subst hd; simp at h1
  have hser : serialize net t = serializeToken net t := by
    unfold serialize
    rw [pySplit_token t hne (fun c hc => hex_not_space (hx c hc))]
    simp only [serializeTokens]
    cases serializeToken net t <;> simp
  have hh := fromHex_head hd
  have htok : serializeToken net t = serializeData t := by
    unfold serializeToken
    rw [if_neg, overwrite_none hn hh, codeToInt_none hh]
    rintro (h | h) <;> rw [h] at hh <;> exact hh rfl
  rw [hser, htok, serializeData_toHex hd, if_neg (by omega)]
  unfold minimalPush
  refine ⟨?_, ?_, ?_, ?_⟩
  · intro h; rw [if_pos (by omega), if_pos h]
  · intro h h'; rw [if_pos (by omega), if_neg (by omega), if_pos h']
  · intro h h'; rw [if_pos h', if_neg (by omega), if_neg (by omega)]
  · intro h; rw [if_neg (by omega)]

/-- C12: serialize is a homomorphism from texts joined with a whitespace character to byte concatenation (the first error wins). -/
theorem C12_homomorphism (net : Network) (s s' : PyStr) (c : Char) (hc : isPySpace c = true) :
    serialize net (s ++ c :: s') = (do
      let x ← serialize net s
      let y ← serialize net s'
      .ok (x ++ y)) := by
  unfold serialize
  have : pySplit (s ++ c :: s') = pySplit s ++ pySplit s' := splitAux_sep [] c s s' hc
  rw [this, serializeTokens_append]

/-- The characters that Unicode and Python regard as white space. -/
def pythonWhitespace : List Nat :=
  [9, 10, 11, 12, 13, 28, 29, 30, 31, 32, 0x85, 0xa0, 0x1680, 0x2000, 0x2001, 0x2002, 0x2003, 0x2004, 0x2005, 0x2006, 0x2007, 0x2008, 0x2009,
   0x200a, 0x2028, 0x2029, 0x202f, 0x205f, 0x3000]

theorem isPySpace_iff (c : Char) : isPySpace c = true ↔ c.toNat ∈ pythonWhitespace := by
  simp only [isPySpace, pythonWhitespace, Bool.or_eq_true, Bool.and_eq_true, decide_eq_true_eq, beq_iff_eq, List.mem_cons, List.not_mem_nil, or_false]
  omega

theorem lookup_none_of_ne {l : List (PyStr × UInt8)} {t : PyStr} (h : ∀ p ∈ l, p.1 ≠ t) : l.reverse.lookup t = none := by
  rw [List.lookup_eq_none_iff]
  intro p hp
  have := h p (List.mem_reverse.1 hp)
  simpa using Ne.symm this

/-- C12: two tokens are separated by a white space character and by no other: the white space characters are those of Python. -/
theorem C12_whitespace {net : Network} (hn : net.Supported) (c : Char) :
    (c.toNat ∈ pythonWhitespace → serialize net (pystr "OP_0" ++ c :: pystr "OP_0") = .ok [0, 0]) ∧
    (c.toNat ∉ pythonWhitespace → serialize net (pystr "OP_0" ++ c :: pystr "OP_0") = .error .valueError) := by
  constructor
  · intro h
    have one : serialize net (pystr "OP_0") = .ok [0] := by
      have key : ∀ n : Network, n.Supported → serialize n (pystr "OP_0") = .ok [0] := by unfold Network.Supported; decide +kernel
      exact key _ hn
    rw [C12_homomorphism net _ _ c ((isPySpace_iff c).2 h), one]
    rfl
  · intro h
    have hc : isPySpace c = false := by
      cases e : isPySpace c with
      | false => rfl
      | true => exact absurd ((isPySpace_iff c).1 e) h
    have hsplit : pySplit (pystr "OP_0" ++ c :: pystr "OP_0") = [pystr "OP_0" ++ c :: pystr "OP_0"] := by
      have := pySplit_joinSpace [pystr "OP_0" ++ c :: pystr "OP_0"] (by simp) (by
        intro t ht x hx
        simp only [List.mem_singleton] at ht
        subst ht
        simp only [List.mem_append, List.mem_cons, List.not_mem_nil, or_false] at hx
        rcases hx with (rfl | rfl | rfl | rfl) | rfl | rfl | rfl | rfl | rfl <;> first | exact hc | decide)
      simpa [joinSpace] using this
    have ne : ∀ l : List (PyStr × UInt8), (∀ p ∈ l, p.1.take 4 ≠ pystr "OP_0" ∨ p.1.length ≠ 9) →
        ∀ p ∈ l, p.1 ≠ pystr "OP_0" ++ c :: pystr "OP_0" := by
      intro l hl p hp e
      rcases hl p hp with h | h
      · exact h (by rw [e]; rfl)
      · exact h (by rw [e]; rfl)
    have h1 : codeToInt (pystr "OP_0" ++ c :: pystr "OP_0") = none := lookup_none_of_ne (ne _ (by decide +kernel))
    have h2 : net.codeToIntOverwrite (pystr "OP_0" ++ c :: pystr "OP_0") = none := by
      have key : ∀ n : Network, n.Supported → ∀ p ∈ n.opcodeChanges, p.1.take 4 ≠ pystr "OP_0" ∨ p.1.length ≠ 9 := by
        unfold Network.Supported; decide +kernel
      exact lookup_none_of_ne (ne _ (key _ hn))
    have h3 : fromHex (pystr "OP_0" ++ c :: pystr "OP_0") = .error .valueError := by
      rw [fromHex.eq_def]
      rfl
    unfold serialize
    rw [hsplit]
    simp only [serializeTokens, serializeToken, h1, h2, serializeData, h3]
    rw [if_neg (by
      rintro (h | h)
      · have := congrArg List.length h; simp at this
      · have := congrArg List.length h; simp at this)]
    rfl

example : (∀ c ∈ pystr "DeadBEEF", (hexVal c).isSome) ∧ fromHex (pystr "DeadBEEF") = .ok [0xde, 0xad, 0xbe, 0xef] := by
  decide

/-! ## C13 -/

/-- C13: serialize raises whenever one of the forbidden tokens occurs; NotImplementedError if what precedes it is fine. -/
theorem C13_serialize (net : Network) (s : PyStr) (t : PyStr) (ht : t = pystr "OP_CODESEPARATOR" ∨ t = pystr "OP_PUSHDATA4")
    (h : t ∈ pySplit s) :
    (∃ e, serialize net s = .error e) ∧
    ∀ pre post x, pySplit s = pre ++ t :: post → serializeTokens net pre = .ok x →
      serialize net s = .error .notImplementedError := by
  have htok : serializeToken net t = .error .notImplementedError := by
    unfold serializeToken; rw [if_pos ht]
  have key : ∀ pre post, serializeTokens net (pre ++ t :: post) =
      (do let _ ← serializeTokens net pre; (.error .notImplementedError : Py Bytes)) := by
    intro pre post
    rw [serializeTokens_append]
    simp [serializeTokens, htok]
  refine ⟨?_, ?_⟩
  · obtain ⟨pre, post, e⟩ := List.append_of_mem h
    unfold serialize
    rw [e, key]
    cases serializeTokens net pre <;> simp
  · intro pre post x e hx
    unfold serialize
    rw [e, key, hx]; rfl

theorem deserializeTokens_append {net : Network} {pre : Bytes} (h : PushesComplete pre) (rest : Bytes) :
    deserializeTokens net (pre ++ rest) = (do
      let xs ← deserializeTokens net pre
      let ys ← deserializeTokens net rest
      .ok (xs ++ ys)) := by
  induction h with
  | nil => simp [deserializeTokens_nil]; cases deserializeTokens net rest <;> simp
  | direct n d r h1 h2 h3 _ ih =>
    have hto : (UInt8.ofNat n).toNat = n := by simp; omega
    have hne : UInt8.ofNat n ≠ 0 := by
      intro h; have : n = 0 := by rw [← hto, h]; rfl
      omega
    have hab : UInt8.ofNat n ≠ 0xab := by
      intro h; have : n = 171 := by rw [← hto, h]; rfl
      omega
    subst h3
    have e : ∀ q : Bytes, deserializeTokens net (UInt8.ofNat d.length :: (d ++ q)) = (do
        let ts ← deserializeTokens net q
        .ok (toHex d :: ts)) := by
      intro q
      rw [deserializeTokens_cons, if_neg hab, if_pos ⟨by rw [hto]; omega, hne⟩, hto, if_neg (by simp)]
      simp
    rw [List.cons_append, List.append_assoc, e, e, ih]
    cases deserializeTokens net r <;> cases deserializeTokens net rest <;> simp
  | pushdata1 l d r h3 _ ih =>
    have e : ∀ q : Bytes, deserializeTokens net (0x4c :: l :: (d ++ q)) = (do
        let ts ← deserializeTokens net q
        .ok (toHex d :: ts)) := by
      intro q
      rw [deserializeTokens_cons, if_neg (by decide), if_neg (by decide), if_pos (by decide)]
      simp [← h3]
    simp only [List.cons_append, List.append_assoc]
    rw [e, e, ih]
    cases deserializeTokens net r <;> cases deserializeTokens net rest <;> simp
  | pushdata2 lo hi d r h3 _ ih =>
    have e : ∀ q : Bytes, deserializeTokens net (0x4d :: lo :: hi :: (d ++ q)) = (do
        let ts ← deserializeTokens net q
        .ok (toHex d :: ts)) := by
      intro q
      rw [deserializeTokens_cons, if_neg (by decide), if_neg (by decide), if_neg (by decide), if_pos (by decide)]
      have hl : leToNat [lo, hi] = d.length := by simp [leToNat]; omega
      simp only [List.take_succ_cons, List.take_zero, hl]
      rw [show (2 + d.length) = d.length + 1 + 1 from by omega, List.drop_succ_cons, List.drop_succ_cons, List.drop_left]
      have : slice (lo :: hi :: (d ++ q)) 2 (d.length + 1 + 1) = d := by simp [slice]
      rw [this]
    simp only [List.cons_append, List.append_assoc]
    rw [e, e, ih]
    cases deserializeTokens net r <;> cases deserializeTokens net rest <;> simp
  | op b r hb _ ih =>
    rw [List.cons_append, deserializeTokens_cons, deserializeTokens_cons]
    split; · rfl
    have hnp : ¬ (b.toNat ≤ 75 ∧ b ≠ 0) := by
      rintro ⟨h1, h2⟩; rcases hb with h | h
      · exact h2 h
      · omega
    rw [if_neg hnp, if_neg hnp]
    have h76 : b ≠ 76 := by rintro rfl; revert hb; decide
    have h77 : b ≠ 77 := by rintro rfl; revert hb; decide
    have h78 : b ≠ 78 := by rintro rfl; revert hb; decide
    rw [if_neg h76, if_neg h77, if_neg h78, if_neg h76, if_neg h77, if_neg h78, ih]
    cases opName net b <;> simp

/-- C13: deserialize raises NotImplementedError when its cursor, after any deserializable prefix with complete pushes, meets
OP_CODESEPARATOR (0xab) or OP_PUSHDATA4 (0x4e). -/
theorem C13_deserialize (net : Network) {pre : Bytes} {s : PyStr} (hp : PushesComplete pre) (hs : deserialize net pre = .ok s)
    (b : UInt8) (hb : b = 0xab ∨ b = 0x4e) (rest : Bytes) :
    deserialize net (pre ++ b :: rest) = .error .notImplementedError := by
  unfold deserialize at *
  obtain ⟨ts, hts, _⟩ := bind_ok_iff.1 hs
  rw [deserializeTokens_append hp, hts]
  have : deserializeTokens net (b :: rest) = .error .notImplementedError := by
    rw [deserializeTokens_cons]
    rcases hb with rfl | rfl
    · rw [if_pos rfl]
    · rw [if_neg (by decide), if_neg (by decide), if_neg (by decide), if_neg (by decide), if_pos (by decide)]
  simp [this]

theorem opName_not_forbidden {net : Network} (hn : net.Supported) {c : UInt8} (hc : IsOpByte net.isDecred c) {t : PyStr}
    (h : opName net c = .ok t) : t ≠ pystr "OP_CODESEPARATOR" ∧ t ≠ pystr "OP_PUSHDATA4" := by
  obtain ⟨u, hu, _, _, h4⟩ := opName_isOk hn hc
  rw [h] at hu; cases hu
  constructor <;> rintro rfl <;> simp [serializeToken] at h4

/-- C13: no deserialized text contains a forbidden token. -/
theorem C13_never_printed {net : Network} (hn : net.Supported) {b : Bytes} {s : PyStr} (h : deserialize net b = .ok s) :
    pystr "OP_CODESEPARATOR" ∉ pySplit s ∧ pystr "OP_PUSHDATA4" ∉ pySplit s := by
  unfold deserialize at h
  obtain ⟨ts, hts, hd⟩ := bind_ok_iff.1 h
  cases hd
  rw [pySplit_joinSpace_filter ts (deserialized_noSpace hn hts)]
  have key : ∀ t ∈ ts, t ≠ pystr "OP_CODESEPARATOR" ∧ t ≠ pystr "OP_PUSHDATA4" := by
    intro t ht
    rcases deserialized_canon hn hts t ht with ⟨c, hc, hc'⟩ | ⟨d, rfl⟩
    · exact opName_not_forbidden hn hc hc'
    · have := toHex_head d
      constructor <;> intro h <;> rw [h] at this <;> exact this rfl
  constructor
  · intro h; exact (key _ (List.mem_filter.1 h).1).1 rfl
  · intro h; exact (key _ (List.mem_filter.1 h).1).2 rfl

example : pystr "OP_CODESEPARATOR" ∈ pySplit (pystr "OP_1 OP_CODESEPARATOR") := by decide +kernel
example : PushesComplete [0x51, 0x01, 0xab] ∧ deserialize bitcoinMain [0x51, 0x01, 0xab] = .ok (pystr "OP_1 ab") :=
  ⟨.op 0x51 _ (by decide) (.direct 1 [0xab] [] (by decide) (by decide) (by decide) .nil), by decide +kernel⟩

/-! ## C14 -/

/-- A final OP_PUSHDATA1/2 whose length field or data is cut short. -/
def TruncatedPushdata (post : Bytes) : Prop :=
  (∃ l d, post = 0x4c :: l :: d ∧ d.length < UInt8.toNat l) ∨
  (∃ r, post = 0x4d :: r ∧ r.length < 2) ∨
  (∃ lo hi d, post = 0x4d :: lo :: hi :: d ∧ d.length < UInt8.toNat lo + 256 * UInt8.toNat hi)

/-- C14, the part that holds: a script that deserializes is complete up to, possibly, one final truncated OP_PUSHDATA1/2
(in particular a truncated direct push is always rejected). The full property "every push is complete" is false, see `C14_false`. -/
theorem C14_complete_partial (net : Network) (b : Bytes) (s : PyStr) (h : deserialize net b = .ok s) :
    ∃ pre post, b = pre ++ post ∧ PushesComplete pre ∧ (post = [] ∨ TruncatedPushdata post) := by
  unfold deserialize at h
  obtain ⟨ts, hts, -⟩ := bind_ok_iff.1 h
  clear h
  have main : ∀ (k : Nat) (b : Bytes) (ts : List PyStr), b.length ≤ k → deserializeTokens net b = .ok ts →
      ∃ pre post, b = pre ++ post ∧ PushesComplete pre ∧ (post = [] ∨ TruncatedPushdata post) := by
    intro k
    induction k with
    | zero =>
      intro b ts hk _
      have : b = [] := by simpa using hk
      subst this; exact ⟨[], [], rfl, .nil, .inl rfl⟩
    | succ k ih =>
      intro b ts hk h
      cases b with
      | nil => exact ⟨[], [], rfl, .nil, .inl rfl⟩
      | cons c rest =>
        simp only [List.length_cons] at hk
        rw [deserializeTokens_cons] at h
        split at h; · simp at h
        rename_i hab
        split at h
        · rename_i hp
          split at h; · simp at h
          rename_i hlen
          obtain ⟨us, hu, _⟩ := bind_ok_iff.1 h
          obtain ⟨pre, post, e, hc, hpost⟩ := ih (rest.drop c.toNat) us (by simp; omega) hu
          have hc0 : c.toNat ≠ 0 := fun h => hp.2 (UInt8.toNat_inj.1 h)
          refine ⟨c :: (rest.take c.toNat ++ pre), post, ?_, ?_, hpost⟩
          · simp only [List.cons_append, List.append_assoc, ← e, List.take_append_drop]
          · have := PushesComplete.direct c.toNat (rest.take c.toNat) pre (by omega) hp.1 (by simp; omega) hc
            simpa using this
        rename_i hnp
        split at h
        · rename_i h76
          subst h76
          cases rest with
          | nil => simp at h
          | cons l r =>
            simp only at h
            obtain ⟨us, hu, _⟩ := bind_ok_iff.1 h
            by_cases hl : r.length < l.toNat
            · exact ⟨[], _, rfl, .nil, .inr (.inl ⟨l, r, rfl, hl⟩)⟩
            · obtain ⟨pre, post, e, hc, hpost⟩ := ih (r.drop l.toNat) us (by simp at hk ⊢; omega) hu
              refine ⟨0x4c :: l :: (r.take l.toNat ++ pre), post, ?_, ?_, hpost⟩
              · simp only [List.cons_append, List.append_assoc, ← e, List.take_append_drop]
              · exact PushesComplete.pushdata1 l _ pre (by simp; omega) hc
        rename_i h76
        split at h
        · rename_i h77
          subst h77
          obtain ⟨us, hu, _⟩ := bind_ok_iff.1 h
          by_cases hr : rest.length < 2
          · exact ⟨[], _, rfl, .nil, .inr (.inr (.inl ⟨rest, rfl, hr⟩))⟩
          · obtain ⟨lo, hi, r, rfl⟩ : ∃ lo hi r, rest = lo :: hi :: r := by
              match rest, hr with
              | lo :: hi :: r, _ => exact ⟨lo, hi, r, rfl⟩
              | [], h => simp at h
              | [_], h => simp at h
            have hl : leToNat [lo, hi] = lo.toNat + 256 * hi.toNat := by simp [leToNat]
            simp only [List.take_succ_cons, List.take_zero, hl] at hu
            by_cases hlen : r.length < lo.toNat + 256 * hi.toNat
            · exact ⟨[], _, rfl, .nil, .inr (.inr (.inr ⟨lo, hi, r, rfl, hlen⟩))⟩
            · rw [show 2 + (lo.toNat + 256 * hi.toNat) = (lo.toNat + 256 * hi.toNat) + 1 + 1 by omega,
                List.drop_succ_cons, List.drop_succ_cons] at hu
              obtain ⟨pre, post, e, hc, hpost⟩ := ih (r.drop (lo.toNat + 256 * hi.toNat)) us (by simp at hk ⊢; omega) hu
              refine ⟨0x4d :: lo :: hi :: (r.take (lo.toNat + 256 * hi.toNat) ++ pre), post, ?_, ?_, hpost⟩
              · simp only [List.cons_append, List.append_assoc, ← e, List.take_append_drop]
              · exact PushesComplete.pushdata2 lo hi _ pre (by simp; omega) hc
        rename_i h77
        split at h; · simp at h
        rename_i h78
        obtain ⟨t0, _, h⟩ := bind_ok_iff.1 h
        obtain ⟨us, hu, _⟩ := bind_ok_iff.1 h
        obtain ⟨pre, post, e, hc, hpost⟩ := ih rest us (by omega) hu
        refine ⟨c :: pre, post, by simp [e], .op c pre ?_ hc, hpost⟩
        by_cases hc0 : c = 0
        · exact .inl hc0
        · right
          have h1 : ¬ c.toNat ≤ 75 := fun h => hnp ⟨h, hc0⟩
          have h2 : c.toNat ≠ 76 := fun h => h76 (UInt8.toNat_inj.1 h)
          have h3 : c.toNat ≠ 77 := fun h => h77 (UInt8.toNat_inj.1 h)
          have h4 : c.toNat ≠ 78 := fun h => h78 (UInt8.toNat_inj.1 h)
          omega
  exact main b.length b ts (Nat.le_refl _) hts

/-- C14: a truncated direct push at the end of an otherwise fine script raises IndexError. -/
theorem C14_direct_rejected (net : Network) {pre : Bytes} {s : PyStr} (hp : PushesComplete pre) (hs : deserialize net pre = .ok s)
    (n : UInt8) (h1 : 1 ≤ n.toNat) (h2 : n.toNat ≤ 75) (d : Bytes) (hd : d.length < n.toNat) :
    deserialize net (pre ++ n :: d) = .error .indexError := by
  unfold deserialize at *
  obtain ⟨ts, hts, _⟩ := bind_ok_iff.1 hs
  rw [deserializeTokens_append hp, hts]
  have : deserializeTokens net (n :: d) = .error .indexError := by
    rw [deserializeTokens_cons, if_neg (by rintro rfl; simp at h2), if_pos ⟨h2, by rintro rfl; simp at h1⟩, if_pos hd]
  simp [this]

theorem pc_inv_4c {b : Bytes} (h : PushesComplete b) : ∀ l d, b = 0x4c :: l :: d → UInt8.toNat l ≤ d.length := by
  cases h with
  | nil => simp
  | direct n d rest h1 h2 _ _ =>
    intro l e h
    have := congrArg UInt8.toNat (List.cons.inj h).1
    simp at this; omega
  | pushdata1 l d rest h1 _ =>
    intro l' e h
    simp only [List.cons.injEq] at h
    obtain ⟨_, rfl, rfl⟩ := h
    simp; omega
  | pushdata2 => intro l e h; simp at h
  | op b rest hb _ =>
    intro l e h
    have := (List.cons.inj h).1
    subst this; exact absurd hb (by decide)

/-- C14: the full claim is false: a truncated OP_PUSHDATA1 is accepted. -/
theorem C14_false : ∃ b s, deserialize bitcoinMain b = .ok s ∧ ¬ PushesComplete b :=
  ⟨[0x4c, 0x05, 0xaa], pystr "aa", by decide +kernel, fun h => by have := pc_inv_4c h 5 [0xaa] rfl; simp at this⟩

/-! ## C15 -/

/-- C15: on every supported network, a byte printed as an opcode name serializes back to that byte. -/
theorem C15_tables_agree {net : Network} (hn : net.Supported) (b : UInt8) (t : PyStr) (h : deserialize net [b] = .ok t)
    (ht : t ≠ []) : serialize net t = .ok [b] := by
  obtain ⟨h1, h2⟩ := single_byte hn h ht
  obtain ⟨u, hu, hne, hsp, hser⟩ := opName_isOk hn h1
  rw [h2] at hu; cases hu
  unfold serialize
  rw [pySplit_token t hne hsp]
  simp [serializeTokens, hser]

/-- C15: exactly the bytes of the specification have names. -/
theorem C15_named_bytes {net : Network} (hn : net.Supported) (b : UInt8) :
    (∃ t, t ≠ [] ∧ deserialize net [b] = .ok t) ↔ IsOpByte net.isDecred b := by
  constructor
  · rintro ⟨t, ht, h⟩; exact (single_byte hn h ht).1
  · intro h
    obtain ⟨t, ht, hne, _, _⟩ := opName_isOk hn h
    refine ⟨t, hne, ?_⟩
    unfold deserialize
    rw [deserializeTokens_op net b [] _ h, ht, deserializeTokens_nil]; rfl

/-- C15: OP_SHA256 is 0xc0 on Decred and 0xa8 elsewhere; OP_BLAKE256 is 0xa8 on Decred and unknown elsewhere. -/
theorem C15_decred {net : Network} (hn : net.Supported) :
    (net.isDecred = true → serialize net (pystr "OP_SHA256") = .ok [0xc0] ∧ serialize net (pystr "OP_BLAKE256") = .ok [0xa8] ∧
      deserialize net [0xc0] = .ok (pystr "OP_SHA256") ∧ deserialize net [0xa8] = .ok (pystr "OP_BLAKE256")) ∧
    (net.isDecred = false → serialize net (pystr "OP_SHA256") = .ok [0xa8] ∧
      serialize net (pystr "OP_BLAKE256") = .error .valueError ∧
      deserialize net [0xc0] = .error .valueError ∧ deserialize net [0xa8] = .ok (pystr "OP_SHA256")) := by
  revert net
  unfold Network.Supported
  decide +kernel

example : IsOpByte false 0x76 := by decide

end Verif.Props
