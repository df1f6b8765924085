import Verif.Lemmas.ParseAny

/-! Parsing a transaction that has lost its end. -/

namespace Verif
open Spec Props

/-- A prefix of `x ++ r` goes past `x` or ends inside it. -/
theorem prefix_cases {p x r : Bytes} (h : p <+: x ++ r) : (∃ p', p = x ++ p' ∧ p' <+: r) ∨ (p <+: x ∧ p.length < x.length) := by
  by_cases c : x.length ≤ p.length
  · left
    obtain ⟨p', rfl⟩ := List.prefix_of_prefix_length_le (List.prefix_append x r) h c
    exact ⟨p', rfl, (List.prefix_append_right_inj x).1 h⟩
  · right
    exact ⟨List.prefix_of_prefix_length_le h (List.prefix_append x r) (by omega), by omega⟩

theorem prefix_lt {p b : Bytes} (h : p <+: b) (hne : p ≠ b) : p.length < b.length := by
  have h1 := h.length_le
  rcases Nat.lt_or_ge p.length b.length with h2 | h2
  · exact h2
  · exact absurd (h.eq_of_length (by omega)) hne

theorem compactSize_le3 {n : Nat} (h : n < 65536) : (compactSize n).length ≤ 3 := by
  unfold compactSize leBytes
  split
  · simp
  · simp

theorem compactSize_one {n : Nat} (h : n < 253) : (compactSize n).length = 1 := by
  unfold compactSize leBytes
  rw [if_pos h]; rfl

/-! ### elements -/

theorem TxIn.fromBytes_seq {net : Network} (hn : net.Supported) {b : Bytes} {t : TxIn} (h : TxIn.fromBytes net b = .ok t) :
    ∃ n, VarInt.fromBytes net (slice b 36 45) = .ok n ∧ 36 + n.bytes.length + n.number + 4 ≤ b.length := by
  unfold TxIn.fromBytes at h
  obtain ⟨o, ho, h⟩ := bind_ok_iff.1 h
  obtain ⟨n, hv, h⟩ := bind_ok_iff.1 h
  refine ⟨n, hv, ?_⟩
  have fin : ∀ x y, TxIn.make o x y (slice b (36 + n.bytes.length + n.number) (36 + n.bytes.length + n.number + 4)) = .ok t →
      36 + n.bytes.length + n.number + 4 ≤ b.length := by
    intro x y hm
    rw [TxIn.make_iff] at hm
    have := hm.2.1
    rw [slice_length] at this
    omega
  simp only [] at h
  split at h
  · exact fin _ _ h
  · rw [Outpoint.null_eq, ok_bind] at h
    split at h
    · exact fin _ _ h
    · obtain ⟨x, y, hp⟩ := parseScriptSig_total hn (slice b (36 + n.bytes.length) (36 + n.bytes.length + n.number))
      rw [hp, ok_bind] at h
      exact fin _ _ h

/-- No proper prefix of an input is read as an input. -/
theorem TxIn.cut {net : Network} (hn : net.Supported) {t : TxIn} (h : t.Built) (hz : LenOK net t.scriptSig.length) {p : Bytes}
    (hp : p <+: t.bytes) (hl : p.length < t.bytes.length) {t' : TxIn} (ht : TxIn.fromBytes net p = .ok t') : False := by
  obtain ⟨n, hv, hle⟩ := TxIn.fromBytes_seq hn ht
  obtain ⟨-, -, -, hpos⟩ := VarInt.fromBytes_ok hv
  obtain ⟨h1, h2, h3, h4, h5⟩ := h.eq
  have ho := h1.length
  have c3 := compactSize_le3 (n := t.scriptSig.length) (by omega)
  rw [h5] at hp hl
  unfold varBytes at hp hl
  simp only [List.append_assoc] at hp
  simp only [List.length_append] at hl
  rcases prefix_cases hp with ⟨p', rfl, hp1⟩ | ⟨-, hs⟩
  case inr => omega
  rcases prefix_cases hp1 with ⟨p'', rfl, hp2⟩ | ⟨-, hs⟩
  · have e : slice (t.outpoint.bytes ++ (compactSize t.scriptSig.length ++ p'')) 36 45 =
        compactSize t.scriptSig.length ++ p''.take (9 - (compactSize t.scriptSig.length).length) := by
      unfold slice
      rw [List.take_append, List.drop_append, ho, List.drop_eq_nil_of_le (by simp [ho]), List.take_append,
        List.take_of_length_le (i := 45 - 36) (by omega)]
      simp [ho]
    rw [e, VarInt.fromBytes_len (by omega) hz] at hv
    cases hv
    simp only [List.length_append] at hl hle
    omega
  · simp only [List.length_append] at hle
    omega

/-- A proper prefix of an output is read as an output to the end, if at all. -/
theorem TxOut.cut {net : Network} {t : TxOut} (h : t.Built) (hz : t.outputScript.length < 252) {p : Bytes}
    (hp : p <+: t.bytes) (hl : p.length < t.bytes.length) {t' : TxOut} (ht : TxOut.fromBytes net p = .ok t') : p.length ≤ t'.bytes.length := by
  obtain ⟨h1, h2, h3⟩ := h.eq
  obtain ⟨-, h8, -⟩ := TxOut.fromBytes_ok ht
  have c1 := compactSize_one (n := t.outputScript.length) (by omega)
  rw [h3] at hp hl
  unfold wireOut varBytes at hp hl
  simp only [List.length_append] at hl
  rcases prefix_cases hp with ⟨p', rfl, hp1⟩ | ⟨-, hs⟩
  case inr => omega
  rcases prefix_cases hp1 with ⟨p'', rfl, hp2⟩ | ⟨-, hs⟩
  case inr => simp only [List.length_append] at h8; omega
  have hple := hp2.length_le
  unfold TxOut.fromBytes at ht
  rw [List.drop_left' h1, VarInt.fromBytes_len h2 (.inr (by omega)), ok_bind] at ht
  simp only [] at ht
  rw [if_pos (by omega), TxOut.make_iff] at ht
  obtain ⟨e1, e2, rfl⟩ := ht
  have := compactSize_pos (slice (t.value ++ (compactSize t.outputScript.length ++ p'')) (8 + (compactSize t.outputScript.length).length)
    (8 + (compactSize t.outputScript.length).length + t.outputScript.length)).length
  simp only [wireOut, varBytes, List.length_append, slice_length] at this e1 ⊢
  omega

theorem WitnessStackItem.cut {net : Network} {t : WitnessStackItem} (h : t.Built) (hz : LenOK net t.item.length) (h16 : t.item.length < 65536)
    {p : Bytes} (hp : p <+: t.bytes) (hl : p.length < t.bytes.length) {t' : WitnessStackItem}
    (ht : WitnessStackItem.fromBytes net p = .ok t') : p.length ≤ 2 + t'.bytes.length := by
  obtain ⟨h1, h2⟩ := h.eq
  obtain ⟨-, -, h8⟩ := WitnessStackItem.fromBytes_ok ht
  have c3 := compactSize_le3 h16
  rw [h2] at hp hl
  unfold varBytes at hp hl
  simp only [List.length_append] at hl
  rcases prefix_cases hp with ⟨p', rfl, hp⟩ | ⟨-, hs⟩
  case inr => omega
  have hple := hp.length_le
  simp only [List.length_append] at hl
  unfold WitnessStackItem.fromBytes at ht
  rw [VarInt.fromBytes_len h1 hz, ok_bind] at ht
  simp only [] at ht
  rw [WitnessStackItem.make_iff] at ht
  obtain ⟨e2, rfl⟩ := ht
  have := compactSize_pos (slice (compactSize t.item.length ++ p') (compactSize t.item.length).length
    ((compactSize t.item.length).length + t.item.length)).length
  simp only [varBytes, List.length_append, slice_length] at this ⊢
  omega

/-! ### loops -/

theorem parseMany_ge {α : Type} {f : Bytes → Py α} {len : α → Nat} {b : Bytes} {n cur : Nat} {xs : List α} {fin : Nat}
    (h : parseMany f len b n cur = .ok (xs, fin)) : xs.length = n ∧ fin = cur + (xs.map len).sum := by
  obtain ⟨h1, -, h2, -⟩ := parseMany_ok (P := fun _ => True) (k := 0) (m := 0) (fun _ _ _ => ⟨trivial, by omega, by omega⟩) b n cur xs fin h
  exact ⟨h1, h2⟩

/-- A loop over objects of which the end is missing: they are all there, or the loop has read one of them cut short and goes on to near
the end. -/
theorem parseMany_cut {α : Type} {f : Bytes → Py α} {bytes : α → Bytes} {d : Nat} :
    ∀ (xs : List α), (∀ x ∈ xs, ∀ rest, ∃ x', f (bytes x ++ rest) = .ok x' ∧ bytes x' = bytes x) →
    (∀ x ∈ xs, ∀ p, p <+: bytes x → p.length < (bytes x).length → ∀ x', f p = .ok x' → p.length ≤ d + (bytes x').length) →
    ∀ (pre p rest : Bytes) (ys : List α) (fin : Nat), p <+: (xs.map bytes).flatten ++ rest →
    parseMany f (fun x => (bytes x).length) (pre ++ p) xs.length pre.length = .ok (ys, fin) →
    (∃ p', p = (xs.map bytes).flatten ++ p' ∧ p' <+: rest ∧ fin = pre.length + ((xs.map bytes).flatten).length) ∨
    (pre.length + p.length ≤ d + fin ∧ p.length < ((xs.map bytes).flatten).length ∧
      ∃ x ∈ xs, ∃ q x', q <+: bytes x ∧ q.length < (bytes x).length ∧ f q = .ok x')
  | [], _, _, pre, p, rest, ys, fin, hp, h => by
    cases h
    left
    exact ⟨p, by simp, by simpa using hp, by simp⟩
  | x :: xs, hx, hc, pre, p, rest, ys, fin, hp, h => by
    simp only [List.length_cons] at h
    unfold parseMany at h
    obtain ⟨x', hf, h⟩ := bind_ok_iff.1 h
    obtain ⟨⟨zs, fin'⟩, hm, h⟩ := bind_ok_iff.1 h
    cases h
    rw [List.drop_left] at hf
    simp only [List.map_cons, List.flatten_cons, List.append_assoc] at hp
    rcases prefix_cases hp with ⟨p', rfl, hp'⟩ | ⟨hp', hs⟩
    · obtain ⟨x'', hf', hb⟩ := hx x (by simp) p'
      rw [hf'] at hf; cases hf
      rw [hb, ← List.append_assoc, ← List.length_append] at hm
      rcases parseMany_cut xs (fun y hy => hx y (by simp [hy])) (fun y hy => hc y (by simp [hy])) (pre ++ bytes x) p' rest zs fin hp' hm with
        ⟨q, rfl, h2, h3⟩ | ⟨h2, h3, y, hy, h4⟩
      · left
        exact ⟨q, by simp, h2, by rw [h3]; simp; omega⟩
      · right
        refine ⟨?_, ?_, y, by simp [hy], h4⟩
        · simp only [List.length_append] at h2 ⊢; omega
        · simp only [List.map_cons, List.flatten_cons, List.length_append]; omega
    · right
      have h1 := hc x (by simp) p hp' hs x' hf
      have h2 := (parseMany_ge hm).2
      refine ⟨by omega, ?_, x, by simp, p, x', hp', hs, hf⟩
      simp only [List.map_cons, List.flatten_cons, List.length_append]; omega

theorem InputWitness.cut {net : Network} {t : InputWitness} (h : t.Built) (hz : InputWitness.LenOK net t) (h16 : t.stack.length < 65536)
    (hi : ∀ i ∈ t.stack, i.item.length < 65536) {p : Bytes} (hp : p <+: t.bytes) (hl : p.length < t.bytes.length) {t' : InputWitness}
    (ht : InputWitness.fromBytes net p = .ok t') : p.length ≤ 2 + t'.bytes.length := by
  obtain ⟨h0, h1, h2, -⟩ := h.eq
  obtain ⟨-, -, h8⟩ := InputWitness.fromBytes_ok ht
  have c3 := compactSize_le3 h16
  rw [h2] at hp hl
  unfold vector at hp hl
  simp only [List.length_append, List.length_map] at hl hp
  rcases prefix_cases hp with ⟨p', rfl, hp⟩ | ⟨-, hs⟩
  case inr => omega
  unfold InputWitness.fromBytes at ht
  rw [VarInt.fromBytes_len h1 hz.1, ok_bind] at ht
  obtain ⟨⟨ys, fin⟩, hm, ht⟩ := bind_ok_iff.1 ht
  simp only [] at hm ht
  have hlen := parseMany_ge hm
  rcases parseMany_cut (d := 2) (bytes := fun x : WitnessStackItem => x.bytes) t.stack (fun x hx rest => ⟨x, WitnessStackItem.fromBytes_bytes (h0 x hx) (hz.2 x hx) rest, rfl⟩)
    (fun x hx p hp hs x' hf => WitnessStackItem.cut (h0 x hx) (hz.2 x hx) (hi x hx) hp hs hf) _ _ [] ys fin (by simpa using hp) hm with
    ⟨q, rfl, _, _⟩ | ⟨h3, h4, -⟩
  · simp only [List.length_append] at hl; omega
  · rw [InputWitness.make_iff] at ht
    obtain ⟨e1, rfl⟩ := ht
    have flat : ∀ l : List WitnessStackItem, ((l.map fun i => i.bytes).flatten).length = (l.map fun x => x.bytes.length).sum := by
      intro l
      induction l with
      | nil => rfl
      | cons x l ih => simp [ih]
    simp only [vector, List.length_append, List.length_map, flat]
    rw [hlen.1]
    have := List.length_append (as := compactSize t.stack.length) (bs := p')
    omega

/-! ### transactions -/

theorem flag_slice {v : Bytes} {f : Option Bytes} (hv : v.length = 4) (hf : f = none ∨ f = some [0, 1]) {n : Nat} (hn : n ≠ 0) (tl : Bytes) :
    (slice ((v ++ f.getD []) ++ (compactSize n ++ tl)) 4 6 = ([0, 1] : Bytes)) = (f.isSome = true) := by
  rcases hf with h | h
  · obtain ⟨x, l, e1, e2⟩ := compactSize_head hn
    simp only [h, e1, Option.getD_none, List.append_nil, Option.isSome_none, Bool.false_eq_true, eq_iff_iff, iff_false]
    unfold slice
    rw [List.take_append, List.drop_append, hv]
    simp only [List.cons_append]
    intro hh
    rw [List.drop_eq_nil_of_le (by simp [hv])] at hh
    simp [hv] at hh
    exact e2 hh.1
  · simp only [h, Option.getD_some, Option.isSome_some, eq_iff_iff, iff_true, List.append_assoc]
    rw [slice_mid _ _ _ _ _ hv (by simp)]

theorem flatten_length {α : Type} (f : α → Bytes) (l : List α) : ((l.map f).flatten).length = (l.map fun x => (f x).length).sum := by
  induction l with
  | nil => rfl
  | cons x l ih => simp [ih]

/-- A proper prefix of a transaction is read as a transaction only if what is missing has the length of the witnesses. -/
theorem Tx.cut {E : Env} (hn : E.net.Supported) {t : Tx} (h : t.Facts E) (hs : t.Stable E.net)
    (h16 : ∀ w ∈ t.txWitnesses.getD [], w.stack.length < 65536 ∧ ∀ i ∈ w.stack, i.item.length < 65536)
    {p : Bytes} (hp : p <+: t.bytes) (hl : p.length < t.bytes.length) {t' : Tx} (ht : Tx.fromBytes E p = .ok t') :
    p.length + ((t.txWitnesses.getD []).map fun w => w.bytes.length).sum = t.bytes.length := by
  obtain ⟨a1, a2, a3, a4, a5, a6, a7, a8⟩ := h.args
  rw [segwitFlag_eq hn] at a3
  obtain ⟨ni, ins, cur, no, outs, cur', ws, cur'', hni, hins, hno, houts, hws, hm⟩ := Tx.fromBytes_steps ht
  rw [Tx.make_iff] at hm
  obtain ⟨⟨b1, b2, b3, b4, b5, b6, b7, b8⟩, -⟩ := hm
  rw [segwitFlag_eq hn] at hni hins hws b3 b4
  -- the layout
  have hL : t.bytes = (t.version ++ t.flag.getD []) ++ (compactSize t.txIns.length ++ ((t.txIns.map (·.bytes)).flatten ++
        (compactSize t.txOuts.length ++ ((t.txOuts.map (·.bytes)).flatten ++
          (((t.txWitnesses.getD []).map (·.bytes)).flatten ++ t.lockTime))))) := by
    rw [h.bytes]; simp [txBytes, vector]
  have hpre : (t.version ++ t.flag.getD []).length = (if t.flag.isSome then 6 else 4) := by
    rcases a3 with h | h <;> simp [h, a1]
  rw [hL] at hp
  have hlen := congrArg List.length hL
  simp only [List.length_append] at hlen
  rw [← List.length_append, hpre] at hlen
  -- the number of inputs
  have i1 := (parseMany_ok (P := fun _ => True) (k := 41) (m := 37) (fun b x hx => by
    obtain ⟨c1, c2, c3, -⟩ := TxIn.fromBytes_ok hn hx; exact ⟨trivial, c3, by omega⟩) p _ _ _ _ hins)
  have o1 := (parseMany_ok (P := fun _ => True) (k := 9) (m := 9) (fun b x hx => by
    obtain ⟨c1, c2, c3, -⟩ := TxOut.fromBytes_ok hx; exact ⟨trivial, c3, by omega⟩) p _ _ _ _ houts)
  obtain ⟨-, -, -, v1⟩ := VarInt.fromBytes_ok hni
  obtain ⟨-, -, -, v2⟩ := VarInt.fromBytes_ok hno
  have g1 := i1.2.2.2 (by rw [← i1.1]; exact List.length_pos_of_ne_nil b5)
  have g2 := o1.2.2.2 (by rw [← o1.1]; exact List.length_pos_of_ne_nil b6)
  have c1 := compactSize_le t.txIns.length
  have c2 := compactSize_le t.txOuts.length
  have hloc : (if slice p 4 6 = ([0, 1] : Bytes) then 6 else 4) ≥ 4 := by split <;> omega
  have hpl : 41 < p.length := by omega
  rcases prefix_cases hp with ⟨p1, e1, hp1⟩ | ⟨-, hx⟩
  case inr => rw [hpre] at hx; split at hx <;> omega
  have e1l := congrArg List.length e1
  rw [List.length_append, hpre] at e1l
  rcases prefix_cases hp1 with ⟨p2, e2, hp2⟩ | ⟨-, hx⟩
  case inr => split at e1l <;> omega
  have hfl := flag_slice a1 a3 (n := t.txIns.length) (by simpa using a5) p2
  rw [← e2, ← e1] at hfl
  simp only [hfl] at hni hins hws b3 b4
  have hfl2 : (if t.flag.isSome = true then some ([0, 1] : Bytes) else none) = t.flag := by rcases a3 with h | h <;> simp [h]
  rw [hfl2] at hws
  rw [← hpre, e1, List.drop_left, e2, VarInt.fromBytes_len a7 hs.nIns] at hni
  cases hni
  -- the inputs
  rw [e1, e2, ← List.append_assoc, ← hpre, ← List.length_append] at hins
  rcases parseMany_cut (d := 0) (bytes := fun x : TxIn => x.bytes) t.txIns (fun x hx rest => by
      obtain ⟨x', f1, -, -, -, -, f2⟩ := TxIn.fromBytes_bytes hn (h.ins x hx) (hs.ins x hx) rest
      exact ⟨x', f1, f2⟩)
    (fun x hx q hq hs' x' hf => (TxIn.cut hn (h.ins x hx) (hs.ins x hx).1 hq hs' hf).elim) _ _ _ _ _ hp2 hins with
    ⟨p3, e3, hp3, hc3⟩ | ⟨-, -, x, hx, q, x', hq, hs', hf⟩
  case inr => exact (TxIn.cut hn (h.ins x hx) (hs.ins x hx).1 hq hs' hf).elim
  -- the outputs
  have e3' : p = (t.version ++ t.flag.getD [] ++ compactSize t.txIns.length ++ (t.txIns.map fun x => x.bytes).flatten) ++ p3 := by
    rw [e1, e2, e3]; simp
  rw [← List.length_append] at hc3
  have e3l := congrArg List.length e3'
  rw [List.length_append] at e3l
  rcases prefix_cases hp3 with ⟨p4, e4, hp4⟩ | ⟨-, hx⟩
  case inr => omega
  have hno' : VarInt.fromBytes E.net (p.drop cur) = .ok ⟨compactSize t.txOuts.length, t.txOuts.length⟩ := by
    rw [hc3, e3', List.drop_left, e4]; exact VarInt.fromBytes_len a8 hs.nOuts _
  rw [hno'] at hno
  cases hno
  have e4' : p = (t.version ++ t.flag.getD [] ++ compactSize t.txIns.length ++ (t.txIns.map fun x => x.bytes).flatten ++
      compactSize t.txOuts.length) ++ p4 := by rw [e3', e4]; simp
  rw [hc3, ← List.length_append] at houts
  have houts' := houts
  rw [e4'] at houts'
  have e4l := congrArg List.length e4'
  rw [List.length_append] at e4l
  simp only [slice_length] at b2
  have hcur'' : cur' ≤ cur'' := by
    split at hws
    · have := (parseMany_ge hws).2; omega
    · cases hws; omega
  rcases parseMany_cut (d := 0) (bytes := fun x : TxOut => x.bytes) t.txOuts (fun x hx rest =>
      ⟨x, TxOut.fromBytes_bytes (h.outs x hx) (hs.outs x hx) rest, rfl⟩)
    (fun x hx q hq hs' x' hf => by have := TxOut.cut (h.outs x hx) (hs.outs x hx) hq hs' hf; simpa using this) _ _ _ _ _ hp4 houts' with
    ⟨p5, e5, hp5, hc5⟩ | ⟨hc5, -⟩
  case inr => omega
  have e5' : p = (t.version ++ t.flag.getD [] ++ compactSize t.txIns.length ++ (t.txIns.map fun x => x.bytes).flatten ++
      compactSize t.txOuts.length ++ (t.txOuts.map fun x => x.bytes).flatten) ++ p5 := by rw [e4', e5]; simp
  rw [← List.length_append] at hc5
  have e5l := congrArg List.length e5'
  rw [List.length_append, ← hc5] at e5l
  have hd : p.drop cur' = p5 := by rw [hc5, e5', List.drop_left]
  have hcl : cur' + ((t.txWitnesses.getD []).map fun w => w.bytes.length).sum + 4 = t.bytes.length := by
    have hw := flatten_length (fun w : InputWitness => w.bytes) (t.txWitnesses.getD [])
    rw [hc5]
    simp only [List.length_append] at hlen ⊢
    rw [← hpre, List.length_append] at hlen
    omega
  rw [hd] at hws
  split at hws
  · next c =>
    by_cases cw : t.txWitnesses.getD [] = []
    · have := hp5.length_le
      rw [cw] at this
      simp only [List.map_nil, List.flatten_nil, List.nil_append] at this
      omega
    · rw [← (a4 cw).2, hc5, e5'] at hws
      rcases parseMany_cut (d := 2) (bytes := fun x : InputWitness => x.bytes) (t.txWitnesses.getD []) (fun x hx rest =>
          ⟨x, InputWitness.fromBytes_bytes (h.wits x hx) (hs.wits x hx) rest, rfl⟩)
        (fun x hx q hq hs' x' hf => InputWitness.cut (h.wits x hx) (hs.wits x hx) (h16 x hx).1 (h16 x hx).2 hq hs' hf) _ _ _ _ _ hp5 hws with
        ⟨p6, e6, hp6, hc6⟩ | ⟨hc6, -⟩
      · rw [flatten_length] at hc6
        omega
      · omega
  · next c =>
    cases hws
    have : p5.length ≤ 4 := by
      rcases a3 with hf | hf
      · have cw : t.txWitnesses.getD [] = [] := Classical.byContradiction fun cw => (a4 cw).1 hf
        have := hp5.length_le
        rw [cw] at this
        simp only [List.map_nil, List.flatten_nil, List.nil_append] at this
        omega
      · rw [hf] at c
        simp at c
        omega
    omega

end Verif
