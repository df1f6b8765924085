import Verif.Lemmas.TxSelf

/-! Lengths and counts in what the parsers read. -/

namespace Verif
open Spec Props

/-- A number that is read from enough bytes is one that can be read again after it is written. -/
theorem VarInt.len_or_short {net : Network} {b : Bytes} {v : VarInt} (h : VarInt.fromBytes net b = .ok v) : LenOK net v.number ∨ b.length < 9 := by
  by_cases hl : b.length < 9
  · exact .inr hl
  left
  match b, hl with
  | [], hl => simp at hl
  | [_], hl => simp at hl
  | [_, _], hl => simp at hl
  | [_, _, _], hl => simp at hl
  | [_, _, _, _], hl => simp at hl
  | [_, _, _, _, _], hl => simp at hl
  | [_, _, _, _, _, _], hl => simp at hl
  | [_, _, _, _, _, _, _], hl => simp at hl
  | [_, _, _, _, _, _, _, _], hl => simp at hl
  | f :: x1 :: x2 :: x3 :: x4 :: x5 :: x6 :: x7 :: x8 :: tl, _ =>
  unfold LenOK
  by_cases hz : net.isOverwinter = false ∧ net.isSapling = false
  · exact .inl hz
  right
  have hz' : (net.isOverwinter = true ∨ net.isSapling = true) := by
    cases h1 : net.isOverwinter <;> cases h2 : net.isSapling <;> simp_all
  have mk : ∀ {n : Nat} {l : Nat}, VarInt.make (n : Int) (some l) = .ok v → v.number = n := by
    intro n l hm
    unfold VarInt.make at hm
    rw [if_neg (by omega)] at hm
    split at hm
    · cases hm
    simp only [] at hm
    split at hm
    · cases hm
    · split at hm <;> cases hm <;> simp
  have pos : ∀ {x : UInt8}, x ≠ 0 → 0 < x.toNat := fun {x} hx => Nat.pos_of_ne_zero fun c => hx (UInt8.toNat_inj.1 (by simpa using c))
  unfold VarInt.fromBytes VarInt.split at h
  simp only [] at h
  by_cases c1 : f.toNat ≤ 0xfc
  · rw [if_pos c1] at h
    simp [slice, hz'] at h
    have := mk h
    simp only [le2i, leToNat] at this
    omega
  rw [if_neg c1] at h
  by_cases c2 : f = 0xfd
  · rw [if_pos c2] at h
    simp [slice, lastN, hz'] at h
    split at h
    · cases h
    next c =>
    have := mk h
    simp only [le2i, leToNat] at this
    have := pos c
    omega
  rw [if_neg c2] at h
  by_cases c3 : f = 0xfe
  · rw [if_pos c3] at h
    simp [slice, lastN, hz'] at h
    split at h
    · cases h
    next c =>
    have := mk h
    simp only [le2i, leToNat] at this
    by_cases d : x3 = 0
    · have := pos fun e => c ⟨d, e⟩
      omega
    · have := pos d
      omega
  rw [if_neg c3] at h
  simp [slice, lastN, hz'] at h
  split at h
  · cases h
  next c =>
  have := mk h
  simp only [le2i, leToNat] at this
  by_cases d : x5 = 0
  · by_cases d' : x6 = 0
    · by_cases d'' : x7 = 0
      · have := pos fun e => c ⟨d, d', d'', e⟩
        omega
      · have := pos d''
        omega
    · have := pos d'
      omega
  · have := pos d
    omega

/-- The number of objects that are read one after the other. -/
theorem parseMany_count {α : Type} {net : Network} {f : Bytes → Py α} {len : α → Nat} (hf : ∀ b x, f b = .ok x → 1 ≤ len x ∧ 1 ≤ b.length) {b : Bytes} {s : Nat}
    {v : VarInt} {xs : List α} {fin : Nat} (hv : VarInt.fromBytes net (b.drop s) = .ok v) (h : parseMany f len b v.number (s + v.bytes.length) = .ok (xs, fin)) :
    LenOK net xs.length := by
  obtain ⟨h1, -, -, h2⟩ := parseMany_ok (P := fun _ => True) (k := 1) (m := 1) (fun b x hx => ⟨trivial, hf b x hx⟩) b _ _ _ _ h
  rw [h1]
  rcases VarInt.len_or_short hv with h3 | h3
  · exact h3
  · by_cases c : v.number < 253
    · exact LenOK.small c
    · rw [List.length_drop] at h3
      have := h2 (by omega)
      omega

theorem parseInsOuts_counts {net : Network} (hn : net.Supported) {b : Bytes} {s : Nat} {p : InsOuts} (h : parseInsOuts net b s = .ok p) :
    LenOK net p.txIns.length ∧ LenOK net p.txOuts.length := by
  obtain ⟨ni, cur, no, h1, h2, h3, h4, -⟩ := parseInsOuts_steps h
  exact ⟨parseMany_count (fun b x hx => by obtain ⟨-, a, b, -⟩ := TxIn.fromBytes_ok hn hx; omega) h1 h2,
    parseMany_count (fun b x hx => by obtain ⟨-, a, b, -⟩ := TxOut.fromBytes_ok hx; omega) h3 h4⟩

theorem InputWitness.count {net : Network} {b : Bytes} {t : InputWitness} (h : InputWitness.fromBytes net b = .ok t) : Verif.LenOK net t.stack.length := by
  unfold InputWitness.fromBytes at h
  obtain ⟨n, hn, h⟩ := bind_ok_iff.1 h
  obtain ⟨⟨xs, fin⟩, hx, h⟩ := bind_ok_iff.1 h
  obtain ⟨-, rfl⟩ := InputWitness.make_iff.1 h
  exact parseMany_count (f := WitnessStackItem.fromBytes net) (len := fun x => x.bytes.length) (b := b) (s := 0)
    (fun b x hx => by obtain ⟨-, a, b⟩ := WitnessStackItem.fromBytes_ok hx; omega) (by simpa using hn) (by simpa using hx)

/-- The counts in a transaction that is read. -/
theorem Tx.counts {E : Env} (hn : E.net.Supported) {b : Bytes} {t : Tx} (h : Tx.fromBytes E b = .ok t) :
    LenOK E.net t.txIns.length ∧ LenOK E.net t.txOuts.length ∧ ∀ w ∈ t.txWitnesses.getD [], LenOK E.net w.stack.length := by
  obtain ⟨ni, ins, cur, no, outs, cur', ws, cur'', hni, hins, hno, houts, hws, hm⟩ := Tx.fromBytes_steps h
  obtain ⟨-, rfl⟩ := Tx.make_iff.1 hm
  refine ⟨parseMany_count (fun b x hx => by obtain ⟨-, a, b, -⟩ := TxIn.fromBytes_ok hn hx; omega) hni hins,
    parseMany_count (fun b x hx => by obtain ⟨-, a, b, -⟩ := TxOut.fromBytes_ok hx; omega) hno houts, ?_⟩
  generalize (if slice b 4 6 = E.net.segwitTxFlag then some E.net.segwitTxFlag else none : Option Bytes) = fl at hws ⊢
  simp only [txObj, Option.getD_some]
  split at hws
  · obtain ⟨-, h1, -⟩ := parseMany_ok (P := fun w : InputWitness => LenOK E.net w.stack.length) (k := 0) (m := 0) (fun b x hx =>
      ⟨InputWitness.count hx, by omega, by omega⟩) _ _ _ _ _ hws
    exact fun w hw => (h1 w hw).1
  · cases hws; simp

/-! ### what cannot be read again -/

/-- A list in which one object is refused. -/
theorem parseMany_bad {α : Type} {f : Bytes → Py α} {bytes : α → Bytes} {e : PyErr} {good : α → Prop} (xs : List α)
    (hg : ∀ x ∈ xs, good x → ∀ r, ∃ x', f (bytes x ++ r) = .ok x' ∧ bytes x' = bytes x) (hb : ∀ x ∈ xs, ¬ good x → ∀ r, f (bytes x ++ r) = .error e)
    (hx : ∃ x ∈ xs, ¬ good x) (pre rest : Bytes) :
    parseMany f (fun x => (bytes x).length) (pre ++ ((xs.map bytes).flatten ++ rest)) xs.length pre.length = .error e := by
  induction xs generalizing pre with
  | nil => obtain ⟨x, h, -⟩ := hx; cases h
  | cons x xs ih =>
    simp only [List.length_cons, parseMany, List.map_cons, List.flatten_cons, List.append_assoc, List.drop_left]
    by_cases c : good x
    · obtain ⟨x', h1, h2⟩ := hg x (by simp) c ((xs.map bytes).flatten ++ rest)
      rw [h1, ok_bind, h2]
      have := ih (fun y hy => hg y (by simp [hy])) (fun y hy => hb y (by simp [hy])) (by
        obtain ⟨y, hy, hc⟩ := hx
        rcases List.mem_cons.1 hy with rfl | hy
        · exact absurd c hc
        · exact ⟨y, hy, hc⟩) (pre ++ bytes x)
      rw [List.length_append, List.append_assoc] at this
      rw [this]; rfl
    · rw [hb x (by simp) c]; rfl

theorem TxIn.fromBytes_bad {net : Network} {t : TxIn} (h : t.Built) (hz : ¬ LenOK net t.scriptSig.length) (rest : Bytes) :
    TxIn.fromBytes net (t.bytes ++ rest) = .error .valueError := by
  obtain ⟨h1, h2, h3, h4, h5⟩ := h.eq
  have ho := h1.length
  unfold TxIn.fromBytes
  rw [h5]
  unfold varBytes
  simp only [List.append_assoc]
  rw [slice_zero_append' _ _ _ ho]
  have := Outpoint.fromBytes_bytes h1 []
  rw [List.append_nil] at this
  rw [this, ok_bind]
  have e : slice (t.outpoint.bytes ++ (compactSize t.scriptSig.length ++ (t.scriptSig ++ (t.sequence ++ rest)))) 36 45 =
      compactSize t.scriptSig.length ++ (t.scriptSig ++ (t.sequence ++ rest)).take (9 - (compactSize t.scriptSig.length).length) := by
    have hc := compactSize_le t.scriptSig.length
    unfold slice
    rw [List.take_append, List.drop_append, ho, List.drop_eq_nil_of_le (by simp [ho]), List.take_append,
      List.take_of_length_le (i := 45 - 36) (by omega)]
    simp [ho]
  rw [e, VarInt.fromBytes_bad hz]
  rfl

theorem InputWitness.fromBytes_bad {net : Network} {t : InputWitness} (h : t.Built) (hc : Verif.LenOK net t.stack.length) (hz : ¬ t.LenOK net) (rest : Bytes) :
    InputWitness.fromBytes net (t.bytes ++ rest) = .error .valueError := by
  obtain ⟨h1, h2, h3⟩ := h.eq
  have hx : ∃ x ∈ t.stack, ¬ Verif.LenOK net x.item.length := by
    by_cases c : ∃ x ∈ t.stack, ¬ Verif.LenOK net x.item.length
    · exact c
    · exact absurd ⟨hc, fun i hi => Classical.byContradiction fun hb => c ⟨i, hi, hb⟩⟩ hz
  have key := parseMany_bad (f := WitnessStackItem.fromBytes net) (bytes := (·.bytes)) (e := .valueError) (good := fun x => Verif.LenOK net x.item.length) t.stack
    (fun x hx hg r => ⟨x, WitnessStackItem.fromBytes_bytes (h1 x hx) hg r, rfl⟩) (fun x hx hb r => by
      unfold WitnessStackItem.fromBytes
      rw [(h1 x hx).eq.2, varBytes, List.append_assoc, VarInt.fromBytes_bad hb]
      rfl) hx (compactSize t.stack.length) rest
  unfold InputWitness.fromBytes
  rw [h3.1]
  simp only [vector, List.length_map, List.append_assoc]
  rw [VarInt.fromBytes_len h2 hc, ok_bind]
  simp only []
  rw [key]
  rfl

/-- Inputs that parse back, up to their lengths. -/
def TxIn.Kept (net : Network) (t : TxIn) : Prop :=
  t.outpoint.bytes = List.replicate 32 0x00 ++ List.replicate 4 0xff ∨ ∃ x y, TxIn.parseScriptSig net t.scriptSig = .ok (x, y) ∧ x ++ y = t.scriptSig

theorem parseIns_bad {net : Network} (hn : net.Supported) {ins : List TxIn} (h : ∀ i ∈ ins, i.Built) (hs : ∀ i ∈ ins, i.Kept net)
    (hb : ∃ i ∈ ins, ¬ LenOK net i.scriptSig.length) (pre rest : Bytes) :
    parseMany (TxIn.fromBytes net) (·.bytes.length) (pre ++ ((ins.map (·.bytes)).flatten ++ rest)) ins.length pre.length = .error .valueError := by
  apply parseMany_bad (bytes := fun i : TxIn => i.bytes) (good := fun i => LenOK net i.scriptSig.length) ins ?_ (fun x hx hb r => TxIn.fromBytes_bad (h x hx) hb r) hb
  intro x hx hg r
  obtain ⟨t', h1, -, -, -, -, h2⟩ := TxIn.fromBytes_bytes hn (h x hx) ⟨hg, (hs x hx).elim .inl fun c => .inr (.inr (.inr c))⟩ r
  exact ⟨t', h1, h2⟩

/-- A transaction with a length that cannot be read. -/
theorem Tx.fromBytes_bad {E : Env} (hn : E.net.Supported) {t : Tx} (h : t.Facts E) (ni : LenOK E.net t.txIns.length) (no : LenOK E.net t.txOuts.length)
    (hi : ∀ i ∈ t.txIns, i.Kept E.net) (hs : ∀ o ∈ t.txOuts, o.outputScript.length < 252) (nw : ∀ w ∈ t.txWitnesses.getD [], LenOK E.net w.stack.length)
    (hb : (∃ i ∈ t.txIns, ¬ LenOK E.net i.scriptSig.length) ∨ ∃ w ∈ t.txWitnesses.getD [], ¬ InputWitness.LenOK E.net w) (rest : Bytes) :
    Tx.fromBytes E (t.bytes ++ rest) = .error .valueError := by
  obtain ⟨a1, a2, a3, a4, a5, a6, a7, a8⟩ := h.args
  rw [segwitFlag_eq hn] at a3
  rw [h.bytes]
  generalize hloc : (if t.flag.isSome then 6 else 4) = loc
  -- the layout
  have hpre : (t.version ++ t.flag.getD []).length = loc := by
    rcases a3 with h | h <;> simp [h, a1] at hloc ⊢ <;> omega
  have hL : txBytes t.version t.flag (t.txIns.map (·.bytes)) (t.txOuts.map (·.bytes)) ((t.txWitnesses.getD []).map (·.bytes)) t.lockTime ++ rest =
      (t.version ++ t.flag.getD []) ++ (compactSize t.txIns.length ++ ((t.txIns.map (·.bytes)).flatten ++
        (compactSize t.txOuts.length ++ ((t.txOuts.map (·.bytes)).flatten ++
          (((t.txWitnesses.getD []).map (·.bytes)).flatten ++ (t.lockTime ++ rest)))))) := by
    simp [txBytes, vector]
  rw [hL]
  have hwit : (slice ((t.version ++ t.flag.getD []) ++ (compactSize t.txIns.length ++ ((t.txIns.map (·.bytes)).flatten ++
        (compactSize t.txOuts.length ++ ((t.txOuts.map (·.bytes)).flatten ++
          (((t.txWitnesses.getD []).map (·.bytes)).flatten ++ (t.lockTime ++ rest))))))) 4 6 = ([0, 1] : Bytes)) = (t.flag.isSome = true) := by
    rcases a3 with h | h
    · obtain ⟨x, tl, e1, e2⟩ := compactSize_head (n := t.txIns.length) (by simpa using a5)
      simp only [h, e1, Option.getD_none, List.append_nil, Option.isSome_none, Bool.false_eq_true, eq_iff_iff, iff_false]
      unfold slice
      rw [List.take_append, List.drop_append, a1]
      simp only [List.cons_append]
      intro hh
      rw [List.drop_eq_nil_of_le (by simp [a1])] at hh
      simp [a1] at hh
      exact e2 hh.1
    · simp only [h, Option.getD_some, Option.isSome_some, eq_iff_iff, iff_true, List.append_assoc]
      rw [slice_mid _ _ _ _ _ a1 (by simp)]
  have d1 := List.drop_left' (l₂ := compactSize t.txIns.length ++ ((t.txIns.map (·.bytes)).flatten ++
        (compactSize t.txOuts.length ++ ((t.txOuts.map (·.bytes)).flatten ++
          (((t.txWitnesses.getD []).map (·.bytes)).flatten ++ (t.lockTime ++ rest)))))) hpre
  by_cases ci : ∃ i ∈ t.txIns, ¬ LenOK E.net i.scriptSig.length
  · have i1 := parseIns_bad hn h.ins hi ci (t.version ++ t.flag.getD [] ++ compactSize t.txIns.length)
      (compactSize t.txOuts.length ++ ((t.txOuts.map (·.bytes)).flatten ++
            (((t.txWitnesses.getD []).map (·.bytes)).flatten ++ (t.lockTime ++ rest))))
    simp only [List.append_assoc] at hwit i1 d1 ⊢
    generalize (t.version ++ (t.flag.getD [] ++ (compactSize t.txIns.length ++ ((t.txIns.map (·.bytes)).flatten ++
          (compactSize t.txOuts.length ++ ((t.txOuts.map (·.bytes)).flatten ++
            (((t.txWitnesses.getD []).map (·.bytes)).flatten ++ (t.lockTime ++ rest)))))))) = B at *
    simp only [List.length_append] at hpre i1
    simp only [← Nat.add_assoc, hpre] at i1
    unfold Tx.fromBytes
    simp only [segwitFlag_eq hn, hwit]
    rw [hloc, d1, VarInt.fromBytes_len a7 ni]
    simp only [ok_bind]
    rw [i1]; rfl
  have hb := hb.resolve_left ci
  have hst : ∀ i ∈ t.txIns, i.Stable E.net := fun i hi' => ⟨Classical.byContradiction fun c => ci ⟨i, hi', c⟩, (hi i hi').elim .inl fun c => .inr (.inr (.inr c))⟩
  obtain ⟨ins', i1, i2, i3⟩ := parseIns hn h.ins hst (t.version ++ t.flag.getD [] ++ compactSize t.txIns.length)
    (compactSize t.txOuts.length ++ ((t.txOuts.map (·.bytes)).flatten ++
          (((t.txWitnesses.getD []).map (·.bytes)).flatten ++ (t.lockTime ++ rest))))
  have o1 := parseMany_bytes_eq (f := TxOut.fromBytes E.net) (bytes := (·.bytes)) t.txOuts
    (fun x hx rest => TxOut.fromBytes_bytes (h.outs x hx) (hs x hx) rest)
    (t.version ++ t.flag.getD [] ++ compactSize t.txIns.length ++ (t.txIns.map (·.bytes)).flatten ++ compactSize t.txOuts.length)
    (((t.txWitnesses.getD []).map (·.bytes)).flatten ++ (t.lockTime ++ rest))
  have w1 := parseMany_bad (f := InputWitness.fromBytes E.net) (bytes := (·.bytes)) (e := .valueError) (good := InputWitness.LenOK E.net) (t.txWitnesses.getD [])
    (fun x hx hg rest => ⟨x, InputWitness.fromBytes_bytes (h.wits x hx) hg rest, rfl⟩) (fun x hx hb rest => InputWitness.fromBytes_bad (h.wits x hx) (nw x hx) hb rest) hb
    (t.version ++ t.flag.getD [] ++ compactSize t.txIns.length ++ (t.txIns.map (·.bytes)).flatten ++ compactSize t.txOuts.length
      ++ (t.txOuts.map (·.bytes)).flatten) (t.lockTime ++ rest)
  have d2 := List.drop_left' (l₂ := compactSize t.txOuts.length ++ ((t.txOuts.map (·.bytes)).flatten ++
          (((t.txWitnesses.getD []).map (·.bytes)).flatten ++ (t.lockTime ++ rest))))
    (rfl : (t.version ++ t.flag.getD [] ++ compactSize t.txIns.length ++ (t.txIns.map (·.bytes)).flatten).length = _)
  have d3 := List.drop_left' (l₂ := ((t.txWitnesses.getD []).map (·.bytes)).flatten ++ (t.lockTime ++ rest))
    (rfl : (t.version ++ t.flag.getD [] ++ compactSize t.txIns.length ++ (t.txIns.map (·.bytes)).flatten ++ compactSize t.txOuts.length
      ++ (t.txOuts.map (·.bytes)).flatten).length = _)
  simp only [List.append_assoc] at hwit i1 o1 w1 d1 d2 d3 ⊢
  generalize (t.version ++ (t.flag.getD [] ++ (compactSize t.txIns.length ++ ((t.txIns.map (·.bytes)).flatten ++
        (compactSize t.txOuts.length ++ ((t.txOuts.map (·.bytes)).flatten ++
          (((t.txWitnesses.getD []).map (·.bytes)).flatten ++ (t.lockTime ++ rest)))))))) = B at *
  simp only [List.length_append] at hpre i1 o1 w1 d2 d3
  simp only [← Nat.add_assoc, hpre] at i1 o1 w1 d2 d3
  unfold Tx.fromBytes
  simp only [segwitFlag_eq hn, hwit]
  rw [hloc, d1, VarInt.fromBytes_len a7 ni]
  simp only [ok_bind]
  rw [i1, ok_bind]
  simp only []
  rw [d2, VarInt.fromBytes_len a8 no]
  simp only [ok_bind]
  rw [o1, ok_bind]
  simp only []
  rw [d3]
  have hfl : (if t.flag.isSome = true then some ([0, 1] : Bytes) else none) = t.flag := by rcases a3 with h | h <;> simp [h]
  rw [hfl]
  have c : t.txWitnesses.getD [] ≠ [] := by
    obtain ⟨w, hw, -⟩ := hb
    intro c; rw [c] at hw; cases hw
  obtain ⟨b1, b2⟩ := a4 c
  rw [b2] at w1
  rw [if_pos, w1]
  · rfl
  · constructor
    · rcases a3 with h | h
      · exact absurd h b1
      · simp [h]
    · simp only [List.length_append, a2]
      cases hw : t.txWitnesses.getD [] with
      | nil => exact absurd hw c
      | cons w ws =>
        have := (h.wits w (by rw [hw]; simp)).pos
        simp only [List.map_cons, List.flatten_cons, List.length_append]; omega

/-- The same of the inputs and outputs of a Zcash transaction. -/
theorem parseInsOuts_bad {net : Network} (hn : net.Supported) {ins : List TxIn} {outs : List TxOut} (h : ∀ i ∈ ins, i.Built) (hk : ∀ i ∈ ins, i.Kept net)
    (hl : ins.length < 2 ^ 64) (ni : LenOK net ins.length) (hb : ∃ i ∈ ins, ¬ LenOK net i.scriptSig.length) (pre rest : Bytes) :
    parseInsOuts net (pre ++ (vector (ins.map (·.bytes)) ++ (vector (outs.map (·.bytes)) ++ rest))) pre.length = .error .valueError := by
  have i1 := parseIns_bad hn h hk hb (pre ++ compactSize ins.length) (vector (outs.map (·.bytes)) ++ rest)
  unfold parseInsOuts
  rw [List.drop_left, vector, List.length_map, List.append_assoc, VarInt.fromBytes_len hl ni, ok_bind]
  simp only [List.append_assoc, List.length_append] at i1 ⊢
  rw [i1]
  rfl

end Verif
