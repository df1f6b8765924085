import Verif.Lemmas.TxParse2

namespace Verif
open Spec Props

theorem segwitFlag_eq {net : Network} (hn : net.Supported) : net.segwitTxFlag = [0, 1] := by
  have key : ∀ net : Network, net.Supported → net.segwitTxFlag = [0, 1] := by unfold Network.Supported; decide +kernel
  exact key net hn

/-- The conditions under which a transaction parses back. -/
structure Tx.Stable (net : Network) (t : Tx) : Prop where
  nIns : LenOK net t.txIns.length
  nOuts : LenOK net t.txOuts.length
  ins : ∀ i ∈ t.txIns, i.Stable net
  outs : ∀ o ∈ t.txOuts, o.outputScript.length < 252
  wits : ∀ w ∈ t.txWitnesses.getD [], InputWitness.LenOK net w

theorem List.forall₂_length {α β : Type} {R : α → β → Prop} {xs : List α} {ys : List β} (h : List.Forall₂ R xs ys) : xs.length = ys.length := by
  induction h with
  | nil => rfl
  | cons _ _ ih => simp [ih]

/-- Parsing the inputs after a prefix. -/
theorem parseIns {net : Network} (hn : net.Supported) {ins : List TxIn} (h : ∀ i ∈ ins, i.Built) (hs : ∀ i ∈ ins, i.Stable net)
    (pre rest : Bytes) :
    ∃ ins', parseMany (TxIn.fromBytes net) (·.bytes.length) (pre ++ ((ins.map (·.bytes)).flatten ++ rest)) ins.length pre.length =
      .ok (ins', pre.length + ((ins.map (·.bytes)).flatten).length) ∧
      List.Forall₂ (fun i i' => i'.Built ∧ i'.outpoint = i.outpoint ∧ i'.scriptSig = i.scriptSig ∧ i'.sequence = i.sequence) ins ins' ∧
      ins'.map (·.bytes) = ins.map (·.bytes) := by
  apply parseMany_bytes (bytes := fun i : TxIn => i.bytes)
  intro i hi rest
  obtain ⟨t', h1, h2, h3, h4, h5, h6⟩ := TxIn.fromBytes_bytes hn (h i hi) (hs i hi) rest
  exact ⟨t', h1, ⟨h2, h3, h4, h5⟩, h6⟩

theorem forall₂_right {α β : Type} {R : α → β → Prop} {P : β → Prop} (hp : ∀ a b, R a b → P b) {xs : List α} {ys : List β}
    (h : List.Forall₂ R xs ys) : ∀ y ∈ ys, P y := by
  induction h with
  | nil => simp
  | cons h1 _ ih => simp only [List.mem_cons, forall_eq_or_imp]; exact ⟨hp _ _ h1, ih⟩

/-- The object that parsing returns: the same fields except for how script sigs are split, and witnesses `[]` for `None`. -/
theorem Tx.fromBytes_bytes {E : Env} (hn : E.net.Supported) {t : Tx} (h : t.Facts E) (hs : t.Stable E.net) (rest : Bytes)
    (hr : t.flag ≠ none → t.txWitnesses.getD [] = [] → rest = []) :
    ∃ ins', List.Forall₂ (fun i i' => i'.Built ∧ i'.outpoint = i.outpoint ∧ i'.scriptSig = i.scriptSig ∧ i'.sequence = i.sequence)
        t.txIns ins' ∧ ins'.map (·.bytes) = t.txIns.map (·.bytes) ∧
      Tx.fromBytes E (t.bytes ++ rest) =
        .ok (txObj E t.version t.flag ins' t.txOuts (some (t.txWitnesses.getD [])) t.lockTime) := by
  obtain ⟨a1, a2, a3, a4, a5, a6, a7, a8⟩ := h.args
  rw [segwitFlag_eq hn] at a3
  rw [h.bytes]
  generalize hloc : (if t.flag.isSome then 6 else 4) = loc
  -- the layout
  have hpre : (t.version ++ t.flag.getD []).length = loc := by
    rcases a3 with h | h <;> simp [h, a1] at hloc ⊢ <;> omega
  have hL : txBytes t.version t.flag (t.txIns.map (·.bytes)) (t.txOuts.map (·.bytes)) ((t.txWitnesses.getD []).map (·.bytes)) t.lockTime ++ rest =
      (t.version ++ t.flag.getD []) ++ (compactSize t.txIns.length ++ ((t.txIns.map (·.bytes)).flatten ++
        (compactSize t.txOuts.length ++ ((t.txOuts.map (·.bytes)).flatten ++
          (((t.txWitnesses.getD []).map (·.bytes)).flatten ++ (t.lockTime ++ rest)))))) := by
    simp [txBytes, vector]
  rw [hL]
  have hwit : (slice ((t.version ++ t.flag.getD []) ++ (compactSize t.txIns.length ++ ((t.txIns.map (·.bytes)).flatten ++
        (compactSize t.txOuts.length ++ ((t.txOuts.map (·.bytes)).flatten ++
          (((t.txWitnesses.getD []).map (·.bytes)).flatten ++ (t.lockTime ++ rest))))))) 4 6 = ([0, 1] : Bytes)) = (t.flag.isSome = true) := by
    rcases a3 with h | h
    · obtain ⟨x, tl, e1, e2⟩ := compactSize_head (n := t.txIns.length) (by simpa using a5)
      simp only [h, e1, Option.getD_none, List.append_nil, Option.isSome_none, Bool.false_eq_true, eq_iff_iff, iff_false]
      unfold slice
      rw [List.take_append, List.drop_append, a1]
      simp only [List.cons_append]
      intro hh
      rw [List.drop_eq_nil_of_le (by simp [a1])] at hh
      simp [a1] at hh
      exact e2 hh.1
    · simp only [h, Option.getD_some, Option.isSome_some, eq_iff_iff, iff_true, List.append_assoc]
      rw [slice_mid _ _ _ _ _ a1 (by simp)]
  obtain ⟨ins', i1, i2, i3⟩ := parseIns hn h.ins hs.ins (t.version ++ t.flag.getD [] ++ compactSize t.txIns.length)
    (compactSize t.txOuts.length ++ ((t.txOuts.map (·.bytes)).flatten ++
          (((t.txWitnesses.getD []).map (·.bytes)).flatten ++ (t.lockTime ++ rest))))
  refine ⟨ins', i2, i3, ?_⟩
  have i4 := List.forall₂_length i2
  have o1 := parseMany_bytes_eq (f := TxOut.fromBytes E.net) (bytes := (·.bytes)) t.txOuts
    (fun x hx rest => TxOut.fromBytes_bytes (h.outs x hx) (hs.outs x hx) rest)
    (t.version ++ t.flag.getD [] ++ compactSize t.txIns.length ++ (t.txIns.map (·.bytes)).flatten ++ compactSize t.txOuts.length)
    (((t.txWitnesses.getD []).map (·.bytes)).flatten ++ (t.lockTime ++ rest))
  have w1 := parseMany_bytes_eq (f := InputWitness.fromBytes E.net) (bytes := (·.bytes)) (t.txWitnesses.getD [])
    (fun x hx rest => InputWitness.fromBytes_bytes (h.wits x hx) (hs.wits x hx) rest)
    (t.version ++ t.flag.getD [] ++ compactSize t.txIns.length ++ (t.txIns.map (·.bytes)).flatten ++ compactSize t.txOuts.length
      ++ (t.txOuts.map (·.bytes)).flatten) (t.lockTime ++ rest)
  have mk : Tx.make E t.version t.flag ins' t.txOuts (some (t.txWitnesses.getD [])) t.lockTime =
      .ok (txObj E t.version t.flag ins' t.txOuts (some (t.txWitnesses.getD [])) t.lockTime) := by
    rw [Tx.make_iff]
    refine ⟨⟨a1, a2, h.args.2.2.1, ?_, ?_, a6, by omega, a8⟩, rfl⟩
    · rw [Option.getD_some, ← i4]; exact a4
    · rintro rfl; apply a5; simpa using i4
  have hB1 : slice ((t.version ++ t.flag.getD []) ++ (compactSize t.txIns.length ++ ((t.txIns.map (·.bytes)).flatten ++
        (compactSize t.txOuts.length ++ ((t.txOuts.map (·.bytes)).flatten ++
          (((t.txWitnesses.getD []).map (·.bytes)).flatten ++ (t.lockTime ++ rest))))))) 0 4 = t.version := by
    rw [List.append_assoc]; exact slice_zero_append' _ _ _ a1
  have d1 := List.drop_left' (l₂ := compactSize t.txIns.length ++ ((t.txIns.map (·.bytes)).flatten ++
        (compactSize t.txOuts.length ++ ((t.txOuts.map (·.bytes)).flatten ++
          (((t.txWitnesses.getD []).map (·.bytes)).flatten ++ (t.lockTime ++ rest)))))) hpre
  have d2 := List.drop_left' (l₂ := compactSize t.txOuts.length ++ ((t.txOuts.map (·.bytes)).flatten ++
          (((t.txWitnesses.getD []).map (·.bytes)).flatten ++ (t.lockTime ++ rest))))
    (rfl : (t.version ++ t.flag.getD [] ++ compactSize t.txIns.length ++ (t.txIns.map (·.bytes)).flatten).length = _)
  have d3 := List.drop_left' (l₂ := ((t.txWitnesses.getD []).map (·.bytes)).flatten ++ (t.lockTime ++ rest))
    (rfl : (t.version ++ t.flag.getD [] ++ compactSize t.txIns.length ++ (t.txIns.map (·.bytes)).flatten ++ compactSize t.txOuts.length
      ++ (t.txOuts.map (·.bytes)).flatten).length = _)
  have d4 := slice_mid (t.version ++ t.flag.getD [] ++ compactSize t.txIns.length ++ (t.txIns.map (·.bytes)).flatten ++ compactSize t.txOuts.length
      ++ (t.txOuts.map (·.bytes)).flatten ++ ((t.txWitnesses.getD []).map (·.bytes)).flatten) t.lockTime rest _ _ rfl rfl
  simp only [List.append_assoc] at hB1 hwit i1 o1 w1 d1 d2 d3 d4 ⊢
  generalize (t.version ++ (t.flag.getD [] ++ (compactSize t.txIns.length ++ ((t.txIns.map (·.bytes)).flatten ++
        (compactSize t.txOuts.length ++ ((t.txOuts.map (·.bytes)).flatten ++
          (((t.txWitnesses.getD []).map (·.bytes)).flatten ++ (t.lockTime ++ rest)))))))) = B at *
  simp only [List.length_append] at hpre i1 o1 w1 d2 d3 d4
  simp only [← Nat.add_assoc, hpre, a2] at i1 o1 w1 d2 d3 d4
  unfold Tx.fromBytes
  simp only [segwitFlag_eq hn, hwit, hB1]
  rw [hloc, d1, VarInt.fromBytes_len a7 hs.nIns]
  simp only [ok_bind]
  rw [i1, ok_bind]
  simp only []
  rw [d2, VarInt.fromBytes_len a8 hs.nOuts]
  simp only [ok_bind]
  rw [o1, ok_bind]
  simp only []
  rw [d3]
  have hfl : (if t.flag.isSome = true then some ([0, 1] : Bytes) else none) = t.flag := by rcases a3 with h | h <;> simp [h]
  rw [hfl]
  by_cases c : t.txWitnesses.getD [] = []
  · rw [if_neg]
    · rw [c] at d4 mk ⊢
      simp only [List.map_nil, List.flatten_nil, List.length_nil, Nat.add_zero] at d4
      rw [d4]
      exact mk
    · rintro ⟨c1, c2⟩
      have := hr (by rintro h; simp [h] at c1) c
      simp [c, this, a2] at c2
  · obtain ⟨b1, b2⟩ := a4 c
    rw [b2] at w1
    rw [if_pos, w1, ok_bind]
    · simp only []
      rw [d4]
      exact mk
    · constructor
      · rcases a3 with h | h
        · exact absurd h b1
        · simp [h]
      · simp only [List.length_append, a2]
        cases hw : t.txWitnesses.getD [] with
        | nil => exact absurd hw c
        | cons w ws =>
          have := (h.wits w (by rw [hw]; simp)).pos
          simp only [List.map_cons, List.flatten_cons, List.length_append]; omega

end Verif
