import Verif.Lemmas.ParseZcash2

/-! Objects that their own parser reads back from their bytes: what that says about the lengths and scripts in them. -/

namespace Verif
open Spec Props

/-- What the Zcash rule gets wrong. -/
theorem VarInt.fromBytes_bad {net : Network} {n : Nat} (hz : ¬ LenOK net n) (rest : Bytes) :
    VarInt.fromBytes net (compactSize n ++ rest) = .error .valueError := by
  unfold LenOK at hz
  have hf : net.isOverwinter = true ∨ net.isSapling = true := by
    cases h1 : net.isOverwinter <;> cases h2 : net.isSapling <;> simp_all
  have hr : n = 253 ∨ n = 254 ∨ n = 255 := by
    have : 253 ≤ n ∧ n < 256 := Classical.byContradiction fun c => hz (.inr c)
    omega
  have e1 : compactSize 253 = [0xfd, 0xfd, 0x00] := by decide
  have e2 : compactSize 254 = [0xfd, 0xfe, 0x00] := by decide
  have e3 : compactSize 255 = [0xfd, 0xff, 0x00] := by decide
  have key : ∀ x : UInt8, VarInt.fromBytes net ([0xfd, x, 0x00] ++ rest) = .error .valueError := by
    intro x
    have hs : VarInt.split 0xfd ([0xfd, x, 0x00] ++ rest) = ([x, 0x00], true) := by
      simp [VarInt.split, slice, lastN]
    unfold VarInt.fromBytes
    simp only [List.cons_append, List.nil_append] at hs ⊢
    rw [hs]
    simp [hf]
  rcases hr with rfl | rfl | rfl
  · rw [e1]; exact key _
  · rw [e2]; exact key _
  · rw [e3]; exact key _

theorem VarInt.len_of_ok {net : Network} {n : Nat} {rest : Bytes} {v : VarInt} (h : VarInt.fromBytes net (compactSize n ++ rest) = .ok v) :
    LenOK net n := by
  by_cases c : LenOK net n
  · exact c
  · rw [VarInt.fromBytes_bad c] at h; cases h

/-- Every element of a list that is read back from the concatenated bytes is read back from its own bytes. -/
theorem parseMany_self {α : Type} {f : Bytes → Py α} {bytes : α → Bytes} (xs : List α) (pre rest : Bytes) (fin : Nat)
    (h : parseMany f (fun x => (bytes x).length) (pre ++ ((xs.map bytes).flatten ++ rest)) xs.length pre.length = .ok (xs, fin)) :
    (∀ x ∈ xs, ∃ r, f (bytes x ++ r) = .ok x) ∧ fin = pre.length + ((xs.map bytes).flatten).length := by
  induction xs generalizing pre with
  | nil => cases h; exact ⟨by simp, by simp⟩
  | cons x xs ih =>
    simp only [List.length_cons, parseMany, List.map_cons, List.flatten_cons, List.append_assoc, List.drop_left] at h
    obtain ⟨x', h1, h⟩ := bind_ok_iff.1 h
    obtain ⟨⟨ys, fin'⟩, h2, h⟩ := bind_ok_iff.1 h
    simp only [Except.ok.injEq, Prod.mk.injEq, List.cons.injEq] at h
    obtain ⟨⟨rfl, rfl⟩, rfl⟩ := h
    obtain ⟨i1, i2⟩ := ih (pre ++ bytes x') (by rw [List.length_append, List.append_assoc]; exact h2)
    refine ⟨?_, by rw [i2]; simp [Nat.add_assoc]⟩
    intro y hy
    rcases List.mem_cons.1 hy with rfl | hy
    · exact ⟨_, h1⟩
    · exact i1 y hy

/-- An input that is read back from its own bytes. -/
theorem TxIn.stable_of {net : Network} (hn : net.Supported) {t : TxIn} {rest : Bytes} (h : TxIn.fromBytes net (t.bytes ++ rest) = .ok t) :
    t.Stable net ∧ (t.outpoint.bytes = List.replicate 32 0x00 ++ List.replicate 4 0xff ∨
      ∃ x y, TxIn.parseScriptSig net t.scriptSig = .ok (x, y) ∧ x ++ y = t.scriptSig) := by
  obtain ⟨hB, -, -, hk⟩ := TxIn.fromBytes_ok hn h
  refine ⟨⟨?_, hk.elim .inl fun c => .inr (.inr (.inr c))⟩, hk⟩
  obtain ⟨h1, h2, h3, h4, h5⟩ := hB.eq
  have ho := h1.length
  unfold TxIn.fromBytes at h
  obtain ⟨o, -, h⟩ := bind_ok_iff.1 h
  obtain ⟨n, h, -⟩ := bind_ok_iff.1 h
  rw [h5] at h
  unfold varBytes at h
  simp only [List.append_assoc] at h
  have e : slice (t.outpoint.bytes ++ (compactSize t.scriptSig.length ++ (t.scriptSig ++ (t.sequence ++ rest)))) 36 45 =
      compactSize t.scriptSig.length ++ (t.scriptSig ++ (t.sequence ++ rest)).take (9 - (compactSize t.scriptSig.length).length) := by
    have hc := compactSize_le t.scriptSig.length
    unfold slice
    rw [List.take_append, List.drop_append, ho, List.drop_eq_nil_of_le (by simp [ho]), List.take_append,
      List.take_of_length_le (i := 45 - 36) (by omega)]
    simp [ho]
  rw [e] at h
  exact VarInt.len_of_ok h

/-- Inputs and outputs that are read back from their bytes. -/
theorem parseInsOuts_self {net : Network} (hn : net.Supported) {pre rest : Bytes} {p : InsOuts} (li : p.txIns.length < 2 ^ 64)
    (lo : p.txOuts.length < 2 ^ 64)
    (h : parseInsOuts net (pre ++ (vector (p.txIns.map (·.bytes)) ++ (vector (p.txOuts.map (·.bytes)) ++ rest))) pre.length = .ok p) :
    InsOutsStable net p.txIns p.txOuts ∧ (∀ i ∈ p.txIns, i.outpoint.bytes = List.replicate 32 0x00 ++ List.replicate 4 0xff ∨
      ∃ x y, TxIn.parseScriptSig net i.scriptSig = .ok (x, y) ∧ x ++ y = i.scriptSig) ∧
    p.current = (pre ++ (vector (p.txIns.map (·.bytes)) ++ vector (p.txOuts.map (·.bytes)))).length := by
  obtain ⟨ni, cur, no, h1, h2, h3, h4, -⟩ := parseInsOuts_steps h
  unfold vector at h1 h2 h3 h4
  simp only [List.length_map, List.append_assoc] at h1 h2 h3 h4
  rw [List.drop_left] at h1
  have z1 := VarInt.len_of_ok h1
  rw [VarInt.fromBytes_len li z1] at h1
  cases h1
  simp only [] at h2
  have g2 := parseMany_self (f := TxIn.fromBytes net) (bytes := (·.bytes)) p.txIns (pre ++ compactSize p.txIns.length) _ cur
    (by rw [List.length_append, List.append_assoc]; exact h2)
  obtain ⟨s1, rfl⟩ := g2
  have e3 : pre ++ (compactSize p.txIns.length ++ ((p.txIns.map fun x => x.bytes).flatten ++ (compactSize p.txOuts.length ++
        ((p.txOuts.map fun x => x.bytes).flatten ++ rest)))) =
      (pre ++ compactSize p.txIns.length ++ (p.txIns.map fun x => x.bytes).flatten) ++ (compactSize p.txOuts.length ++
        ((p.txOuts.map fun x => x.bytes).flatten ++ rest)) := by simp
  rw [e3, ← List.length_append, List.drop_left] at h3
  have z2 := VarInt.len_of_ok h3
  rw [VarInt.fromBytes_len lo z2] at h3
  cases h3
  simp only [] at h4
  have g4 := parseMany_self (f := TxOut.fromBytes net) (bytes := (·.bytes)) p.txOuts
    (pre ++ compactSize p.txIns.length ++ (p.txIns.map fun x => x.bytes).flatten ++ compactSize p.txOuts.length) rest p.current
    (by
      simp only [List.length_append, List.append_assoc] at h4 ⊢
      simp only [Nat.add_assoc] at h4 ⊢
      exact h4)
  refine ⟨⟨z1, z2, fun i hi => ?_, fun o ho => ?_⟩, fun i hi => ?_, ?_⟩
  · obtain ⟨r, hr⟩ := s1 i hi
    exact (TxIn.stable_of hn hr).1
  · have := parseMany_ok (P := fun o : TxOut => o.outputScript.length < 252) (k := 0) (m := 0) (fun b x hx =>
      ⟨(TxOut.fromBytes_ok hx).2.2.2, by omega, by omega⟩) _ _ _ _ _ h4
    exact (this.2.1 o ho).1
  · obtain ⟨r, hr⟩ := s1 i hi
    exact (TxIn.stable_of hn hr).2
  · rw [g4.2]
    simp only [vector, List.length_append, List.length_map]
    omega

end Verif
