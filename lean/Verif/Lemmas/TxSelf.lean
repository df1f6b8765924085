import Verif.Lemmas.WireZcash

/-! Transactions that `Tx.fromBytes` reads back from their own bytes: what that says about the lengths and scripts in them. -/

namespace Verif
open Spec Props

theorem WitnessStackItem.len_of {net : Network} {t : WitnessStackItem} {rest : Bytes} (h : WitnessStackItem.fromBytes net (t.bytes ++ rest) = .ok t) :
    LenOK net t.item.length := by
  have hB := (WitnessStackItem.fromBytes_ok h).1
  unfold WitnessStackItem.fromBytes at h
  obtain ⟨n, h, -⟩ := bind_ok_iff.1 h
  rw [hB.eq.2, varBytes, List.append_assoc] at h
  exact VarInt.len_of_ok h

theorem InputWitness.len_of {net : Network} {t : InputWitness} {rest : Bytes} (h : InputWitness.fromBytes net (t.bytes ++ rest) = .ok t) :
    t.LenOK net := by
  have hB := (InputWitness.fromBytes_ok h).1
  unfold InputWitness.fromBytes at h
  obtain ⟨n, hn, h⟩ := bind_ok_iff.1 h
  obtain ⟨⟨xs, fin⟩, hx, h⟩ := bind_ok_iff.1 h
  obtain ⟨-, h2, h3⟩ := hB.eq
  obtain ⟨-, rfl⟩ := InputWitness.make_iff.1 h
  simp only [vector, List.length_map, List.append_assoc] at h2 h3 hn hx
  have z := VarInt.len_of_ok hn
  rw [VarInt.fromBytes_len h2 z] at hn
  cases hn
  obtain ⟨s, -⟩ := parseMany_self (f := WitnessStackItem.fromBytes net) (bytes := (·.bytes)) xs (compactSize xs.length) rest fin hx
  refine ⟨z, fun i hi => ?_⟩
  obtain ⟨r, hr⟩ := s i hi
  exact WitnessStackItem.len_of hr

/-- A transaction that is read back from its own bytes. -/
theorem Tx.stable_of {E : Env} (hn : E.net.Supported) {t : Tx} {rest : Bytes} (h : Tx.fromBytes E (t.bytes ++ rest) = .ok t) :
    t.Stable E.net := by
  have hB := (Tx.fromBytes_ok hn h).1
  have ho := hB.facts.obj
  obtain ⟨a1, a2, a3, a4, a5, a6, a7, a8⟩ := hB.facts.args
  obtain ⟨ni, ins, cur, no, outs, cur', ws, cur'', hni, hins, hno, houts, hws, hm⟩ := Tx.fromBytes_steps h
  obtain ⟨-, hm⟩ := Tx.make_iff.1 hm
  have ei : ins = t.txIns := by rw [hm]; rfl
  have eo : outs = t.txOuts := by rw [hm]; rfl
  have ew : some ws = t.txWitnesses := by rw [hm]; rfl
  have ef : (if slice (t.bytes ++ rest) 4 6 = E.net.segwitTxFlag then some E.net.segwitTxFlag else none) = t.flag := by
    rw [congrArg Tx.flag hm]; rfl
  subst ei eo
  have hw : t.txWitnesses.getD [] = ws := by rw [← ew]; rfl
  have hb : t.bytes = (t.version ++ t.flag.getD []) ++ (vector (t.txIns.map (·.bytes)) ++ (vector (t.txOuts.map (·.bytes)) ++
      ((ws.map (·.bytes)).flatten ++ t.lockTime))) := by
    rw [congrArg Tx.bytes ho]
    simp only [txObj, txBytes, hw, List.append_assoc]
  have el : (if slice (t.bytes ++ rest) 4 6 = E.net.segwitTxFlag then 6 else 4) = (t.version ++ t.flag.getD []).length := by
    rw [← ef, List.length_append, a1]
    split <;> simp [segwitFlag_eq hn]
  rw [el] at hni hins
  have hp : parseInsOuts E.net (t.bytes ++ rest) (t.version ++ t.flag.getD []).length = .ok ⟨t.txIns, t.txOuts, no.bytes.length, cur'⟩ := by
    unfold parseInsOuts
    rw [hni, ok_bind, hins, ok_bind]
    simp only []
    rw [hno, ok_bind, houts, ok_bind]
  have hr : t.bytes ++ rest = (t.version ++ t.flag.getD []) ++ (vector (t.txIns.map (·.bytes)) ++ (vector (t.txOuts.map (·.bytes)) ++
      ((ws.map (·.bytes)).flatten ++ (t.lockTime ++ rest)))) := by
    rw [hb]; simp only [List.append_assoc]
  rw [hr] at hp
  obtain ⟨s, -, hc⟩ := parseInsOuts_self (p := ⟨t.txIns, t.txOuts, no.bytes.length, cur'⟩) hn a7 a8 hp
  refine ⟨s.nIns, s.nOuts, s.ins, s.outs, ?_⟩
  rw [hw]
  rw [ef] at hws
  split at hws
  · next c =>
    simp only at hc
    have hl : ni.number = ws.length := by
      obtain ⟨h1, -⟩ := parseMany_ok (P := fun _ : InputWitness => True) (k := 0) (m := 0) (fun b x hx => ⟨trivial, by omega, by omega⟩) _ _ _ _ _ hws
      exact h1.symm
    rw [hl, hr, hc, ← List.append_assoc (vector _), ← List.append_assoc (t.version ++ _)] at hws
    obtain ⟨w, -⟩ := parseMany_self (f := InputWitness.fromBytes E.net) (bytes := (·.bytes)) ws _ _ _ hws
    intro x hx
    obtain ⟨r, hr⟩ := w x hx
    exact InputWitness.len_of hr
  · cases hws; simp

end Verif
