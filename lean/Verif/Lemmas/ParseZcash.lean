import Verif.Lemmas.Truncate
import Verif.Lemmas.Overwinter
import Verif.Lemmas.Sapling2
import Verif.Lemmas.Sprout2

/-! The parsers of the Zcash classes on arbitrary bytes and on transactions that have lost their end. -/

namespace Verif
open Spec Props

theorem OnlyVE.parse {α : Type} {x : Py α} (h : OnlyVE x) {e : PyErr} (he : x = .error e) : ParseErr e := .inl (h e he)

theorem parseInsOuts_error {net : Network} (hn : net.Supported) {b : Bytes} {s : Nat} {e : PyErr} (h : parseInsOuts net b s = .error e) :
    ParseErr e := by
  unfold parseInsOuts at h
  rcases bind_error_iff.1 h with h | ⟨ni, -, h⟩
  · exact (VarInt.fromBytes_error h).parse
  rcases bind_error_iff.1 h with h | ⟨⟨ins, cur⟩, -, h⟩
  · exact parseMany_error (fun _ _ h => (TxIn.fromBytes_error hn h).parse) b _ _ _ h
  rcases bind_error_iff.1 h with h | ⟨no, -, h⟩
  · exact (VarInt.fromBytes_error h).parse
  rcases bind_error_iff.1 h with h | ⟨⟨outs, cur'⟩, -, h⟩
  · exact parseMany_error (fun _ _ => TxOut.fromBytes_error) b _ _ _ h
  · cases h

theorem parseInsOuts_steps {net : Network} {b : Bytes} {s : Nat} {p : InsOuts} (h : parseInsOuts net b s = .ok p) :
    ∃ ni cur no, VarInt.fromBytes net (b.drop s) = .ok ni ∧
      parseMany (TxIn.fromBytes net) (·.bytes.length) b ni.number (s + ni.bytes.length) = .ok (p.txIns, cur) ∧
      VarInt.fromBytes net (b.drop cur) = .ok no ∧
      parseMany (TxOut.fromBytes net) (·.bytes.length) b no.number (cur + no.bytes.length) = .ok (p.txOuts, p.current) ∧
      p.outsNumLen = no.bytes.length := by
  unfold parseInsOuts at h
  obtain ⟨ni, h1, h⟩ := bind_ok_iff.1 h
  obtain ⟨⟨ins, cur⟩, h2, h⟩ := bind_ok_iff.1 h
  obtain ⟨no, h3, h⟩ := bind_ok_iff.1 h
  obtain ⟨⟨outs, cur'⟩, h4, h⟩ := bind_ok_iff.1 h
  cases h
  exact ⟨ni, cur, no, h1, h2, h3, h4, rfl⟩

theorem vector_length (l : List Bytes) : (vector l).length = (compactSize l.length).length + (l.map List.length).sum := by
  unfold vector
  rw [List.length_append, List.length_flatten]

theorem parseInsOuts_ok {net : Network} (hn : net.Supported) {b : Bytes} {s : Nat} {p : InsOuts} (h : parseInsOuts net b s = .ok p) :
    (∀ i ∈ p.txIns, i.Built) ∧ (∀ o ∈ p.txOuts, o.Built) ∧ 1 ≤ p.outsNumLen ∧
    s + (vector (p.txIns.map (·.bytes))).length + (vector (p.txOuts.map (·.bytes))).length ≤ p.current ∧ s < b.length := by
  obtain ⟨ni, cur, no, h1, h2, h3, h4, h5⟩ := parseInsOuts_steps h
  obtain ⟨i1, i2, i3, -⟩ := parseMany_ok (P := TxIn.Built) (k := 0) (m := 0) (fun b x hx =>
    ⟨(TxIn.fromBytes_ok hn hx).1, by omega, by omega⟩) b _ _ _ _ h2
  obtain ⟨o1, o2, o3, -⟩ := parseMany_ok (P := TxOut.Built) (k := 0) (m := 0) (fun b x hx =>
    ⟨(TxOut.fromBytes_ok hx).1, by omega, by omega⟩) b _ _ _ _ h4
  obtain ⟨n0, -, n1, n2⟩ := VarInt.fromBytes_ok h1
  obtain ⟨-, -, m1, m2⟩ := VarInt.fromBytes_ok h3
  have n0' := List.length_pos_of_ne_nil n0
  rw [List.length_drop] at n0'
  refine ⟨fun i hi => (i2 i hi).1, fun o ho => (o2 o ho).1, by omega, ?_, by omega⟩
  rw [vector_length, vector_length, List.length_map, List.length_map, List.map_map, List.map_map, i1, o1]
  have e1 : (List.map (List.length ∘ fun x : TxIn => x.bytes) p.txIns) = p.txIns.map fun x => x.bytes.length := rfl
  have e2 : (List.map (List.length ∘ fun x : TxOut => x.bytes) p.txOuts) = p.txOuts.map fun x => x.bytes.length := rfl
  rw [e1, e2]
  omega

/-- Inputs and outputs of which the end is missing: all there, or the cursor is near the end. -/
theorem parseInsOuts_cut {net : Network} (hn : net.Supported) {ins : List TxIn} {outs : List TxOut} (hi : ∀ i ∈ ins, i.Built)
    (ho : ∀ o ∈ outs, o.Built) (hs : InsOutsStable net ins outs) (li : ins.length < 65536) (lo : outs.length < 65536)
    {pre rest q : Bytes} {p : InsOuts} (hq : q <+: pre ++ (vector (ins.map (·.bytes)) ++ (vector (outs.map (·.bytes)) ++ rest)))
    (h : parseInsOuts net q pre.length = .ok p) :
    (∃ r, q = pre ++ (vector (ins.map (·.bytes)) ++ (vector (outs.map (·.bytes)) ++ r)) ∧ r <+: rest ∧
      p.current = (pre ++ (vector (ins.map (·.bytes)) ++ vector (outs.map (·.bytes)))).length ∧
      p.outsNumLen = (compactSize outs.length).length) ∨ q.length ≤ 3 + p.current := by
  obtain ⟨ni, cur, no, h1, h2, h3, h4, h5⟩ := parseInsOuts_steps h
  have c1 := compactSize_le3 li
  have c2 := compactSize_le3 lo
  have g2 := (parseMany_ge h2).2
  have g4 := (parseMany_ge h4).2
  obtain ⟨n0, -, -, n2⟩ := VarInt.fromBytes_ok h1
  have n0' := List.length_pos_of_ne_nil n0
  rw [List.length_drop] at n0'
  obtain ⟨-, -, -, m2⟩ := VarInt.fromBytes_ok h3
  rcases prefix_cases hq with ⟨q1, rfl, hq1⟩ | ⟨-, hx⟩
  case inr => omega
  unfold vector at hq1
  simp only [List.append_assoc, List.length_map] at hq1
  rcases prefix_cases hq1 with ⟨q2, rfl, hq2⟩ | ⟨-, hx⟩
  case inr => right; rw [List.length_append]; omega
  rw [List.drop_left, VarInt.fromBytes_len (by omega) hs.nIns] at h1
  cases h1
  simp only [] at h2
  rw [← List.append_assoc, ← List.length_append] at h2
  rcases parseMany_cut (d := 0) (bytes := fun x : TxIn => x.bytes) ins (fun x hx rest => by
      obtain ⟨x', f1, -, -, -, -, f2⟩ := TxIn.fromBytes_bytes hn (hi x hx) (hs.ins x hx) rest
      exact ⟨x', f1, f2⟩)
    (fun x hx q hq hs' x' hf => (TxIn.cut hn (hi x hx) (hs.ins x hx).1 hq hs' hf).elim) _ _ _ _ _ hq2 h2 with
    ⟨q3, rfl, hq3, hc3⟩ | ⟨-, -, x, hx, q, x', hq, hs', hf⟩
  case inr => exact (TxIn.cut hn (hi x hx) (hs.ins x hx).1 hq hs' hf).elim
  rw [← List.length_append] at hc3
  have e3 : pre ++ (compactSize ins.length ++ ((ins.map fun x => x.bytes).flatten ++ q3)) =
      (pre ++ compactSize ins.length ++ (ins.map fun x => x.bytes).flatten) ++ q3 := by simp
  rcases prefix_cases hq3 with ⟨q4, rfl, hq4⟩ | ⟨-, hx⟩
  case inr => right; rw [e3, List.length_append, ← hc3]; omega
  rw [e3, hc3, List.drop_left, VarInt.fromBytes_len (by omega) hs.nOuts] at h3
  cases h3
  simp only [] at h4
  have e4 : pre ++ (compactSize ins.length ++ ((ins.map fun x => x.bytes).flatten ++ (compactSize outs.length ++ q4))) =
      (pre ++ compactSize ins.length ++ (ins.map fun x => x.bytes).flatten ++ compactSize outs.length) ++ q4 := by simp
  rw [e4, hc3, ← List.length_append] at h4
  rcases parseMany_cut (d := 0) (bytes := fun x : TxOut => x.bytes) outs (fun x hx rest =>
      ⟨x, TxOut.fromBytes_bytes (ho x hx) (hs.outs x hx) rest, rfl⟩)
    (fun x hx q hq hs' x' hf => by have := TxOut.cut (ho x hx) (hs.outs x hx) hq hs' hf; simpa using this) _ _ _ _ _ hq4 h4 with
    ⟨q5, rfl, hq5, hc5⟩ | ⟨hc5, -⟩
  case inr => right; rw [e4, List.length_append]; omega
  left
  refine ⟨q5, by simp [vector], hq5, ?_, h5⟩
  rw [hc5]
  simp only [vector, List.length_append, List.length_map]
  omega

/-! ### Overwinter -/

theorem OverwinterTx.parseJs_error {net : Network} {b : Bytes} {k c : Nat} {e : PyErr} (h : OverwinterTx.parseJs net b k c = .error e) :
    ParseErr e := by
  unfold OverwinterTx.parseJs at h
  split at h
  · cases h
  rcases bind_error_iff.1 h with h | ⟨n, -, h⟩
  · exact (VarInt.fromBytes_error h).parse
  rcases bind_error_iff.1 h with h | ⟨⟨js, cur⟩, -, h⟩
  · exact (parseMany_ve (SproutJoinsplit.fromBytes_ve net) b _ _).parse h
  · cases h

theorem OverwinterTx.fromBytes_error {E : Env} (hn : E.net.Supported) {b : Bytes} {e : PyErr} (h : OverwinterTx.fromBytes E b = .error e) :
    ParseErr e := by
  unfold OverwinterTx.fromBytes at h
  rcases bind_error_iff.1 h with h | ⟨_, -, h⟩
  · exact (OnlyVE.check _).parse h
  rcases bind_error_iff.1 h with h | ⟨p, -, h⟩
  · exact parseInsOuts_error hn h
  rcases bind_error_iff.1 h with h | ⟨⟨js, pk, sig⟩, -, h⟩
  · exact OverwinterTx.parseJs_error h
  · exact (OverwinterTx.make_ve _ _ _ _ _ _ _ _).parse h

theorem OverwinterTx.fromBytes_steps {E : Env} {b : Bytes} {t : OverwinterTx} (h : OverwinterTx.fromBytes E b = .ok t) :
    ∃ p js pk sig, parseInsOuts E.net b 8 = .ok p ∧ OverwinterTx.parseJs E.net b p.outsNumLen (p.current + 8) = .ok (js, pk, sig) ∧
      OverwinterTx.make E p.txIns p.txOuts (slice b p.current (p.current + 4)) (slice b (p.current + 4) (p.current + 8)) js pk sig = .ok t := by
  unfold OverwinterTx.fromBytes at h
  obtain ⟨_, -, h⟩ := bind_ok_iff.1 h
  obtain ⟨p, h1, h⟩ := bind_ok_iff.1 h
  obtain ⟨⟨js, pk, sig⟩, h2, h⟩ := bind_ok_iff.1 h
  exact ⟨p, js, pk, sig, h1, h2, h⟩

theorem OverwinterTx.fromBytes_ok {E : Env} (hn : E.net.Supported) {b : Bytes} {t : OverwinterTx} (h : OverwinterTx.fromBytes E b = .ok t) :
    t.Built E ∧ t.bytes.length ≤ b.length + 1 := by
  obtain ⟨p, js, pk, sig, h1, h2, h3⟩ := OverwinterTx.fromBytes_steps h
  obtain ⟨i1, i2, i3, i4, i5⟩ := parseInsOuts_ok hn h1
  have hm := h3
  rw [OverwinterTx.make_iff] at h3
  obtain ⟨a, rfl⟩ := h3
  have l1 := a.lt4
  have l2 := a.ex4
  simp only [slice_length] at l1 l2
  unfold OverwinterTx.parseJs at h2
  split at h2
  · next c =>
    cases h2
    refine ⟨⟨_, _, _, _, _, _, _, i1, i2, by simp, hm⟩, ?_⟩
    simp only [overObj, wireOverwinter_eq, List.length_append, slice_length, wireJoinsplits, List.map_nil, if_pos, vector, List.flatten_nil,
      List.length_nil, show (compactSize 0).length = 1 from rfl, List.length_cons]
    simp only [vector, List.length_append] at i4
    omega
  · obtain ⟨n, g1, h2⟩ := bind_ok_iff.1 h2
    obtain ⟨⟨ys, cur⟩, g2, h2⟩ := bind_ok_iff.1 h2
    cases h2
    obtain ⟨j1, j2, j3, -⟩ := parseMany_ok (P := fun x : SproutJoinsplit => x.Built E.net ∧ x.bytes.length = 1802) (k := 0) (m := 0)
      (fun b x hx => ⟨⟨(SproutJoinsplit.fromBytes_ok hx).1, (SproutJoinsplit.fromBytes_ok hx).1.length⟩, by omega, by omega⟩) b _ _ _ _ g2
    refine ⟨⟨_, _, _, _, _, _, _, i1, i2, fun j hj => (j2 j hj).1.1, hm⟩, ?_⟩
    have c1 := compactSize_one (n := js.length) (by have := a.js5; omega)
    have hv := (VarInt.fromBytes_ok g1).1
    have hv' := List.length_pos_of_ne_nil hv
    rw [List.length_drop] at hv'
    have hk := a.keys
    have fl := flatten_length (fun x : SproutJoinsplit => x.bytes) js
    have jl : (overObj E p.txIns p.txOuts (slice b p.current (p.current + 4)) (slice b (p.current + 4) (p.current + 8)) js
        (some (slice b cur (cur + 32))) (some (slice b (cur + 32) (cur + 32 + 64)))).bytes.length = 8 + (vector (p.txIns.map (·.bytes))).length +
        (vector (p.txOuts.map (·.bytes))).length + 8 + 1 + (js.map fun x => x.bytes.length).sum + (if js = [] then 0 else 96) := by
      by_cases c : js = []
      · subst c
        simp only [overObj, wireOverwinter_eq, List.length_append, slice_length, wireJoinsplits, List.map_nil, vector, List.flatten_nil,
          List.length_nil, show (compactSize 0).length = 1 from rfl, List.length_cons, if_true, List.sum_nil]
        omega
      · obtain ⟨⟨pk, e1, e2⟩, ⟨sg, e3, e4⟩⟩ := hk c
        cases e1
        cases e3
        simp only [overObj, wireOverwinter_eq, List.length_append, wireJoinsplits, List.map_eq_nil_iff, c, if_false, vector, 
          List.length_nil, List.length_cons, Option.getD_some, e2, e4, List.length_map, a.lt4, a.ex4, c1, fl]
        omega
    rw [jl]
    split
    · next c => subst c; simp only [List.map_nil, List.sum_nil]; omega
    · next c =>
      obtain ⟨⟨pk, e1, e2⟩, ⟨sg, e3, e4⟩⟩ := hk c
      cases e1
      cases e3
      simp only [slice_length] at e2 e4
      omega

end Verif
