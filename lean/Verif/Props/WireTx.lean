import Verif.Spec.WireTx
import Verif.Props.TxIn2
import Verif.Props.ParseAny
import Verif.Lemmas.TxSelf

/-! Property C99: which transactions are read from the wire unchanged. -/

namespace Verif.Props
open Verif Spec

theorem WireIn.selfDelim : SelfDelim (fun b => ∃ i : WireIn, i.WF ∧ b = i.bytes) := by
  apply selfDelim_of
  intro x y r s hx hy h
  obtain ⟨h1, h2, h3, h4, h5⟩ := wireIn_inj (by rw [hx.txId, hy.txId]) (by rw [hx.index, hy.index]) (by rw [hx.sequence, hy.sequence])
    hx.script hy.script h
  exact ⟨by unfold WireIn.bytes; rw [h1, h2, h3, h4], h5⟩

theorem wireOut_inj {a a' c c' r s : Bytes} (ha : a.length = a'.length) (hc : c.length < 2 ^ 64) (hc' : c'.length < 2 ^ 64)
    (h : wireOut a c ++ r = wireOut a' c' ++ s) : a = a' ∧ c = c' ∧ r = s := by
  unfold wireOut at h
  simp only [List.append_assoc] at h
  obtain ⟨h1, h⟩ := List.append_inj h ha
  obtain ⟨h2, h⟩ := varBytes_inj hc hc' h
  exact ⟨h1, h2, h⟩

theorem WireOut.selfDelim : SelfDelim (fun b => ∃ i : WireOut, i.WF ∧ b = i.bytes) := by
  apply selfDelim_of
  intro x y r s hx hy h
  obtain ⟨h1, h2, h3⟩ := wireOut_inj (by rw [hx.value, hy.value]) hx.script hy.script h
  exact ⟨by unfold WireOut.bytes; rw [h1, h2], h3⟩

theorem wireWitness_inj {x y : List Bytes} {r s : Bytes} (hx : WitWF x) (hy : WitWF y) (h : wireWitness x ++ r = wireWitness y ++ s) :
    x = y ∧ r = s := by
  unfold wireWitness at h
  obtain ⟨h1, hr⟩ := vector_inj (S := fun b => ∃ i : Bytes, i.length < 2 ^ 64 ∧ b = varBytes i)
    (selfDelim_of fun a b r s ha hb h => by
      obtain ⟨h1, h2⟩ := varBytes_inj ha hb h
      exact ⟨by rw [h1], h2⟩)
    (by simp only [List.mem_map]; rintro _ ⟨i, hi, rfl⟩; exact ⟨i, hx.2 i hi, rfl⟩)
    (by simp only [List.mem_map]; rintro _ ⟨i, hi, rfl⟩; exact ⟨i, hy.2 i hi, rfl⟩) (by simpa using hx.1) (by simpa using hy.1) h
  exact ⟨map_bytes_inj (P := fun i : Bytes => i.length < 2 ^ 64) (f := varBytes)
    (fun i j hi hj e => (varBytes_inj hi hj (r := []) (s := []) (by simpa using e)).1) hx.2 hy.2 h1, hr⟩

theorem wireWitness_pos (w : List Bytes) : 0 < (wireWitness w).length := by
  unfold wireWitness vector
  have := compactSize_pos (w.map varBytes).length
  rw [List.length_append]; omega

/-- Well-formed, or in BIP144 format without any witness. -/
structure Loose (w : WireTx) : Prop where
  version : w.version.length = 4
  lockTime : w.lockTime.length = 4
  ins : w.ins ≠ [] ∧ w.ins.length < 2 ^ 64 ∧ ∀ i ∈ w.ins, i.WF
  outs : w.outs ≠ [] ∧ w.outs.length < 2 ^ 64 ∧ ∀ o ∈ w.outs, o.WF
  wits : ∀ ws, w.wits = some ws → (ws = [] ∨ ws.length = w.ins.length) ∧ ∀ s ∈ ws, WitWF s

theorem _root_.Verif.Spec.WireTx.WF.loose {w : WireTx} (h : w.WF) : Loose w :=
  ⟨h.version, h.lockTime, h.ins, h.outs, fun ws e => ⟨.inr (h.wits ws e).1, (h.wits ws e).2⟩⟩

/-- Different transactions have different bytes. -/
theorem WireTx.bytes_inj {w w' : WireTx} (h : Loose w) (h' : Loose w') (e : w.bytes = w'.bytes) : w = w' := by
  have mem : ∀ {α : Type} {P : α → Prop} {g : α → Bytes} {l : List α}, (∀ i ∈ l, P i) → ∀ x ∈ l.map g, ∃ i, P i ∧ x = g i := by
    intro α P g l hl x hx
    obtain ⟨i, h1, rfl⟩ := List.mem_map.1 hx
    exact ⟨i, hl i h1, rfl⟩
  have head : ∀ {l : List WireIn} (r : Bytes), l ≠ [] → ∃ x tl, vector (l.map WireIn.bytes) ++ r = x :: tl ∧ x ≠ 0 := by
    intro l r hl
    obtain ⟨x, tl, h1, h2⟩ := compactSize_head (n := (l.map WireIn.bytes).length) (by simpa using hl)
    exact ⟨x, tl ++ (l.map WireIn.bytes).flatten ++ r, by rw [vector, h1]; simp, h2⟩
  have long : ∀ {l : List (List Bytes)}, l ≠ [] → 0 < ((l.map wireWitness).flatten).length := by
    intro l hl
    cases l with
    | nil => exact absurd rfl hl
    | cons w l =>
      have := wireWitness_pos w
      simp only [List.map_cons, List.flatten_cons, List.length_append]; omega
  -- the parts after the flag
  have core : ∀ (r r' : Bytes), vector (w.ins.map WireIn.bytes) ++ (vector (w.outs.map WireOut.bytes) ++ r) =
      vector (w'.ins.map WireIn.bytes) ++ (vector (w'.outs.map WireOut.bytes) ++ r') → w.ins = w'.ins ∧ w.outs = w'.outs ∧ r = r' := by
    intro r r' e
    obtain ⟨h2, e⟩ := vector_inj WireIn.selfDelim (mem h.ins.2.2) (mem h'.ins.2.2) (by simpa using h.ins.2.1) (by simpa using h'.ins.2.1) e
    obtain ⟨h3, e⟩ := vector_inj WireOut.selfDelim (mem h.outs.2.2) (mem h'.outs.2.2) (by simpa using h.outs.2.1) (by simpa using h'.outs.2.1) e
    refine ⟨?_, ?_, e⟩
    · refine map_bytes_inj (P := WireIn.WF) (f := WireIn.bytes) (fun x y hx hy e => ?_) h.ins.2.2 h'.ins.2.2 h2
      have e' : wireIn x.txId x.index x.script x.sequence ++ [] = wireIn y.txId y.index y.script y.sequence ++ [] := by
        simpa [WireIn.bytes] using e
      obtain ⟨h1, h2, h3, h4, -⟩ := wireIn_inj (by rw [hx.txId, hy.txId]) (by rw [hx.index, hy.index]) (by rw [hx.sequence, hy.sequence])
        hx.script hy.script e'
      cases x; cases y; simp only at h1 h2 h3 h4; rw [h1, h2, h3, h4]
    · refine map_bytes_inj (P := WireOut.WF) (f := WireOut.bytes) (fun x y hx hy e => ?_) h.outs.2.2 h'.outs.2.2 h3
      have e' : wireOut x.value x.script ++ [] = wireOut y.value y.script ++ [] := by simpa [WireOut.bytes] using e
      obtain ⟨h1, h2, -⟩ := wireOut_inj (by rw [hx.value, hy.value]) hx.script hy.script e'
      cases x; cases y; simp only at h1 h2; rw [h1, h2]
  obtain ⟨v, ins, outs, ws, lt⟩ := w
  obtain ⟨v', ins', outs', ws', lt'⟩ := w'
  have hv := h.version
  have hv' := h'.version
  have hl := h.lockTime
  have hl' := h'.lockTime
  have hi := h.ins.1
  have hi' := h'.ins.1
  have hw := h.wits
  have hw' := h'.wits
  simp only at hv hv' hl hl' hi hi' hw hw' core
  unfold WireTx.bytes at e
  cases ws with
  | none =>
    cases ws' with
    | none =>
      simp only [wireLegacy, List.append_assoc] at e
      obtain ⟨h1, e⟩ := List.append_inj e (by rw [hv, hv'])
      obtain ⟨h2, h3, h4⟩ := core _ _ e
      rw [h1, h2, h3, h4]
    | some ws' =>
      exfalso
      simp only [wireLegacy, wireSegwit, List.append_assoc] at e
      obtain ⟨h1, e⟩ := List.append_inj e (by rw [hv, hv'])
      obtain ⟨x, tl, e1, e2⟩ := head (vector (outs.map WireOut.bytes) ++ lt) hi
      rw [e1] at e
      simp only [List.cons_append, List.cons.injEq] at e
      exact e2 e.1
  | some ws =>
    cases ws' with
    | none =>
      exfalso
      simp only [wireLegacy, wireSegwit, List.append_assoc] at e
      obtain ⟨h1, e⟩ := List.append_inj e (by rw [hv, hv'])
      obtain ⟨x, tl, e1, e2⟩ := head (vector (outs'.map WireOut.bytes) ++ lt') hi'
      rw [e1] at e
      simp only [List.cons_append, List.cons.injEq] at e
      exact e2 e.1.symm
    | some ws' =>
      simp only [wireSegwit, List.append_assoc] at e
      obtain ⟨h1, e⟩ := List.append_inj e (by rw [hv, hv'])
      obtain ⟨h2, h3, h4⟩ := core _ _ (List.append_cancel_left e)
      obtain ⟨a1, a2⟩ := hw ws rfl
      obtain ⟨b1, b2⟩ := hw' ws' rfl
      have hlen : ws.length = ws'.length := by
        have e := congrArg List.length h4
        simp only [List.length_append, hl, hl'] at e
        by_cases c : ws = [] <;> by_cases c' : ws' = []
        · rw [c, c']
        · have := long c'; subst c; simp at e; simp at this; omega
        · have := long c; subst c'; simp at e; simp at this; omega
        · rw [a1.resolve_left c, b1.resolve_left c', h2]
      obtain ⟨h5, h6⟩ := flatten_inj (S := fun b => ∃ i : List Bytes, WitWF i ∧ b = wireWitness i)
        (selfDelim_of fun a b r s ha hb h => by
          obtain ⟨h1, h2⟩ := wireWitness_inj ha hb h
          exact ⟨by rw [h1], h2⟩) (by simpa using hlen) (mem a2) (mem b2) h4
      have h7 := map_bytes_inj (P := WitWF) (f := wireWitness)
        (fun i j hi hj e => (wireWitness_inj hi hj (r := []) (s := []) (by simpa using e)).1) a2 b2 h5
      rw [h1, h2, h3, h6, h7]

/-- The fields of a transaction object. -/
def fieldsOf (t : Tx) : WireTx where
  version := t.version
  ins := t.txIns.map fun i => ⟨i.outpoint.txId, i.outpoint.index, i.scriptSig, i.sequence⟩
  outs := t.txOuts.map fun o => ⟨o.value, o.outputScript⟩
  wits := t.flag.map fun _ => (t.txWitnesses.getD []).map fun w => w.stack.map (·.item)
  lockTime := t.lockTime

theorem fieldsOf_bytes {E : Env} (hn : E.net.Supported) {t : Tx} (h : t.Built E) : (fieldsOf t).bytes = t.bytes := by
  unfold WireTx.bytes fieldsOf
  cases hf : t.flag with
  | none => rw [C41_wire_legacy E t h hf]; simp [Function.comp_def, WireIn.bytes, WireOut.bytes]
  | some f => rw [C41_wire_segwit E hn t h (by simp [hf])]; simp [Function.comp_def, WireIn.bytes, WireOut.bytes]

theorem fieldsOf_loose {E : Env} {t : Tx} (h : t.Built E) : Loose (fieldsOf t) := by
  have f := h.facts
  obtain ⟨a1, a2, a3, a4, a5, a6, a7, a8⟩ := f.args
  refine ⟨a1, a2, ⟨by simpa [fieldsOf] using a5, by simpa [fieldsOf] using a7, ?_⟩, ⟨by simpa [fieldsOf] using a6, by simpa [fieldsOf] using a8, ?_⟩, ?_⟩
  · simp only [fieldsOf, List.mem_map]
    rintro _ ⟨i, hi, rfl⟩
    have e := (f.ins i hi).eq
    exact ⟨e.1.eq.1, e.1.eq.2.1, e.2.1, by have := e.2.2.2.1; simp only; omega⟩
  · simp only [fieldsOf, List.mem_map]
    rintro _ ⟨i, hi, rfl⟩
    have e := (f.outs i hi).eq
    exact ⟨e.1, e.2.1⟩
  · intro ws hws
    simp only [fieldsOf, Option.map_eq_some_iff] at hws
    obtain ⟨fl, hfl, rfl⟩ := hws
    refine ⟨?_, ?_⟩
    · by_cases c : t.txWitnesses.getD [] = []
      · left; simp [c]
      · right; simpa [fieldsOf] using (a4 c).2
    · simp only [List.mem_map]
      rintro _ ⟨w, hw, rfl⟩
      have e := (f.wits w hw).eq
      refine ⟨by simpa using e.2.1, ?_⟩
      simp only [List.mem_map]
      rintro _ ⟨i, hi, rfl⟩
      exact (e.1 i hi).eq.1

/-- The inputs that are kept: the outpoint is null, or the script consists of minimal pushes and named opcodes, or it is left whole (it
does not deserialize, or its last token is not the hex of a script that deserializes, or an earlier token is a push of over 1000 bytes). -/
def KeptIn (net : Network) (i : WireIn) : Prop :=
  (i.txId = List.replicate 32 0x00 ∧ i.index = List.replicate 4 0xff) ∨ MinimalScript net.isDecred i.script ∨
  ∀ s init last, deserialize net i.script = .ok s → pySplit s = init ++ [last] →
    (∀ x, hexDeserialize net last ≠ .ok x) ∨ ∃ u ∈ init, 2000 < u.length

/-- The counts and lengths that the library reads: on networks with the rules of Overwinter or Sapling it takes the three-byte encoding of 253, 254
and 255 for an encoding that is longer than need be. -/
def CountRead (net : Network) (n : Nat) : Prop := net.isOverwinter = true ∨ net.isSapling = true → ¬ (253 ≤ n ∧ n ≤ 255)

theorem countRead_iff {net : Network} {n : Nat} : CountRead net n ↔ LenOK net n := by
  unfold CountRead LenOK
  cases net.isOverwinter <;> cases net.isSapling <;> simp <;> omega

/-- What is asked of a transaction: counts and lengths that can be read, input scripts of at most 1650 bytes that are kept, output scripts of
fewer than 252 bytes. -/
structure TxRead (net : Network) (w : WireTx) : Prop where
  counts : CountRead net w.ins.length ∧ CountRead net w.outs.length
  ins : ∀ i ∈ w.ins, i.script.length ≤ 1650 ∧ CountRead net i.script.length ∧ KeptIn net i
  outs : ∀ o ∈ w.outs, o.script.length < 252
  wits : ∀ ws, w.wits = some ws → ∀ s ∈ ws, CountRead net s.length ∧ ∀ i ∈ s, CountRead net i.length

/-- The same for transactions with the flag of BIP144 but no witnesses. -/
theorem tx_exact (E : Env) (hn : E.net.Supported) (w : WireTx) (h : Loose w) (rest : Bytes) (hre : w.wits = some [] → rest = []) :
    (∃ t, Tx.fromBytes E (w.bytes ++ rest) = .ok t ∧ t.bytes = w.bytes) ↔ TxRead E.net w := by
  constructor
  · rintro ⟨t, ht, hb⟩
    obtain ⟨hB, -, hi, ho, -⟩ := Tx.fromBytes_ok hn ht
    have hw : fieldsOf t = w := WireTx.bytes_inj (fieldsOf_loose hB) h ((fieldsOf_bytes hn hB).trans hb)
    rw [← hb] at ht
    have hS := Tx.stable_of hn ht
    rw [← hw]
    refine ⟨⟨?_, ?_⟩, ?_, ?_, ?_⟩
    · simp only [fieldsOf, List.length_map]; exact countRead_iff.2 hS.nIns
    · simp only [fieldsOf, List.length_map]; exact countRead_iff.2 hS.nOuts
    · simp only [fieldsOf, List.mem_map]
      rintro _ ⟨i, hi', rfl⟩
      have e := (hB.facts.ins i hi').eq
      refine ⟨by have := e.2.2.2.1; simp only; omega, countRead_iff.2 (hS.ins i hi').1, ?_⟩
      rcases hi i hi' with h1 | h1
      · left
        rw [e.1.eq.2.2] at h1
        exact List.append_inj h1 (by rw [e.1.eq.1, List.length_replicate])
      · right
        exact (parseScriptSig_exact hn _).1 h1
    · simp only [fieldsOf, List.mem_map]
      rintro _ ⟨o, ho', rfl⟩
      exact ho o ho'
    · intro ws hws
      simp only [fieldsOf, Option.map_eq_some_iff] at hws
      obtain ⟨_, -, rfl⟩ := hws
      simp only [List.mem_map]
      rintro _ ⟨s, hs, rfl⟩
      refine ⟨by rw [List.length_map]; exact countRead_iff.2 (hS.wits s hs).1, ?_⟩
      simp only [List.mem_map]
      rintro _ ⟨i, hi, rfl⟩
      exact countRead_iff.2 ((hS.wits s hs).2 i hi)
  · rintro ⟨hc, hi, ho, hr⟩
    obtain ⟨v, ins, outs, ws, lt⟩ := w
    have hwits := h.wits
    simp only at hc hi ho hr hwits
    let mkIn : WireIn → TxIn := fun i => ⟨⟨i.txId, i.index, i.txId ++ i.index⟩, i.script, [], i.script, i.sequence,
      (i.txId ++ i.index) ++ varBytes i.script ++ i.sequence⟩
    let mkOut : WireOut → TxOut := fun o => ⟨o.value, o.script, wireOut o.value o.script⟩
    let mkItem : Bytes → WitnessStackItem := fun s => ⟨s, varBytes s⟩
    let mkWit : List Bytes → InputWitness := fun s => ⟨s.map mkItem, vector ((s.map mkItem).map (·.bytes))⟩
    have bIn : ∀ i ∈ ins, (mkIn i).Built := fun i hi' => by
      have e := h.ins.2.2 i hi'
      refine ⟨⟨i.txId, i.index, i.txId ++ i.index⟩, i.script, [], i.sequence, ⟨_, _, Outpoint.make_iff.2 ⟨e.txId, e.index, rfl⟩⟩,
        TxIn.make_iff.2 ⟨by simp [e.txId, e.index], e.sequence, by simpa using (hi i hi').1, by simp [mkIn]⟩⟩
    have bOut : ∀ o ∈ outs, (mkOut o).Built := fun o ho' =>
      ⟨_, _, TxOut.make_iff.2 ⟨(h.outs.2.2 o ho').value, (h.outs.2.2 o ho').script, rfl⟩⟩
    have bWit : ∀ s, WitWF s → (mkWit s).Built := fun s hs =>
      ⟨s.map mkItem, by
        simp only [List.mem_map]
        rintro _ ⟨i, hi, rfl⟩
        exact ⟨i, WitnessStackItem.make_iff.2 ⟨hs.2 i hi, rfl⟩⟩, InputWitness.make_iff.2 ⟨by simpa using hs.1, rfl⟩⟩
    let fl : Option Bytes := ws.map fun _ => [0x00, 0x01]
    let wits : List InputWitness := (ws.getD []).map mkWit
    have hwit : ∀ s ∈ ws.getD [], WitWF s := by
      cases ws with
      | none => simp
      | some ws => exact (hwits ws rfl).2
    have args : TxArgsOK E v fl (ins.map mkIn) (outs.map mkOut) (some wits) lt := by
      refine ⟨h.version, h.lockTime, ?_, ?_, by simpa using h.ins.1, by simpa using h.outs.1, by simpa using h.ins.2.1, by simpa using h.outs.2.1⟩
      · rw [segwitFlag_eq hn]
        cases ws with
        | none => left; rfl
        | some ws => right; rfl
      · intro hne
        cases ws with
        | none => exact absurd rfl hne
        | some ws =>
          refine ⟨by simp [fl], ?_⟩
          have hne' : ws ≠ [] := fun c => hne (by subst c; rfl)
          simpa [wits] using (hwits ws rfl).1.resolve_left hne'
    let t := txObj E v fl (ins.map mkIn) (outs.map mkOut) (some wits) lt
    have hB : t.Built E := by
      refine ⟨v, fl, ins.map mkIn, outs.map mkOut, some wits, lt, ?_, ?_, ?_, Tx.make_iff.2 ⟨args, rfl⟩⟩
      · simp only [List.mem_map]; rintro _ ⟨i, hi', rfl⟩; exact bIn i hi'
      · simp only [List.mem_map]; rintro _ ⟨i, hi', rfl⟩; exact bOut i hi'
      · simp only [Option.getD_some, wits, List.mem_map]; rintro _ ⟨i, hi', rfl⟩; exact bWit i (hwit i hi')
    have hS : t.Stable E.net := by
      refine ⟨by simpa [t, txObj] using countRead_iff.1 hc.1, by simpa [t, txObj] using countRead_iff.1 hc.2, ?_, ?_, ?_⟩
      · simp only [t, txObj, List.mem_map]
        rintro _ ⟨i, hi', rfl⟩
        refine ⟨countRead_iff.1 (hi i hi').2.1, ?_⟩
        rcases (hi i hi').2.2 with ⟨h1, h2⟩ | h1
        · left; simp only [mkIn]; rw [h1, h2]
        · exact .inr (.inr (.inr ((parseScriptSig_exact hn _).2 h1)))
      · simp only [t, txObj, List.mem_map]
        rintro _ ⟨o, ho', rfl⟩
        exact ho o ho'
      · simp only [t, txObj, wits, Option.getD_some, List.mem_map]
        rintro _ ⟨s, hs, rfl⟩
        cases ws with
        | none => cases hs
        | some ws =>
          obtain ⟨r1, r2⟩ := hr ws rfl s hs
          refine ⟨by simpa [mkWit] using countRead_iff.1 r1, ?_⟩
          simp only [mkWit, List.mem_map]
          rintro _ ⟨i, hi, rfl⟩
          exact countRead_iff.1 (r2 i hi)
    have hft : fieldsOf t = ⟨v, ins, outs, ws, lt⟩ := by
      unfold fieldsOf
      simp only [t, txObj, List.map_map, WireTx.mk.injEq, true_and, and_true]
      refine ⟨?_, ?_, ?_⟩
      · simp [Function.comp_def, mkIn]
      · simp [Function.comp_def, mkOut]
      · cases ws with
        | none => rfl
        | some ws => simp [fl, wits, mkWit, mkItem, Function.comp_def]
    have hbt : t.bytes = (WireTx.mk v ins outs ws lt).bytes := by rw [← fieldsOf_bytes hn hB, hft]
    obtain ⟨t', h1, h2, -⟩ := C40_roundtrip E hn t hB hS rest (by
      intro h1 h2
      cases ws with
      | none => exact absurd rfl h1
      | some ws =>
        have h3 : ws = [] := by simpa [t, txObj, wits] using h2
        exact hre (by rw [h3]))
    exact ⟨t', by rw [← hbt]; exact h1, by rw [← hbt]; exact h2⟩

/-- C99: a transaction on the wire, followed by anything, is read as a transaction with the same bytes exactly if every input script has
at most 1650 bytes and is kept, every output script has fewer than 252 bytes, and on networks with the rules of Overwinter or Sapling no
count or length is 253, 254 or 255. -/
theorem C99_exact (E : Env) (hn : E.net.Supported) (w : WireTx) (h : w.WF) (rest : Bytes) :
    (∃ t, Tx.fromBytes E (w.bytes ++ rest) = .ok t ∧ t.bytes = w.bytes) ↔ TxRead E.net w := by
  refine tx_exact E hn w h.loose rest fun c => ?_
  exact absurd (List.length_eq_zero_iff.1 (h.wits _ c).1.symm) h.ins.1

/-- `C99_fields`, also for transactions with the flag of BIP144 but no witnesses. -/
theorem tx_fields (E : Env) (hn : E.net.Supported) (w : WireTx) (h : Loose w) (rest : Bytes) (t : Tx)
    (ht : Tx.fromBytes E (w.bytes ++ rest) = .ok t) (hb : t.bytes = w.bytes) :
    t.version = w.version ∧ t.lockTime = w.lockTime ∧ (t.flag ≠ none ↔ w.wits ≠ none) ∧
    t.txIns.map (fun i => (⟨i.outpoint.txId, i.outpoint.index, i.scriptSig, i.sequence⟩ : WireIn)) = w.ins ∧
    t.txOuts.map (fun o => (⟨o.value, o.outputScript⟩ : WireOut)) = w.outs ∧
    (∀ ws, w.wits = some ws → (t.txWitnesses.getD []).map (fun s => s.stack.map (·.item)) = ws) ∧
    t.txIdLe = E.hash256 w.stripped ∧ t.wtxIdLe = w.wits.map fun _ => E.hash256 w.bytes := by
  obtain ⟨hB, -, -, -, -⟩ := Tx.fromBytes_ok hn ht
  have hw : fieldsOf t = w := WireTx.bytes_inj (fieldsOf_loose hB) h ((fieldsOf_bytes hn hB).trans hb)
  have ho := hB.facts.obj
  have hbi : t.txIns.map (·.bytes) = (fieldsOf t).ins.map WireIn.bytes := by
    simp only [fieldsOf, List.map_map, Function.comp_def, WireIn.bytes]
    exact List.map_congr_left fun i hi => (hB.facts.ins i hi).wire
  have hbo : t.txOuts.map (·.bytes) = (fieldsOf t).outs.map WireOut.bytes := by
    simp only [fieldsOf, List.map_map, Function.comp_def, WireOut.bytes]
    exact List.map_congr_left fun o ho => (hB.facts.outs o ho).eq.2.2
  have h1 := congrArg Tx.txIdLe ho
  have h2 := congrArg Tx.wtxIdLe ho
  have hb' := congrArg Tx.bytes ho
  simp only [txObj] at h1 h2 hb'
  rw [← hb', hb] at h1 h2
  rw [hbi, hbo, hw] at h1
  subst hw
  refine ⟨rfl, rfl, ?_, rfl, rfl, ?_, ?_, ?_⟩
  · simp [fieldsOf]
  · intro ws hws
    simp only [fieldsOf, Option.map_eq_some_iff] at hws
    obtain ⟨_, -, h⟩ := hws
    exact h
  · rw [h1]
    cases hf : t.flag with
    | none =>
      simp only [Option.isSome_none, Bool.false_eq_true, if_false]
      unfold WireTx.bytes WireTx.stripped
      simp [fieldsOf, hf]
    | some f => simp [WireTx.stripped, fieldsOf]
  · rw [h2]
    cases hf : t.flag <;> simp [fieldsOf, hf]

/-- C99: and then all the fields are those that were sent, and the id is the hash of the transaction without its witnesses. -/
theorem C99_fields (E : Env) (hn : E.net.Supported) (w : WireTx) (h : w.WF) (rest : Bytes) (t : Tx)
    (ht : Tx.fromBytes E (w.bytes ++ rest) = .ok t) (hb : t.bytes = w.bytes) :
    t.version = w.version ∧ t.lockTime = w.lockTime ∧ (t.flag ≠ none ↔ w.wits ≠ none) ∧
    t.txIns.map (fun i => (⟨i.outpoint.txId, i.outpoint.index, i.scriptSig, i.sequence⟩ : WireIn)) = w.ins ∧
    t.txOuts.map (fun o => (⟨o.value, o.outputScript⟩ : WireOut)) = w.outs ∧
    (∀ ws, w.wits = some ws → (t.txWitnesses.getD []).map (fun s => s.stack.map (·.item)) = ws) ∧
    t.txIdLe = E.hash256 w.stripped ∧ t.wtxIdLe = w.wits.map fun _ => E.hash256 w.bytes :=
  tx_fields E hn w h.loose rest t ht hb

/-- A transaction for examples: BIP144, one input with two pushes, two outputs. -/
def exWire : WireTx where
  version := [2, 0, 0, 0]
  ins := [⟨List.replicate 32 0xaa, [1, 0, 0, 0], [1, 7, 2, 0x51, 0x51], [0xfe, 0xff, 0xff, 0xff]⟩]
  outs := [⟨[0, 0xe4, 0xb, 0x54, 2, 0, 0, 0], [0x51]⟩, ⟨[1, 0, 0, 0, 0, 0, 0, 0], []⟩]
  wits := some [[[], [9, 9]]]
  lockTime := [0, 0, 0, 0]

theorem exWire_wf : exWire.WF := by
  refine ⟨rfl, rfl, ⟨by decide, by decide, ?_⟩, ⟨by decide, by decide, ?_⟩, ?_⟩
  · simp only [exWire, List.mem_singleton]; rintro _ rfl; exact ⟨rfl, rfl, rfl, by decide⟩
  · simp only [exWire, List.mem_cons, List.not_mem_nil, or_false]; rintro _ (rfl | rfl) <;> exact ⟨rfl, by decide⟩
  · simp only [exWire, Option.some.injEq]
    rintro _ rfl
    refine ⟨rfl, ?_⟩
    simp only [List.mem_singleton]
    rintro _ rfl
    exact ⟨by decide, by simp⟩

example : exWire.WF ∧ ∃ t, Tx.fromBytes toyEnv (exWire.bytes ++ [1, 2, 3]) = .ok t ∧ t.bytes = exWire.bytes := by
  refine ⟨exWire_wf, (C99_exact toyEnv (by unfold Network.Supported; decide +kernel) exWire exWire_wf _).2 ⟨⟨nofun, nofun⟩, ?_, ?_, fun _ _ _ _ => ⟨nofun, fun _ _ => nofun⟩⟩⟩
  · simp only [exWire, List.mem_singleton]
    rintro _ rfl
    exact ⟨by decide, nofun, .inr (.inl ⟨[.push [7], .push [0x51, 0x51]], by simp [ScriptItem.Valid], by decide⟩)⟩
  · simp only [exWire, List.mem_cons, List.not_mem_nil, or_false]
    rintro _ (rfl | rfl) <;> decide

/-- C99 fails for a standard kind of transaction: with an output script of 252 bytes it is not read at all. -/
theorem C99_false_output : ∃ w : WireTx, w.WF ∧ Tx.fromBytes toyEnv w.bytes = .error .notImplementedError := by
  refine ⟨⟨[1, 0, 0, 0], [⟨List.replicate 32 0xaa, [1, 0, 0, 0], [], [0, 0, 0, 0]⟩],
    [⟨[0, 0, 0, 0, 0, 0, 0, 0], List.replicate 252 0⟩], none, [0, 0, 0, 0]⟩,
    ⟨rfl, rfl, ⟨by decide, by decide, ?_⟩, ⟨by decide, by decide, ?_⟩, by simp⟩, ?_⟩
  · simp only [List.mem_singleton]; rintro _ rfl; exact ⟨rfl, rfl, rfl, by decide⟩
  · simp only [List.mem_singleton]; rintro _ rfl; exact ⟨rfl, by simp only [List.length_replicate]; omega⟩
  · decide +kernel

/-- C99 fails without any error: a push that is longer than need be in an input script shifts everything that follows. Here a payment of
one unit to `OP_1 OP_1 OP_1 OP_1` is read as a payment of 257 units to the empty script, with another lock time. -/
theorem C99_false_misread : ∃ w : WireTx, w.WF ∧ w.outs = [⟨[1, 0, 0, 0, 0, 0, 0, 0], [0x51, 0x51, 0x51, 0x51]⟩] ∧ w.lockTime = [0, 0, 0, 0] ∧
    ∃ t, Tx.fromBytes toyEnv w.bytes = .ok t ∧ t.txOuts.map (fun o => (o.value, o.outputScript)) = [([1, 1, 0, 0, 0, 0, 0, 0], [])] ∧
      t.lockTime = [4, 0x51, 0x51, 0x51] := by
  refine ⟨⟨[1, 0, 0, 0], [⟨List.replicate 32 0xaa, [1, 0, 0, 0], [0x4c, 1, 7, 1, 0x51], [0, 0, 0, 1]⟩],
    [⟨[1, 0, 0, 0, 0, 0, 0, 0], [0x51, 0x51, 0x51, 0x51]⟩], none, [0, 0, 0, 0]⟩,
    ⟨rfl, rfl, ⟨by decide, by decide, ?_⟩, ⟨by decide, by decide, ?_⟩, by simp⟩, rfl, rfl, ?_⟩
  · simp only [List.mem_singleton]; rintro _ rfl; exact ⟨rfl, rfl, rfl, by decide⟩
  · simp only [List.mem_singleton]; rintro _ rfl; exact ⟨rfl, by simp⟩
  · have key : ∀ r : Py Tx, (match r with
        | .ok t => decide (t.txOuts.map (fun o => (o.value, o.outputScript)) = [([1, 1, 0, 0, 0, 0, 0, 0], [])] ∧ t.lockTime = [4, 0x51, 0x51, 0x51])
        | .error _ => false) = true → ∃ t, r = .ok t ∧ t.txOuts.map (fun o => (o.value, o.outputScript)) = [([1, 1, 0, 0, 0, 0, 0, 0], [])] ∧
          t.lockTime = [4, 0x51, 0x51, 0x51] := by
      intro r hr
      cases r with
      | error e => cases hr
      | ok t => exact ⟨t, rfl, of_decide_eq_true hr⟩
    exact key _ (by decide +kernel)

/-- C99 fails on Zcash networks for the lengths 253 to 255 as well: an input script of 253 bytes is not read. -/
theorem C99_false_length : ∃ w : WireTx, w.WF ∧ (∀ i ∈ w.ins, i.script.length = 253) ∧
    Tx.fromBytes ⟨zcashSaplingMain, toyEnv.H⟩ w.bytes = .error .valueError := by
  refine ⟨⟨[1, 0, 0, 0], [⟨List.replicate 32 0xaa, [1, 0, 0, 0], List.replicate 253 0x51, [0, 0, 0, 0]⟩],
    [⟨[0, 0, 0, 0, 0, 0, 0, 0], []⟩], none, [0, 0, 0, 0]⟩,
    ⟨rfl, rfl, ⟨by decide, by decide, ?_⟩, ⟨by decide, by decide, ?_⟩, (fun _ h => nomatch h)⟩, ?_, ?_⟩
  · simp only [List.mem_singleton]; rintro _ rfl; exact ⟨rfl, rfl, rfl, by decide +kernel⟩
  · simp only [List.mem_singleton]; rintro _ rfl; exact ⟨rfl, by decide⟩
  · simp only [List.mem_singleton]; rintro _ rfl; exact List.length_replicate ..
  · decide +kernel

end Verif.Props
