import Verif.Lemmas.ZcashSig
import Verif.Lemmas.Sighash3
import Verif.Lemmas.Sapling2

/-! Lemmas for the binding of Zcash signature hashes: the fields of equal preimages, and what equal concatenations say. -/

namespace Verif
open Spec

theorem zHash_lengths {blake : Bytes → Bytes → Bytes} (hh : ∀ p b, (blake p b).length = 32) (t : ZSigTx) (i T : Nat) :
    (zHashPrevouts blake t T).length = 32 ∧ (zHashSequence blake t T).length = 32 ∧ (zHashOutputs blake t i T).length = 32 ∧
    (zHashJoinsplits blake t).length = 32 ∧ (zHashSpends blake t).length = 32 ∧ (zHashShieldedOutputs blake t).length = 32 := by
  refine ⟨?_, ?_, ?_, ?_, ?_, ?_⟩
  · unfold zHashPrevouts; split; · rfl
    exact hh ..
  · unfold zHashSequence; split; · rfl
    exact hh ..
  · unfold zHashOutputs
    split; · exact hh ..
    split
    · split; · exact hh ..
      rfl
    · rfl
  · unfold zHashJoinsplits; split; · rfl
    exact hh ..
  · unfold zHashSpends; split; · rfl
    exact hh ..
  · unfold zHashShieldedOutputs; split; · rfl
    exact hh ..

/-- Field widths of a signed transaction. -/
structure ZWidths (t : ZSigTx) (inp : Option ZInput) (T : Nat) : Prop where
  header : t.header.length = 4
  groupId : t.groupId.length = 4
  lockTime : t.lockTime.length = 4
  expiry : t.expiry.length = 4
  inp : ∀ x, inp = some x → x.outpoint.length = 36 ∧ x.amount.length = 8 ∧ x.sequence.length = 4
  type : T < 2 ^ 32

/-- The parts of equal preimages. -/
structure ZParts (blake : Bytes → Bytes → Bytes) (t : ZSigTx) (i : Nat) (inp : Option ZInput) (T : Nat) (t' : ZSigTx) (i' : Nat)
    (inp' : Option ZInput) (T' : Nat) : Prop where
  header : t.header = t'.header
  groupId : t.groupId = t'.groupId
  prevouts : zHashPrevouts blake t T = zHashPrevouts blake t' T'
  sequence : zHashSequence blake t T = zHashSequence blake t' T'
  outputs : zHashOutputs blake t i T = zHashOutputs blake t' i' T'
  joinsplits : zHashJoinsplits blake t = zHashJoinsplits blake t'
  lockTime : t.lockTime = t'.lockTime
  expiry : t.expiry = t'.expiry
  type : T = T'
  inp : inp = inp'

theorem zInputPart_inj {inp inp' : Option ZInput} (h : ∀ x, inp = some x → x.outpoint.length = 36 ∧ x.amount.length = 8 ∧ x.sequence.length = 4)
    (h' : ∀ x, inp' = some x → x.outpoint.length = 36 ∧ x.amount.length = 8 ∧ x.sequence.length = 4)
    (e : zInputPart inp = zInputPart inp') : inp = inp' := by
  cases inp with
  | none =>
    cases inp' with
    | none => rfl
    | some y =>
      obtain ⟨b1, b2, b3⟩ := h' y rfl
      have := congrArg List.length e
      simp [zInputPart, b1, b2, b3] at this
  | some x =>
    obtain ⟨a1, a2, a3⟩ := h x rfl
    cases inp' with
    | none =>
      have := congrArg List.length e
      simp [zInputPart, a1, a2, a3] at this
    | some y =>
      obtain ⟨b1, b2, b3⟩ := h' y rfl
      have l := congrArg List.length e
      simp only [zInputPart, List.length_append, a1, a2, a3, b1, b2, b3] at l
      simp only [zInputPart, List.append_assoc] at e
      obtain ⟨e1, e⟩ := List.append_inj e (by rw [a1, b1])
      obtain ⟨e2, e⟩ := List.append_inj e (by omega)
      obtain ⟨e3, e4⟩ := List.append_inj e (by rw [a2, b2])
      cases x; cases y
      simp only at e1 e2 e3 e4
      rw [e1, e2, e3, e4]

theorem zip143_inj {blake : Bytes → Bytes → Bytes} (hh : ∀ p b, (blake p b).length = 32) {t t' : ZSigTx} {i i' : Nat} {inp inp' : Option ZInput}
    {T T' : Nat} (w : ZWidths t inp T) (w' : ZWidths t' inp' T') (e : zip143 blake t i inp T = zip143 blake t' i' inp' T') :
    ZParts blake t i inp T t' i' inp' T' := by
  obtain ⟨p1, p2, p3, p4, p5, p6⟩ := zHash_lengths hh t i T
  obtain ⟨q1, q2, q3, q4, q5, q6⟩ := zHash_lengths hh t' i' T'
  unfold zip143 at e
  simp only [List.append_assoc] at e
  obtain ⟨e1, e⟩ := List.append_inj e (by rw [w.header, w'.header])
  obtain ⟨e2, e⟩ := List.append_inj e (by rw [w.groupId, w'.groupId])
  obtain ⟨e3, e⟩ := List.append_inj e (by rw [p1, q1])
  obtain ⟨e4, e⟩ := List.append_inj e (by rw [p2, q2])
  obtain ⟨e5, e⟩ := List.append_inj e (by rw [p3, q3])
  obtain ⟨e6, e⟩ := List.append_inj e (by rw [p4, q4])
  obtain ⟨e7, e⟩ := List.append_inj e (by rw [w.lockTime, w'.lockTime])
  obtain ⟨e8, e⟩ := List.append_inj e (by rw [w.expiry, w'.expiry])
  obtain ⟨e9, e⟩ := List.append_inj e (by rw [leBytes_length, leBytes_length])
  exact ⟨e1, e2, e3, e4, e5, e6, e7, e8, leBytes4_inj w.type w'.type e9, zInputPart_inj w.inp w'.inp e⟩

theorem zip243_inj {blake : Bytes → Bytes → Bytes} (hh : ∀ p b, (blake p b).length = 32) {t t' : ZSigTx} {i i' : Nat} {inp inp' : Option ZInput}
    {T T' : Nat} (w : ZWidths t inp T) (w' : ZWidths t' inp' T') (hb : t.balance.length = 8) (hb' : t'.balance.length = 8)
    (e : zip243 blake t i inp T = zip243 blake t' i' inp' T') :
    ZParts blake t i inp T t' i' inp' T' ∧ zHashSpends blake t = zHashSpends blake t' ∧
      zHashShieldedOutputs blake t = zHashShieldedOutputs blake t' ∧ t.balance = t'.balance := by
  obtain ⟨p1, p2, p3, p4, p5, p6⟩ := zHash_lengths hh t i T
  obtain ⟨q1, q2, q3, q4, q5, q6⟩ := zHash_lengths hh t' i' T'
  unfold zip243 at e
  simp only [List.append_assoc] at e
  obtain ⟨e1, e⟩ := List.append_inj e (by rw [w.header, w'.header])
  obtain ⟨e2, e⟩ := List.append_inj e (by rw [w.groupId, w'.groupId])
  obtain ⟨e3, e⟩ := List.append_inj e (by rw [p1, q1])
  obtain ⟨e4, e⟩ := List.append_inj e (by rw [p2, q2])
  obtain ⟨e5, e⟩ := List.append_inj e (by rw [p3, q3])
  obtain ⟨e6, e⟩ := List.append_inj e (by rw [p4, q4])
  obtain ⟨e10, e⟩ := List.append_inj e (by rw [p5, q5])
  obtain ⟨e11, e⟩ := List.append_inj e (by rw [p6, q6])
  obtain ⟨e7, e⟩ := List.append_inj e (by rw [w.lockTime, w'.lockTime])
  obtain ⟨e8, e⟩ := List.append_inj e (by rw [w.expiry, w'.expiry])
  obtain ⟨e12, e⟩ := List.append_inj e (by rw [hb, hb'])
  obtain ⟨e9, e⟩ := List.append_inj e (by rw [leBytes_length, leBytes_length])
  exact ⟨⟨e1, e2, e3, e4, e5, e6, e7, e8, leBytes4_inj w.type w'.type e9, zInputPart_inj w.inp w'.inp e⟩, e10, e11, e12⟩

/-- One of the listed pairs of messages (under a personalisation) is a hash collision, or a message hashes to zero. -/
def BlakeBreak (blake : Bytes → Bytes → Bytes) (l : List (Bytes × Bytes × Bytes)) : Prop :=
  ∃ p ∈ l, (p.2.1 ≠ p.2.2 ∧ blake p.1 p.2.1 = blake p.1 p.2.2) ∨ blake p.1 p.2.1 = zeros32 ∨ blake p.1 p.2.2 = zeros32

theorem BlakeBreak.not {blake : Bytes → Bytes → Bytes} {l : List (Bytes × Bytes × Bytes)} (h : ¬ BlakeBreak blake l) {p a b : Bytes}
    (hm : (p, a, b) ∈ l) : (blake p a = blake p b → a = b) ∧ blake p a ≠ zeros32 ∧ blake p b ≠ zeros32 := by
  refine ⟨fun e => Classical.byContradiction fun n => h ⟨_, hm, .inl ⟨n, e⟩⟩, fun e => h ⟨_, hm, .inr (.inl e)⟩, fun e => h ⟨_, hm, .inr (.inr e)⟩⟩

/-- The pairs of messages compared by two digests. -/
def zPairs (t : ZSigTx) (i : Nat) (t' : ZSigTx) (i' : Nat) : List (Bytes × Bytes × Bytes) :=
  [(persPrevouts, (t.ins.map (·.1)).flatten, (t'.ins.map (·.1)).flatten), (persSequence, (t.ins.map (·.2)).flatten, (t'.ins.map (·.2)).flatten),
    (persOutputs, t.outs.flatten, t'.outs.flatten), (persOutputs, t.outs.getD i [], t'.outs.getD i' []),
    (persJoinsplits, t.js.flatten ++ t.jsPubkey, t'.js.flatten ++ t'.jsPubkey), (persSpends, t.spends.flatten, t'.spends.flatten),
    (persShieldedOutputs, t.outputs.flatten, t'.outputs.flatten)]

theorem zPrevouts_break {blake : Bytes → Bytes → Bytes} {t t' : ZSigTx} {i i' : Nat} {l : List (Bytes × Bytes × Bytes)}
    (hl : zPairs t i t' i' ⊆ l) (nb : ¬ BlakeBreak blake l) {T : Nat} (ha : acpBit T = false)
    (e : zHashPrevouts blake t T = zHashPrevouts blake t' T) : (t.ins.map (·.1)).flatten = (t'.ins.map (·.1)).flatten := by
  unfold zHashPrevouts at e
  rw [ha] at e
  exact (BlakeBreak.not nb (hl (by unfold zPairs; exact .head _))).1 e

theorem zSequence_break {blake : Bytes → Bytes → Bytes} {t t' : ZSigTx} {i i' : Nat} {l : List (Bytes × Bytes × Bytes)}
    (hl : zPairs t i t' i' ⊆ l) (nb : ¬ BlakeBreak blake l) {T : Nat} (ha : acpBit T = false) (hb : baseType T = 1)
    (e : zHashSequence blake t T = zHashSequence blake t' T) : (t.ins.map (·.2)).flatten = (t'.ins.map (·.2)).flatten := by
  unfold zHashSequence at e
  rw [ha, hb] at e
  exact (BlakeBreak.not nb (hl (by unfold zPairs; exact .tail _ (.head _)))).1 e

theorem zOutputs_break {blake : Bytes → Bytes → Bytes} {t t' : ZSigTx} {i i' : Nat} {l : List (Bytes × Bytes × Bytes)}
    (hl : zPairs t i t' i' ⊆ l) (nb : ¬ BlakeBreak blake l) {T : Nat} (hb : baseType T = 1)
    (e : zHashOutputs blake t i T = zHashOutputs blake t' i' T) : t.outs.flatten = t'.outs.flatten := by
  unfold zHashOutputs at e
  rw [hb] at e
  exact (BlakeBreak.not nb (hl (by unfold zPairs; exact .tail _ (.tail _ (.head _))))).1 (by simpa using e)

theorem zOutput_break {blake : Bytes → Bytes → Bytes} {t t' : ZSigTx} {i i' : Nat} {l : List (Bytes × Bytes × Bytes)}
    (hl : zPairs t i t' i' ⊆ l) (nb : ¬ BlakeBreak blake l) {T : Nat} (hb : baseType T = 3) {o o' : Bytes} (ho : t.outs[i]? = some o)
    (ho' : t'.outs[i']? = some o') (e : zHashOutputs blake t i T = zHashOutputs blake t' i' T) : o = o' := by
  unfold zHashOutputs at e
  rw [hb, ho, ho'] at e
  have := (BlakeBreak.not nb (hl (by unfold zPairs; exact .tail _ (.tail _ (.tail _ (.head _)))))).1
  simp only [List.getD_eq_getElem?_getD, ho, ho', Option.getD_some] at this
  exact this (by simpa using e)

theorem zJoinsplits_break {blake : Bytes → Bytes → Bytes} {t t' : ZSigTx} {i i' : Nat} {l : List (Bytes × Bytes × Bytes)}
    (hl : zPairs t i t' i' ⊆ l) (nb : ¬ BlakeBreak blake l) (e : zHashJoinsplits blake t = zHashJoinsplits blake t') :
    (t.js = [] ∧ t'.js = []) ∨ (t.js ≠ [] ∧ t'.js ≠ [] ∧ t.js.flatten ++ t.jsPubkey = t'.js.flatten ++ t'.jsPubkey) := by
  obtain ⟨n1, n2, n3⟩ := BlakeBreak.not nb (hl (by unfold zPairs; exact .tail _ (.tail _ (.tail _ (.tail _ (.head _))))))
  unfold zHashJoinsplits at e
  by_cases c : t.js = [] <;> by_cases c' : t'.js = []
  · exact .inl ⟨c, c'⟩
  · rw [if_pos c, if_neg c'] at e; exact absurd e.symm n3
  · rw [if_neg c, if_pos c'] at e; exact absurd e n2
  · rw [if_neg c, if_neg c'] at e; exact .inr ⟨c, c', n1 e⟩

theorem zSpends_break {blake : Bytes → Bytes → Bytes} {t t' : ZSigTx} {i i' : Nat} {l : List (Bytes × Bytes × Bytes)}
    (hl : zPairs t i t' i' ⊆ l) (nb : ¬ BlakeBreak blake l) (e : zHashSpends blake t = zHashSpends blake t') :
    t.spends.flatten = t'.spends.flatten := by
  obtain ⟨n1, n2, n3⟩ := BlakeBreak.not nb (hl (by unfold zPairs; exact .tail _ (.tail _ (.tail _ (.tail _ (.tail _ (.head _)))))))
  unfold zHashSpends at e
  by_cases c : t.spends = [] <;> by_cases c' : t'.spends = []
  · rw [c, c']
  · rw [if_pos c, if_neg c'] at e; exact absurd e.symm n3
  · rw [if_neg c, if_pos c'] at e; exact absurd e n2
  · rw [if_neg c, if_neg c'] at e; exact n1 e

theorem zShielded_break {blake : Bytes → Bytes → Bytes} {t t' : ZSigTx} {i i' : Nat} {l : List (Bytes × Bytes × Bytes)}
    (hl : zPairs t i t' i' ⊆ l) (nb : ¬ BlakeBreak blake l) (e : zHashShieldedOutputs blake t = zHashShieldedOutputs blake t') :
    t.outputs.flatten = t'.outputs.flatten := by
  obtain ⟨n1, n2, n3⟩ := BlakeBreak.not nb (hl (by unfold zPairs; exact .tail _ (.tail _ (.tail _ (.tail _ (.tail _ (.tail _ (.head _))))))))
  unfold zHashShieldedOutputs at e
  by_cases c : t.outputs = [] <;> by_cases c' : t'.outputs = []
  · rw [c, c']
  · rw [if_pos c, if_neg c'] at e; exact absurd e.symm n3
  · rw [if_neg c, if_pos c'] at e; exact absurd e n2
  · rw [if_neg c, if_neg c'] at e; exact n1 e

/-! Lists of inputs, outputs, … from the concatenations. -/

theorem ins_fst {ins ins' : List TxIn} (h : ∀ i ∈ ins, i.Built) (h' : ∀ i ∈ ins', i.Built)
    (e : ((ins.map fun i => (i.outpoint.txId ++ i.outpoint.index, i.sequence)).map (·.1)).flatten =
      ((ins'.map fun i => (i.outpoint.txId ++ i.outpoint.index, i.sequence)).map (·.1)).flatten) :
    ins.map (·.outpoint) = ins'.map (·.outpoint) := by
  have hb : ∀ {ins : List TxIn}, (∀ i ∈ ins, i.Built) →
      ∀ x ∈ (ins.map fun i => (i.outpoint.txId ++ i.outpoint.index, i.sequence)).map (·.1), x.length = 36 := by
    intro ins h x hx
    simp only [List.map_map, List.mem_map, Function.comp] at hx
    obtain ⟨i, hi, rfl⟩ := hx
    exact (h i hi).eq.1.len36
  have e2 := flatten_inj' (fixed_selfDelim 36) (by rintro x hx rfl; simp at hx) (hb h) (hb h') e
  have e3 : (ins.map (·.outpoint)).map (fun o => o.txId ++ o.index) = (ins'.map (·.outpoint)).map (fun o => o.txId ++ o.index) := by
    simpa only [List.map_map, Function.comp_def] using e2
  refine map_bytes_inj (P := Outpoint.Built) (fun x y hx hy => hx.inj hy) ?_ ?_ e3
  · intro x hx
    obtain ⟨i, hi, rfl⟩ := List.mem_map.1 hx
    exact (h i hi).eq.1
  · intro x hx
    obtain ⟨i, hi, rfl⟩ := List.mem_map.1 hx
    exact (h' i hi).eq.1

theorem ins_snd {ins ins' : List TxIn} (h : ∀ i ∈ ins, i.Built) (h' : ∀ i ∈ ins', i.Built)
    (e : ((ins.map fun i => (i.outpoint.txId ++ i.outpoint.index, i.sequence)).map (·.2)).flatten =
      ((ins'.map fun i => (i.outpoint.txId ++ i.outpoint.index, i.sequence)).map (·.2)).flatten) :
    ins.map (·.sequence) = ins'.map (·.sequence) := by
  have hb : ∀ {ins : List TxIn}, (∀ i ∈ ins, i.Built) →
      ∀ x ∈ (ins.map fun i => (i.outpoint.txId ++ i.outpoint.index, i.sequence)).map (·.2), x.length = 4 := by
    intro ins h x hx
    simp only [List.map_map, List.mem_map, Function.comp] at hx
    obtain ⟨i, hi, rfl⟩ := hx
    exact (h i hi).eq.2.1
  have e2 := flatten_inj' (fixed_selfDelim 4) (by rintro x hx rfl; simp at hx) (hb h) (hb h') e
  simpa only [List.map_map, Function.comp_def] using e2

theorem outs_flat {outs outs' : List TxOut} (h : ∀ o ∈ outs, o.Built) (h' : ∀ o ∈ outs', o.Built)
    (e : (outs.map fun o => wireOut o.value o.outputScript).flatten = (outs'.map fun o => wireOut o.value o.outputScript).flatten) :
    outs = outs' := by
  rw [← outs_wire h, ← outs_wire h'] at e
  have e2 := flatten_inj' TxOut.selfDelim (by
    rintro x ⟨o, ho, rfl⟩ hh
    have := ho.eq
    rw [this.2.2] at hh
    unfold wireOut at hh
    have := congrArg List.length hh
    simp at this
    have := ho.eq.1
    simp_all)
    (fun x hx => by obtain ⟨o, ho, rfl⟩ := List.mem_map.1 hx; exact ⟨o, h o ho, rfl⟩)
    (fun x hx => by obtain ⟨o, ho, rfl⟩ := List.mem_map.1 hx; exact ⟨o, h' o ho, rfl⟩) e
  exact map_bytes_inj (P := TxOut.Built) (fun x y hx hy e => (hx.inj hy (r := []) (s := []) (by rw [e])).1) h h' e2

/-- Chunks of equal length followed by a tail of fixed length. -/
theorem flat_tail_inj {n : Nat} (hn : n ≠ 0) {xs ys : List Bytes} {p q : Bytes} (hx : ∀ x ∈ xs, x.length = n) (hy : ∀ y ∈ ys, y.length = n)
    (hpq : p.length = q.length) (e : xs.flatten ++ p = ys.flatten ++ q) : xs = ys ∧ p = q := by
  have l := congrArg List.length e
  simp only [List.length_append] at l
  obtain ⟨e1, e2⟩ := List.append_inj e (by omega)
  refine ⟨flatten_inj' (fixed_selfDelim n) ?_ hx hy e1, e2⟩
  rintro x hx rfl
  exact hn hx.symm

theorem SaplingShieldedSpend.Built.part {net : Network} {s : SaplingShieldedSpend} (h : s.Built net) :
    s.cv.length = 32 ∧ s.anchor.length = 32 ∧ s.nullifier.length = 32 ∧ s.rk.length = 32 ∧ s.zkproof.Built net := by
  obtain ⟨_, _, _, _, _, _, hz, e⟩ := h
  obtain ⟨_, h1, h2, h3, h4, _, rfl⟩ := SaplingShieldedSpend.make_iff.1 e
  exact ⟨h1, h2, h3, h4, hz⟩

theorem SaplingShieldedSpend.part_inj {net : Network} {s s' : SaplingShieldedSpend} (h : s.Built net) (h' : s'.Built net)
    (e : s.cv ++ s.anchor ++ s.nullifier ++ s.rk ++ s.zkproof.bytes = s'.cv ++ s'.anchor ++ s'.nullifier ++ s'.rk ++ s'.zkproof.bytes) :
    (s.cv, s.anchor, s.nullifier, s.rk, s.zkproof) = (s'.cv, s'.anchor, s'.nullifier, s'.rk, s'.zkproof) := by
  obtain ⟨a1, a2, a3, a4, a5⟩ := h.part
  obtain ⟨b1, b2, b3, b4, b5⟩ := h'.part
  simp only [List.append_assoc] at e
  obtain ⟨e1, e⟩ := List.append_inj e (by rw [a1, b1])
  obtain ⟨e2, e⟩ := List.append_inj e (by rw [a2, b2])
  obtain ⟨e3, e⟩ := List.append_inj e (by rw [a3, b3])
  obtain ⟨e4, e⟩ := List.append_inj e (by rw [a4, b4])
  have c := SaplingZkproof.fromBytes_bytes a5 []
  have d := SaplingZkproof.fromBytes_bytes b5 []
  rw [e, d] at c
  rw [e1, e2, e3, e4, (Except.ok.inj c).symm]

theorem spends_inj {net : Network} : ∀ {xs ys : List SaplingShieldedSpend}, (∀ s ∈ xs, s.Built net) → (∀ s ∈ ys, s.Built net) →
    xs.map (fun s => s.cv ++ s.anchor ++ s.nullifier ++ s.rk ++ s.zkproof.bytes) =
      ys.map (fun s => s.cv ++ s.anchor ++ s.nullifier ++ s.rk ++ s.zkproof.bytes) →
    xs.map (fun s => (s.cv, s.anchor, s.nullifier, s.rk, s.zkproof)) = ys.map (fun s => (s.cv, s.anchor, s.nullifier, s.rk, s.zkproof))
  | [], [], _, _, _ => rfl
  | [], _ :: _, _, _, h => by simp at h
  | _ :: _, [], _, _, h => by simp at h
  | x :: xs, y :: ys, g, g', h => by
    simp only [List.map_cons, List.cons.injEq] at h
    rw [List.map_cons, List.map_cons, SaplingShieldedSpend.part_inj (g x (by simp)) (g' y (by simp)) h.1,
      spends_inj (fun i hi => g i (by simp [hi])) (fun i hi => g' i (by simp [hi])) h.2]

theorem SaplingShieldedSpend.Built.part_length {net : Network} {s : SaplingShieldedSpend} (h : s.Built net) :
    (s.cv ++ s.anchor ++ s.nullifier ++ s.rk ++ s.zkproof.bytes).length = 320 := by
  obtain ⟨a1, a2, a3, a4, a5⟩ := h.part
  simp only [List.length_append, a1, a2, a3, a4, a5.length]

end Verif
