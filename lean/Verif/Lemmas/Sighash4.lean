import Verif.Lemmas.Sighash3

namespace Verif
open Spec Props

/-! ### the original algorithm: what its preimage determines -/

/-- The shape of a serialized input. -/
def InPiece (b : Bytes) : Prop := ∃ o s q, o.length = 36 ∧ s.length < 2 ^ 64 ∧ q.length = 4 ∧ b = o ++ varBytes s ++ q

theorem piece_inj {o s q o' s' q' r r' : Bytes} (lo : o.length = 36) (lo' : o'.length = 36) (ls : s.length < 2 ^ 64) (ls' : s'.length < 2 ^ 64)
    (lq : q.length = 4) (lq' : q'.length = 4) (h : o ++ varBytes s ++ q ++ r = o' ++ varBytes s' ++ q' ++ r') :
    o = o' ∧ s = s' ∧ q = q' ∧ r = r' := by
  simp only [List.append_assoc] at h
  obtain ⟨h1, h⟩ := List.append_inj h (by rw [lo, lo'])
  obtain ⟨h2, h⟩ := varBytes_inj ls ls' h
  obtain ⟨h3, h⟩ := List.append_inj h (by rw [lq, lq'])
  exact ⟨h1, h2, h3, h⟩

theorem inPiece_selfDelim : SelfDelim InPiece := by
  rintro _ _ r r' ⟨o, s, q, lo, ls, lq, rfl⟩ ⟨o', s', q', lo', ls', lq', rfl⟩ h
  obtain ⟨rfl, rfl, rfl, h4⟩ := piece_inj lo lo' ls ls' lq lq' h
  exact ⟨rfl, h4⟩

theorem legacyIn_all {i T j : Nat} {s : Bytes} {p : Bytes × Bytes} (hT : baseType T = 1) :
    legacyIn i T s j p = p.1 ++ varBytes (if j = i then s else []) ++ p.2 := by
  unfold legacyIn
  rw [hT, if_neg (c := j ≠ i ∧ (1 = 2 ∨ 1 = 3)) (by simp)]
  split <;> simp [varBytes_nil]

theorem sig_in_lengths {E : Env} {t : Tx} (h : t.Built E) : ∀ p ∈ t.sig.ins, p.1.length = 36 ∧ p.2.length = 4 := by
  intro p hp
  simp only [Tx.sig, List.mem_map] at hp
  obtain ⟨i, hi, rfl⟩ := hp
  have := (h.facts.ins i hi).eq
  simp only [List.length_append]
  exact ⟨by rw [this.1.eq.1, this.1.eq.2.1], this.2.1⟩

theorem wireLegacy_inj {SI SO : Bytes → Prop} (hI : SelfDelim SI) (hO : SelfDelim SO) {v v' lt lt' x x' : Bytes} {ins ins' outs outs' : List Bytes}
    (lv : v.length = 4) (lv' : v'.length = 4) (ll : lt.length = 4) (ll' : lt'.length = 4)
    (hi : ∀ b ∈ ins, SI b) (hi' : ∀ b ∈ ins', SI b) (ho : ∀ b ∈ outs, SO b) (ho' : ∀ b ∈ outs', SO b)
    (li : ins.length < 2 ^ 64) (li' : ins'.length < 2 ^ 64) (lo : outs.length < 2 ^ 64) (lo' : outs'.length < 2 ^ 64)
    (h : wireLegacy v ins outs lt ++ x = wireLegacy v' ins' outs' lt' ++ x') :
    v = v' ∧ ins = ins' ∧ outs = outs' ∧ lt = lt' ∧ x = x' := by
  unfold wireLegacy at h
  simp only [List.append_assoc] at h
  obtain ⟨h1, h⟩ := List.append_inj h (by rw [lv, lv'])
  obtain ⟨h2, h⟩ := vector_inj hI hi hi' li li' h
  obtain ⟨h3, h⟩ := vector_inj hO ho ho' lo lo' h
  obtain ⟨h4, h⟩ := List.append_inj h (by rw [ll, ll'])
  exact ⟨h1, h2, h3, h4, h⟩

theorem legacyIns_pieces {E : Env} {t : Tx} (h : t.Built E) {i T : Nat} (hT : baseType T = 1) {s : Bytes} (hs : s.length < 2 ^ 64) :
    (∀ b ∈ legacyIns t.sig i T s, InPiece b) ∧ (legacyIns t.sig i T s).length < 2 ^ 64 := by
  have hl := h.facts.args.2.2.2.2.2.2.1
  have key : ∀ b ∈ t.sig.ins.mapIdx (legacyIn i T s), InPiece b := by
    intro b hb
    obtain ⟨j, hj, rfl⟩ := List.mem_mapIdx.1 hb
    rw [legacyIn_all hT]
    have := sig_in_lengths h _ (List.getElem_mem hj)
    exact ⟨_, _, _, this.1, by split <;> simp [hs], this.2, rfl⟩
  unfold legacyIns
  simp only []
  split
  · refine ⟨fun b hb => key b (List.mem_of_mem_drop (List.mem_of_mem_take hb)), ?_⟩
    rw [List.length_take]; omega
  · refine ⟨key, ?_⟩
    rw [List.length_mapIdx]; simpa [Tx.sig] using hl

theorem outs_pieces {E : Env} {t : Tx} (h : t.Built E) : (∀ b ∈ t.sig.outs, ∃ o : TxOut, o.Built ∧ b = o.bytes) ∧ t.sig.outs.length < 2 ^ 64 := by
  refine ⟨?_, by simpa [Tx.sig] using h.facts.args.2.2.2.2.2.2.2⟩
  simp only [Tx.sig]
  rw [← outs_map h]
  intro b hb
  obtain ⟨o, ho, rfl⟩ := List.mem_map.1 hb
  exact ⟨o, h.facts.outs o ho, rfl⟩

/-- Only the signed input remains. -/
theorem legacyIns_acp {E : Env} {t : Tx} (_ : t.Built E) {i T : Nat} (hT : acpBit T = true) (hi : i < t.txIns.length) (s : Bytes) :
    legacyIns t.sig i T s = [(t.txIns[i].outpoint.txId ++ t.txIns[i].outpoint.index) ++ varBytes s ++ t.txIns[i].sequence] := by
  unfold legacyIns
  simp only [hT, if_true]
  rw [List.drop_eq_getElem_cons (by simpa [Tx.sig] using hi)]
  simp [legacyIn, Tx.sig]

end Verif
