import Verif.Props.DynZTx

/-! # Decred transactions of arguments of any type (C117) -/

namespace Verif.Props

open Spec

/-- The arguments that `DecredTx` accepts, and their bytes. -/
structure DcrArgs (net : Network) (version txIns txOuts lockTime expiry txWitnesses : Val) (bv bl be : Bytes) (ins outs wits : List Val) (bi bo bw : List Bytes) : Prop where
  decred : net.isDecred = true
  ver : Byteslike version bv
  ver_len : bv.length = 4
  lock : Byteslike lockTime bl
  lock_len : bl.length = 4
  exp : Byteslike expiry be
  exp_len : be.length = 4
  ins_ok : SeqOf .dcrTxIn txIns ins bi
  ins_ne : ins ≠ []
  ins_lt : ins.length < 2 ^ 64
  outs_ok : SeqOf .dcrTxOut txOuts outs bo
  outs_ne : outs ≠ []
  outs_lt : outs.length < 2 ^ 64
  wits_ok : SeqOf .dcrWitness txWitnesses wits bw
  wits_lt : wits.length < 2 ^ 64

theorem firstTwo_content {v : Val} {b : Bytes} (h : v.content = some b) : ∃ w, Dyn.firstTwo v = .ok w ∧ w.content = some (b.take 2) := by
  cases v <;> cases h
  · exact ⟨_, rfl, rfl⟩
  · exact ⟨_, rfl, rfl⟩
  · exact ⟨_, rfl, rfl⟩

/-- The object: its bytes are the transaction on the wire, its id BLAKE-256 of the prefix. -/
def dcrObj (version txIns txOuts lockTime expiry txWitnesses : Val) (bv bl be : Bytes) (bi bo bw : List Bytes) : Val :=
  .obj .dcrTx [version, txIns, txOuts, lockTime, expiry, txWitnesses, .bytes (blake256 (dcrPrefix bv bi bo bl be)), .bytes (blake256 (dcrPrefix bv bi bo bl be)).reverse]
    (dcrFull bv bi bo bl be bw)

theorem dcrPrefix_made {net : Network} {version txIns txOuts lockTime expiry txWitnesses : Val} {bv bl be : Bytes} {ins outs wits : List Val} {bi bo bw : List Bytes}
    (h : DcrArgs net version txIns txOuts lockTime expiry txWitnesses bv bl be ins outs wits bi bo bw) :
    Dyn.dcrPrefix net version txIns txOuts lockTime expiry = .ok (dcrPrefix bv bi bo bl be) := by
  obtain ⟨w, e, hw⟩ := firstTwo_content h.ver
  unfold Dyn.dcrPrefix decredGate
  rw [check_bind, if_pos h.decred, e, ok_bind, iadd_ok.2 ⟨_, hw, rfl⟩, ok_bind, addVector_ok h.ins_ok h.ins_lt, ok_bind, addVector_ok h.outs_ok h.outs_lt, ok_bind,
    iadd_ok.2 ⟨_, h.lock, rfl⟩, ok_bind, iadd_ok.2 ⟨_, h.exp, rfl⟩]
  rfl

attribute [local irreducible] blake256 in
theorem dcr_ok_of {net : Network} {version txIns txOuts lockTime expiry txWitnesses : Val} {bv bl be : Bytes} {ins outs wits : List Val} {bi bo bw : List Bytes}
    (h : DcrArgs net version txIns txOuts lockTime expiry txWitnesses bv bl be ins outs wits bi bo bw) :
    Dyn.dcrTx net version txIns txOuts lockTime expiry txWitnesses =
      (do check (¬ (dcrFull bv bi bo bl be bw).length > 100000) .valueError
          .ok (dcrObj version txIns txOuts lockTime expiry txWitnesses bv bl be bi bo bw)) := by
  have hi := h.ins_ne
  have ho := h.outs_ne
  rw [← List.length_pos_iff] at hi ho
  have ev : ∀ {v : Val} {b : Bytes} {n : Nat}, Byteslike v b → b.length = n → v.validate (some n) = .ok () := fun h l =>
    (validate_ok (u := ())).2 ⟨_, h, fun _ e => by cases e; exact l⟩
  unfold Dyn.dcrTx decredGate
  rw [check_bind, if_pos h.decred]
  simp only [Val.validateAll]
  rw [ev h.ver h.ver_len, ev h.lock h.lock_len, ev h.exp h.exp_len]
  simp only [ok_bind]
  rw [h.ins_ok.iter.2, ok_bind, h.outs_ok.iter.2, ok_bind, check_bind, if_pos (by omega), h.ins_ok.all, ok_bind, h.outs_ok.all, ok_bind, h.wits_ok.all, ok_bind,
    iadd_ok.2 ⟨_, h.ver, rfl⟩, ok_bind, addVector_ok h.ins_ok h.ins_lt, ok_bind, addVector_ok h.outs_ok h.outs_lt, ok_bind,
    iadd_ok.2 ⟨_, h.lock, rfl⟩, ok_bind, iadd_ok.2 ⟨_, h.exp, rfl⟩, ok_bind, addVector_ok h.wits_ok h.wits_lt, ok_bind, dcrPrefix_made h, ok_bind]
  simp only [List.nil_append]
  rfl

theorem dcr_tests (net : Network) (version txIns txOuts lockTime expiry txWitnesses : Val) :
    (∃ bv bl be ins outs wits bi bo bw, DcrArgs net version txIns txOuts lockTime expiry txWitnesses bv bl be ins outs wits bi bo bw) ∨
    (Dyn.dcrTx net version txIns txOuts lockTime expiry txWitnesses = .error .valueError ∨
      Dyn.dcrTx net version txIns txOuts lockTime expiry txWitnesses = .error .typeError ∧
        (txIns.len = .error .typeError ∨ txOuts.len = .error .typeError ∨ txWitnesses.len = .error .typeError)) := by
  unfold Dyn.dcrTx decredGate
  rw [check_bind]
  by_cases hz : net.isDecred = true
  case neg => rw [if_neg hz]; exact .inr (.inl rfl)
  rw [if_pos hz]
  simp only [Val.validateAll]
  rcases validate_cases version (some 4) with ⟨bv, hv, lv, e⟩ | ⟨-, e⟩ <;> rw [e]
  case inr => exact .inr (.inl rfl)
  simp only [ok_bind]
  rcases validate_cases lockTime (some 4) with ⟨bl, hl, ll, e⟩ | ⟨-, e⟩ <;> rw [e]
  case inr => exact .inr (.inl rfl)
  simp only [ok_bind]
  rcases validate_cases expiry (some 4) with ⟨be, he, le, e⟩ | ⟨-, e⟩ <;> rw [e]
  case inr => exact .inr (.inl rfl)
  simp only [ok_bind]
  cases hni : txIns.len with
  | error e => have := len_error hni; subst this; exact .inr (.inr ⟨rfl, .inl rfl⟩)
  | ok ni =>
  rw [ok_bind]
  cases hno : txOuts.len with
  | error e => have := len_error hno; subst this; exact .inr (.inr ⟨rfl, .inr (.inl rfl)⟩)
  | ok no =>
  rw [ok_bind, check_bind]
  by_cases hmin : ¬ min ni no = 0
  case neg => rw [if_neg hmin]; exact .inr (.inl rfl)
  rw [if_pos hmin]
  rcases allInstances_cases .dcrTxIn txIns with ⟨ins, bi, hi, e⟩ | ⟨-, e | ⟨e, h⟩⟩ <;> rw [e]
  case inr.inl => exact .inr (.inl rfl)
  case inr.inr => rw [hni] at h; cases h
  rw [ok_bind]
  rcases allInstances_cases .dcrTxOut txOuts with ⟨outs, bo, hout, e⟩ | ⟨-, e | ⟨e, h⟩⟩ <;> rw [e]
  case inr.inl => exact .inr (.inl rfl)
  case inr.inr => rw [hno] at h; cases h
  rw [ok_bind]
  rcases allInstances_cases .dcrWitness txWitnesses with ⟨wits, bw, hw, e⟩ | ⟨-, e | ⟨e, h⟩⟩ <;> rw [e]
  case inr.inl => exact .inr (.inl rfl)
  case inr.inr => exact .inr (.inr ⟨rfl, .inr (.inr h)⟩)
  rw [ok_bind]
  rw [hi.iter.2] at hni
  rw [hout.iter.2] at hno
  cases hni
  cases hno
  rw [iadd_ok.2 ⟨_, hv, rfl⟩, ok_bind]
  by_cases li : ins.length < 2 ^ 64
  case neg => rw [addVector_error hi li]; exact .inr (.inl rfl)
  rw [addVector_ok hi li, ok_bind]
  by_cases lo : outs.length < 2 ^ 64
  case neg => rw [addVector_error hout lo]; exact .inr (.inl rfl)
  rw [addVector_ok hout lo, ok_bind, iadd_ok.2 ⟨_, hl, rfl⟩, ok_bind, iadd_ok.2 ⟨_, he, rfl⟩, ok_bind]
  by_cases lw : wits.length < 2 ^ 64
  case neg => rw [addVector_error hw lw]; exact .inr (.inl rfl)
  refine .inl ⟨bv, bl, be, ins, outs, wits, bi, bo, bw, ⟨hz, hv, lv _ rfl, hl, ll _ rfl, he, le _ rfl, hi, ?_, li, hout, ?_, lo, hw, lw⟩⟩
  · rintro rfl; exact hmin (by simp)
  · rintro rfl; exact hmin (by simp)

/-- C117: `DecredTx(…)` with whatever arguments makes an object exactly when: the network is a Decred one; version, lock time and expiry are bytes-like of 4 bytes; inputs and outputs
are non-empty lists or tuples of `DecredTxIn` and `DecredTxOut` objects, the witnesses a list or tuple (or anything iterable and empty) of `DecredInputWitness` objects; and the
transaction has at most 100000 bytes. Its bytes are then those of the full serialization and its id the hash of the prefix. Otherwise it raises ValueError, or TypeError if an
argument that should be a sequence has no length. The number of witnesses is not compared with that of the inputs. -/
theorem C117_tx (net : Network) (version txIns txOuts lockTime expiry txWitnesses : Val) :
    (∀ v, Dyn.dcrTx net version txIns txOuts lockTime expiry txWitnesses = .ok v ↔
      ∃ bv bl be ins outs wits bi bo bw, DcrArgs net version txIns txOuts lockTime expiry txWitnesses bv bl be ins outs wits bi bo bw ∧
        (dcrFull bv bi bo bl be bw).length ≤ 100000 ∧ v = dcrObj version txIns txOuts lockTime expiry txWitnesses bv bl be bi bo bw) ∧
    ∀ e, Dyn.dcrTx net version txIns txOuts lockTime expiry txWitnesses = .error e → e = .valueError ∨
      e = .typeError ∧ (txIns.len = .error .typeError ∨ txOuts.len = .error .typeError ∨ txWitnesses.len = .error .typeError) := by
  constructor
  · intro v
    constructor
    · intro h
      rcases dcr_tests net version txIns txOuts lockTime expiry txWitnesses with ⟨bv, bl, be, ins, outs, wits, bi, bo, bw, ha⟩ | e | ⟨e, -⟩
      · rw [dcr_ok_of ha, check_bind] at h
        split at h
        · cases h; exact ⟨bv, bl, be, ins, outs, wits, bi, bo, bw, ha, by omega, rfl⟩
        · cases h
      · rw [e] at h; cases h
      · rw [e] at h; cases h
    · rintro ⟨bv, bl, be, ins, outs, wits, bi, bo, bw, ha, hs, rfl⟩
      rw [dcr_ok_of ha, check_bind, if_pos (by omega)]
  · intro e h
    rcases dcr_tests net version txIns txOuts lockTime expiry txWitnesses with ⟨bv, bl, be, ins, outs, wits, bi, bo, bw, ha⟩ | e' | ⟨e', ht⟩
    · rw [dcr_ok_of ha, check_bind] at h
      split at h
      · cases h
      · cases h; exact .inl rfl
    · rw [e'] at h; cases h; exact .inl rfl
    · rw [e'] at h; cases h; exact .inr ⟨rfl, ht⟩

end Verif.Props
