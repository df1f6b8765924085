import Verif.Lemmas.VarInt
import Verif.Lemmas.HashLen
import Verif.Model.Tx
import Verif.Spec.Wire
import Mathlib.Logic.Basic

namespace Verif
open Spec

/-! ### CompactSize -/

theorem leBytes_eq (k n : Nat) : leBytes k n = natToLE k n := by
  induction k generalizing n with
  | zero => rfl
  | succ k ih =>
    unfold leBytes at *
    rw [List.range_succ_eq_map, List.map_cons, List.map_map, natToLE, ← ih]
    congr 1
    · simp
    · apply List.map_congr_left
      intro i _
      simp only [Function.comp_apply, Nat.succ_eq_add_one, Nat.pow_succ]
      rw [Nat.mul_comm, Nat.div_div_eq_div_mul]

theorem compactSize_eq (n : Nat) : compactSize n = varintBytes n := by
  unfold compactSize varintBytes
  simp only [leBytes_eq]

theorem VarInt.make_len {n : Nat} (h : n < 2 ^ 64) : VarInt.make (n : Int) = .ok ⟨compactSize n, n⟩ := by
  rw [compactSize_eq]; exact VarInt.make_nat h

theorem VarInt.make_len_error {n : Nat} (h : ¬ n < 2 ^ 64) : VarInt.make (n : Int) = .error .valueError := by
  unfold VarInt.make
  rw [if_neg (by omega), if_pos (by omega)]

theorem VarInt.make_len_iff {n : Nat} {v : VarInt} : VarInt.make (n : Int) = .ok v ↔ n < 2 ^ 64 ∧ v = ⟨compactSize n, n⟩ := by
  by_cases h : n < 2 ^ 64
  · rw [VarInt.make_len h]; simp only [Except.ok.injEq, h, true_and]; exact eq_comm
  · rw [VarInt.make_len_error h]; simp [h]

/-- What the Zcash rule does not get wrong. -/
def LenOK (net : Network) (n : Nat) : Prop := (net.isOverwinter = false ∧ net.isSapling = false) ∨ ¬ (253 ≤ n ∧ n < 256)

theorem VarInt.fromBytes_len {net : Network} {n : Nat} (h : n < 2 ^ 64) (hz : LenOK net n) (rest : Bytes) :
    VarInt.fromBytes net (compactSize n ++ rest) = .ok ⟨compactSize n, n⟩ := by
  rw [compactSize_eq]; exact VarInt.fromBytes_varintBytes net h rest hz

theorem compactSize_pos (n : Nat) : 0 < (compactSize n).length := by rw [compactSize_eq]; exact varintBytes_length_pos n

theorem compactSize_le (n : Nat) : (compactSize n).length ≤ 9 := by
  unfold compactSize leBytes; repeat' split
  all_goals simp

theorem compactSize_inj {m n : Nat} {r s : Bytes} (hm : m < 2 ^ 64) (hn : n < 2 ^ 64) (h : compactSize m ++ r = compactSize n ++ s) :
    m = n ∧ r = s := by
  have h1 := VarInt.fromBytes_len (net := bitcoinMain) hm (.inl ⟨rfl, rfl⟩) r
  rw [h, VarInt.fromBytes_len (net := bitcoinMain) hn (.inl ⟨rfl, rfl⟩) s] at h1
  simp only [Except.ok.injEq, VarInt.mk.injEq] at h1
  obtain ⟨_, rfl⟩ := h1
  exact ⟨rfl, List.append_cancel_left h⟩

/-- The first byte of a CompactSize is zero only for zero. -/
theorem compactSize_head {n : Nat} (h0 : n ≠ 0) : ∃ x tl, compactSize n = x :: tl ∧ x ≠ 0 := by
  unfold compactSize
  split
  · refine ⟨UInt8.ofNat n, [], ?_, ?_⟩
    · simp [leBytes, Nat.mod_eq_of_lt (show n < 256 by omega)]
    · intro h
      have := congrArg UInt8.toNat h
      simp at this; omega
  · split
    · exact ⟨_, _, rfl, by decide⟩
    · split
      · exact ⟨_, _, rfl, by decide⟩
      · exact ⟨_, _, rfl, by decide⟩

/-! ### constructors -/

theorem validateBytes_ok {b : Bytes} {n : Nat} {u : Unit} : validateBytes b (some n) = .ok u ↔ b.length = n := by
  unfold validateBytes; simp

theorem validateBytes_eq (b : Bytes) (n : Nat) : validateBytes b (some n) = if b.length = n then .ok () else .error .valueError := rfl

theorem validateBytes_none (b : Bytes) : validateBytes b none = .ok () := rfl

theorem Outpoint.make_iff {a b : Bytes} {o : Outpoint} :
    Outpoint.make a b = .ok o ↔ a.length = 32 ∧ b.length = 4 ∧ o = ⟨a, b, a ++ b⟩ := by
  unfold Outpoint.make
  simp only [bind_ok_iff, validateBytes_ok, Except.ok.injEq, exists_prop, exists_const]
  exact ⟨fun ⟨h1, h2, h3⟩ => ⟨h1, h2, h3.symm⟩, fun ⟨h1, h2, h3⟩ => ⟨h1, h2, h3.symm⟩⟩

theorem Outpoint.make_error {a b : Bytes} {e : PyErr} (h : Outpoint.make a b = .error e) : e = .valueError := by
  unfold Outpoint.make at h
  simp only [validateBytes_eq] at h
  split at h
  · simp only [ok_bind] at h
    split at h
    · cases h
    · cases h; rfl
  · cases h; rfl

theorem TxIn.make_iff {o : Outpoint} {ss rs sq : Bytes} {t : TxIn} :
    TxIn.make o ss rs sq = .ok t ↔ o.bytes.length = 36 ∧ sq.length = 4 ∧ ss.length + rs.length ≤ 1650 ∧
      t = ⟨o, ss, rs, ss ++ rs, sq, o.bytes ++ varBytes (ss ++ rs) ++ sq⟩ := by
  unfold TxIn.make
  simp only [bind_ok_iff, validateBytes_ok, validateBytes_none, Except.ok.injEq, exists_prop, exists_const, true_and, check_eq_ok,
    Nat.not_lt, gt_iff_lt]
  constructor
  · rintro ⟨h1, h2, h3, v, hv, rfl⟩
    rw [VarInt.make_len_iff] at hv
    obtain ⟨_, rfl⟩ := hv
    exact ⟨h1, h2, h3, by simp [varBytes, List.append_assoc]⟩
  · rintro ⟨h1, h2, h3, rfl⟩
    refine ⟨h1, h2, h3, _, VarInt.make_len (by omega), by simp [varBytes, List.append_assoc]⟩

theorem TxIn.make_error {o : Outpoint} {ss rs sq : Bytes} {e : PyErr} (h : TxIn.make o ss rs sq = .error e) : e = .valueError := by
  unfold TxIn.make at h
  simp only [validateBytes_eq, validateBytes_none, ok_bind] at h
  split at h
  · simp only [ok_bind] at h
    split at h
    · simp only [ok_bind, check_bind] at h
      split at h
      · rw [VarInt.make_len (by omega)] at h; cases h
      · cases h; rfl
    · cases h; rfl
  · cases h; rfl

theorem TxOut.make_iff {v s : Bytes} {t : TxOut} :
    TxOut.make v s = .ok t ↔ v.length = 8 ∧ s.length < 2 ^ 64 ∧ t = ⟨v, s, wireOut v s⟩ := by
  unfold TxOut.make
  simp only [bind_ok_iff, validateBytes_ok, validateBytes_none, Except.ok.injEq, exists_prop, exists_const, true_and]
  constructor
  · rintro ⟨h1, n, hn, rfl⟩
    rw [VarInt.make_len_iff] at hn
    obtain ⟨h2, rfl⟩ := hn
    exact ⟨h1, h2, by simp [wireOut, varBytes]⟩
  · rintro ⟨h1, h2, rfl⟩
    exact ⟨h1, _, VarInt.make_len h2, by simp [wireOut, varBytes]⟩

theorem TxOut.make_error {v s : Bytes} {e : PyErr} (h : TxOut.make v s = .error e) : e = .valueError := by
  unfold TxOut.make at h
  simp only [validateBytes_eq, validateBytes_none, ok_bind] at h
  split at h
  · simp only [ok_bind] at h
    by_cases hl : s.length < 2 ^ 64
    · rw [VarInt.make_len hl] at h; cases h
    · rw [VarInt.make_len_error hl] at h; cases h; rfl
  · cases h; rfl

theorem WitnessStackItem.make_iff {s : Bytes} {t : WitnessStackItem} :
    WitnessStackItem.make s = .ok t ↔ s.length < 2 ^ 64 ∧ t = ⟨s, varBytes s⟩ := by
  unfold WitnessStackItem.make
  simp only [bind_ok_iff, validateBytes_none, Except.ok.injEq, exists_const, true_and]
  constructor
  · rintro ⟨n, hn, rfl⟩
    rw [VarInt.make_len_iff] at hn
    obtain ⟨h2, rfl⟩ := hn
    exact ⟨h2, by simp [varBytes]⟩
  · rintro ⟨h2, rfl⟩
    exact ⟨_, VarInt.make_len h2, by simp [varBytes]⟩

theorem InputWitness.make_iff {st : List WitnessStackItem} {t : InputWitness} :
    InputWitness.make st = .ok t ↔ st.length < 2 ^ 64 ∧ t = ⟨st, vector (st.map (·.bytes))⟩ := by
  unfold InputWitness.make
  simp only [bind_ok_iff, Except.ok.injEq]
  constructor
  · rintro ⟨n, hn, rfl⟩
    rw [VarInt.make_len_iff] at hn
    obtain ⟨h2, rfl⟩ := hn
    exact ⟨h2, by simp [vector, List.flatMap_def]⟩
  · rintro ⟨h2, rfl⟩
    exact ⟨_, VarInt.make_len h2, by simp [vector, List.flatMap_def]⟩

/-! ### objects that constructors can make -/

def Outpoint.Built (o : Outpoint) : Prop := ∃ a b, Outpoint.make a b = .ok o
def TxIn.Built (t : TxIn) : Prop := ∃ o ss rs sq, o.Built ∧ TxIn.make o ss rs sq = .ok t
def TxOut.Built (t : TxOut) : Prop := ∃ v s, TxOut.make v s = .ok t
def WitnessStackItem.Built (t : WitnessStackItem) : Prop := ∃ s, WitnessStackItem.make s = .ok t
def InputWitness.Built (t : InputWitness) : Prop := ∃ st, (∀ i ∈ st, i.Built) ∧ InputWitness.make st = .ok t

theorem Outpoint.Built.eq {o : Outpoint} (h : o.Built) : o.txId.length = 32 ∧ o.index.length = 4 ∧ o.bytes = o.txId ++ o.index := by
  obtain ⟨a, b, h⟩ := h
  obtain ⟨h1, h2, rfl⟩ := Outpoint.make_iff.1 h
  exact ⟨h1, h2, rfl⟩

theorem Outpoint.Built.length {o : Outpoint} (h : o.Built) : o.bytes.length = 36 := by
  obtain ⟨h1, h2, h3⟩ := h.eq; rw [h3]; simp [h1, h2]

theorem Outpoint.Built.ext {o o' : Outpoint} (h : o.Built) (h' : o'.Built) (e : o.bytes = o'.bytes) : o = o' := by
  obtain ⟨h1, h2, h3⟩ := h.eq
  obtain ⟨h1', h2', h3'⟩ := h'.eq
  rw [h3, h3'] at e
  obtain ⟨e1, e2⟩ := List.append_inj e (by rw [h1, h1'])
  cases o; cases o'
  simp only at *
  subst e1 e2 h3 h3'; rfl

theorem TxIn.Built.eq {t : TxIn} (h : t.Built) : t.outpoint.Built ∧ t.sequence.length = 4 ∧
    t.scriptSig = t.stackScript ++ t.redeemScript ∧ t.scriptSig.length ≤ 1650 ∧
    t.bytes = t.outpoint.bytes ++ varBytes t.scriptSig ++ t.sequence := by
  obtain ⟨o, ss, rs, sq, ho, h⟩ := h
  obtain ⟨h1, h2, h3, rfl⟩ := TxIn.make_iff.1 h
  exact ⟨ho, h2, rfl, by simpa using h3, rfl⟩

theorem TxIn.Built.wire {t : TxIn} (h : t.Built) : t.bytes = wireIn t.outpoint.txId t.outpoint.index t.scriptSig t.sequence := by
  obtain ⟨h1, _, _, _, h5⟩ := h.eq
  rw [h5, h1.eq.2.2]; rfl

theorem TxOut.Built.eq {t : TxOut} (h : t.Built) : t.value.length = 8 ∧ t.outputScript.length < 2 ^ 64 ∧
    t.bytes = wireOut t.value t.outputScript := by
  obtain ⟨v, s, h⟩ := h
  obtain ⟨h1, h2, rfl⟩ := TxOut.make_iff.1 h
  exact ⟨h1, h2, rfl⟩

theorem WitnessStackItem.Built.eq {t : WitnessStackItem} (h : t.Built) : t.item.length < 2 ^ 64 ∧ t.bytes = varBytes t.item := by
  obtain ⟨s, h⟩ := h
  obtain ⟨h1, rfl⟩ := WitnessStackItem.make_iff.1 h
  exact ⟨h1, rfl⟩

theorem InputWitness.Built.eq {t : InputWitness} (h : t.Built) : (∀ i ∈ t.stack, i.Built) ∧ t.stack.length < 2 ^ 64 ∧
    t.bytes = vector (t.stack.map (·.bytes)) ∧ t.bytes = wireWitness (t.stack.map (·.item)) := by
  obtain ⟨st, h0, h⟩ := h
  obtain ⟨h1, rfl⟩ := InputWitness.make_iff.1 h
  refine ⟨h0, h1, rfl, ?_⟩
  simp only [wireWitness, List.map_map]
  congr 1
  apply List.map_congr_left
  intro i hi
  exact (h0 i hi).eq.2

/-! ### Tx -/

/-- The serialization with the fields given. -/
def txBytes (version : Bytes) (flag : Option Bytes) (ins outs wits : List Bytes) (lockTime : Bytes) : Bytes :=
  version ++ flag.getD [] ++ vector ins ++ vector outs ++ wits.flatten ++ lockTime

theorem txBytes_none (v : Bytes) (ins outs : List Bytes) (lt : Bytes) : txBytes v none ins outs [] lt = wireLegacy v ins outs lt := by
  simp [txBytes, wireLegacy]

theorem txBytes_some (v : Bytes) (ins outs wits : List Bytes) (lt : Bytes) :
    txBytes v (some [0, 1]) ins outs wits lt = wireSegwit v ins outs wits lt := rfl

/-- The object `Tx.make` returns. -/
def txObj (E : Env) (v : Bytes) (f : Option Bytes) (ins : List TxIn) (outs : List TxOut) (ws : Option (List InputWitness))
    (lt : Bytes) : Tx :=
  let bytes := txBytes v f (ins.map (·.bytes)) (outs.map (·.bytes)) ((ws.getD []).map (·.bytes)) lt
  let nw := wireLegacy v (ins.map (·.bytes)) (outs.map (·.bytes)) lt
  let txIdLe := E.hash256 (if f.isSome then nw else bytes)
  let wtxIdLe := if f.isSome then some (E.hash256 bytes) else none
  ⟨v, f, ins, outs, ws, lt, txIdLe, wtxIdLe, txIdLe.reverse, wtxIdLe.map List.reverse, bytes⟩

/-- When `Tx.make` accepts. -/
def TxArgsOK (E : Env) (v : Bytes) (f : Option Bytes) (ins : List TxIn) (outs : List TxOut) (ws : Option (List InputWitness))
    (lt : Bytes) : Prop :=
  v.length = 4 ∧ lt.length = 4 ∧ (f = none ∨ f = some E.net.segwitTxFlag) ∧
  (ws.getD [] ≠ [] → f ≠ none ∧ (ws.getD []).length = ins.length) ∧
  ins ≠ [] ∧ outs ≠ [] ∧ ins.length < 2 ^ 64 ∧ outs.length < 2 ^ 64

instance (E : Env) (v : Bytes) (f : Option Bytes) (ins : List TxIn) (outs : List TxOut) (ws : Option (List InputWitness))
    (lt : Bytes) : Decidable (TxArgsOK E v f ins outs ws lt) := by unfold TxArgsOK; infer_instance

theorem Tx.make_eq (E : Env) (v : Bytes) (f : Option Bytes) (ins : List TxIn) (outs : List TxOut) (ws : Option (List InputWitness))
    (lt : Bytes) : Tx.make E v f ins outs ws lt =
      if TxArgsOK E v f ins outs ws lt then .ok (txObj E v f ins outs ws lt) else .error .valueError := by
  unfold Tx.make TxArgsOK
  simp only [validateBytes_eq]
  by_cases h1 : v.length = 4
  case neg => simp [h1]
  by_cases h2 : lt.length = 4
  case neg => simp [h1, h2]
  simp only [h1, h2, if_true, ok_bind, true_and]
  by_cases h3 : f = none ∨ f = some E.net.segwitTxFlag
  case neg =>
    cases f with
    | none => simp at h3
    | some f => simp only [reduceCtorEq, Option.some.injEq, false_or] at h3; simp [Tx.checkFlag, check, h3]
  have hf : Tx.checkFlag E f = .ok () := by
    rcases h3 with rfl | rfl <;> simp [Tx.checkFlag, check]
  rw [hf]
  simp only [ok_bind]
  by_cases h4 : ws.getD [] ≠ [] → f ≠ none ∧ (ws.getD []).length = ins.length
  case neg =>
    rw [if_neg (fun h => h4 h.2.1)]
    rw [Classical.not_imp] at h4
    have : Tx.checkWitnesses f ins ws = .error .valueError := by
      cases ws with
      | none => simp at h4
      | some l =>
        simp only [Option.getD_some] at h4
        simp only [Tx.checkWitnesses]
        rw [if_pos (by simpa using h4.1)]
        have h5 := h4.2
        cases f with
        | none => simp [check]
        | some f =>
          simp only [ne_eq, reduceCtorEq, not_false_eq_true, true_and] at h5
          simp [check, h5]
    rw [this]; rfl
  have hw : Tx.checkWitnesses f ins ws = .ok () := by
    cases ws with
    | none => rfl
    | some l =>
      simp only [Option.getD_some] at h4
      by_cases hl : l = []
      · simp [Tx.checkWitnesses, hl]
      · obtain ⟨h5, h6⟩ := h4 hl
        have : f.isSome = true := by cases f <;> simp_all
        simp [Tx.checkWitnesses, check, this, h6]
  rw [hw]
  simp only [ok_bind, check_bind]
  by_cases h5 : ins ≠ [] ∧ outs ≠ []
  case neg =>
    rw [if_neg, if_neg (fun h => h5 ⟨h.2.2.1, h.2.2.2.1⟩)]
    intro h
    apply h5
    constructor <;> rintro rfl <;> simp at h
  rw [if_pos (by
    have := List.length_pos_iff.2 h5.1
    have := List.length_pos_iff.2 h5.2
    omega)]
  by_cases h6 : ins.length < 2 ^ 64
  case neg =>
    rw [VarInt.make_len_error h6, if_neg (fun h => h6 h.2.2.2.2.1)]; rfl
  by_cases h7 : outs.length < 2 ^ 64
  case neg =>
    rw [VarInt.make_len h6, VarInt.make_len_error h7, if_neg (fun h => h7 h.2.2.2.2.2)]; rfl
  rw [if_pos ⟨h3, h4, h5.1, h5.2, h6, h7⟩, VarInt.make_len h6, VarInt.make_len h7]
  unfold Tx.noWitness'
  rw [VarInt.make_len h6, VarInt.make_len h7]
  simp only [ok_bind]
  cases f with
  | none => simp [txObj, txBytes, vector, List.flatMap_def, changeEndianness]
  | some f => simp [txObj, txBytes, vector, List.flatMap_def, changeEndianness, wireLegacy]

theorem Tx.make_iff {E : Env} {v : Bytes} {f : Option Bytes} {ins : List TxIn} {outs : List TxOut} {ws : Option (List InputWitness)}
    {lt : Bytes} {t : Tx} : Tx.make E v f ins outs ws lt = .ok t ↔ TxArgsOK E v f ins outs ws lt ∧ t = txObj E v f ins outs ws lt := by
  rw [Tx.make_eq]
  by_cases h : TxArgsOK E v f ins outs ws lt
  · rw [if_pos h]; simp [h, eq_comm]
  · rw [if_neg h]; simp [h]

/-- Transactions that the constructor can make from constructed elements. -/
def Tx.Built (E : Env) (t : Tx) : Prop := ∃ v f ins outs ws lt, (∀ i ∈ ins, TxIn.Built i) ∧ (∀ o ∈ outs, TxOut.Built o) ∧
  (∀ w ∈ ws.getD [], InputWitness.Built w) ∧ Tx.make E v f ins outs ws lt = .ok t

structure Tx.Facts (E : Env) (t : Tx) : Prop where
  ins : ∀ i ∈ t.txIns, i.Built
  outs : ∀ o ∈ t.txOuts, o.Built
  wits : ∀ w ∈ t.txWitnesses.getD [], InputWitness.Built w
  args : TxArgsOK E t.version t.flag t.txIns t.txOuts t.txWitnesses t.lockTime
  obj : t = txObj E t.version t.flag t.txIns t.txOuts t.txWitnesses t.lockTime

theorem Tx.Built.facts {E : Env} {t : Tx} (h : t.Built E) : t.Facts E := by
  obtain ⟨v, f, ins, outs, ws, lt, h1, h2, h3, h4⟩ := h
  obtain ⟨h5, rfl⟩ := Tx.make_iff.1 h4
  exact ⟨h1, h2, h3, h5, rfl⟩

theorem Tx.Facts.built {E : Env} {t : Tx} (h : t.Facts E) : t.Built E :=
  ⟨_, _, _, _, _, _, h.ins, h.outs, h.wits, Tx.make_iff.2 ⟨h.args, h.obj⟩⟩

theorem Tx.Facts.bytes {E : Env} {t : Tx} (h : t.Facts E) :
    t.bytes = txBytes t.version t.flag (t.txIns.map (·.bytes)) (t.txOuts.map (·.bytes)) ((t.txWitnesses.getD []).map (·.bytes)) t.lockTime := by
  have := congrArg Tx.bytes h.obj
  exact this

end Verif
