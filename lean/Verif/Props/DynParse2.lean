import Verif.Props.DynParse

/-! Property C120, continued: objects, bytearrays, and values that are not bytes-like. -/

namespace Verif.Props
open Verif Spec Dyn

/-! ### objects -/

theorem readMany_obj (f : Val → Py Val) (c : Cls) (l : List Val) (b : Bytes) (n : Nat) : ∀ current, readMany f (.obj c l b) n current = readMany f (.bytes b) n current := by
  induction n with
  | zero => intro k; rfl
  | succ n ih => intro k; simp only [readMany, ih]; rfl

/-- C120: `from_bytes` reads an object of a class derived from `ByteData`, of whatever class, as its bytes. -/
theorem C120_objects (E : Env) (c : Cls) (l : List Val) (b : Bytes) :
    readVarInt E.net (.obj c l b) = readVarInt E.net (.bytes b) ∧
    readOutpoint (.obj c l b) = readOutpoint (.bytes b) ∧ readTxIn E.net (.obj c l b) = readTxIn E.net (.bytes b) ∧
    readTxOut E.net (.obj c l b) = readTxOut E.net (.bytes b) ∧ readItem E.net (.obj c l b) = readItem E.net (.bytes b) ∧
    readWitness E.net (.obj c l b) = readWitness E.net (.bytes b) ∧ readTx E (.obj c l b) = readTx E (.bytes b) ∧
    readSproutProof E.net (.obj c l b) = readSproutProof E.net (.bytes b) ∧ readSproutJs E.net (.obj c l b) = readSproutJs E.net (.bytes b) ∧
    readSaplingProof E.net (.obj c l b) = readSaplingProof E.net (.bytes b) ∧ readSpend E.net (.obj c l b) = readSpend E.net (.bytes b) ∧
    readOutput E.net (.obj c l b) = readOutput E.net (.bytes b) ∧ readSaplingJs E.net (.obj c l b) = readSaplingJs E.net (.bytes b) ∧
    readSproutTx E (.obj c l b) = readSproutTx E (.bytes b) ∧ readOverwinterTx E (.obj c l b) = readOverwinterTx E (.bytes b) ∧
    readSaplingTx E (.obj c l b) = readSaplingTx E (.bytes b) ∧
    readDcrOutpoint E.net (.obj c l b) = readDcrOutpoint E.net (.bytes b) ∧ readDcrTxIn E.net (.obj c l b) = readDcrTxIn E.net (.bytes b) ∧
    readDcrTxOut E.net (.obj c l b) = readDcrTxOut E.net (.bytes b) := by
  have hs : ∀ i j, Val.slice (.obj c l b) i j = Val.slice (.bytes b) i j := fun _ _ => rfl
  have hf : ∀ i, Val.from_ (.obj c l b) i = Val.from_ (.bytes b) i := fun _ => rfl
  have hv : ∀ net, readVarInt net (.obj c l b) = readVarInt net (.bytes b) := fun _ => rfl
  have hn : Val.len (.obj c l b) = Val.len (.bytes b) := rfl
  have hi : ∀ net k, readInsOuts net (.obj c l b) k = readInsOuts net (.bytes b) k := by
    intro net k; unfold readInsOuts; simp only [hf, readMany_obj]
  refine ⟨?_, ?_, ?_, ?_, ?_, ?_, ?_, ?_, ?_, ?_, ?_, ?_, ?_, ?_, ?_, ?_, ?_, ?_, ?_⟩
  · exact hv _
  · unfold readOutpoint; simp only [hs]
  · unfold readTxIn; simp only [hs]
  · unfold readTxOut; simp only [hs, hf]
  · unfold readItem; simp only [hs, hv]
  · unfold readWitness; simp only [hv, readMany_obj]
  · unfold readTx; simp only [hs, hf, readMany_obj]
  · unfold readSproutProof; simp only [hs]
  · unfold readSproutJs; simp only [hs]
  · unfold readSaplingProof; simp only [hs]
  · unfold readSpend; simp only [hs]
  · unfold readOutput; simp only [hs]
  · unfold readSaplingJs; simp only [hs]
  · unfold readSproutTx readSproutRest; simp only [hs, hf, hi, readMany_obj]
  · unfold readOverwinterTx readHeader readOverwinterRest; simp only [hs, hf, hi, hn, readMany_obj]
  · unfold readSaplingTx readHeader readSaplingRest; simp only [hs, hf, hi, readMany_obj]
  · unfold readDcrOutpoint; simp only [hs]
  · unfold readDcrTxIn; simp only [hs]
  · unfold readDcrTxOut; simp only [hs, hf]

/-! ### bytearrays -/

theorem fz_slice (v : Val) (i j : Nat) : (freeze v).slice i j = (v.slice i j).map freeze := by
  cases v <;> simp only [freeze, freezes_eq, Val.slice, Except.map, List.map_drop, List.map_take]

theorem fz_from (v : Val) (i : Nat) : (freeze v).from_ i = (v.from_ i).map freeze := by
  cases v <;> simp only [freeze, freezes_eq, Val.from_, Except.map, List.map_drop]

theorem fz_varIntOfList (l : List Val) : varIntOfList (l.map freeze) = varIntOfList l := by
  cases l with
  | nil => rfl
  | cons v l =>
    cases v with
    | int n =>
      have e : List.map freeze (.int n :: l) = .int n :: l.map freeze := by simp only [List.map_cons, freeze]
      have e2 : ∀ k, List.take k (.int n :: l.map freeze) = (List.take k (.int n :: l)).map freeze := by
        intro k; rw [← e, List.map_take]
      have e3 : ∀ k, List.drop k (.int n :: l.map freeze) = (List.drop k (.int n :: l)).map freeze := by
        intro k; rw [← e, List.map_drop]
      rw [e]
      unfold varIntOfList
      simp only [e2, e3, ← List.map_take]
      have e4 : ∀ (c : Prop) [Decidable c] (a b : List Val), (if c then a.map freeze else b.map freeze) = (if c then a else b).map freeze := by
        intro c _ a b; split <;> rfl
      rw [← e]
      simp only [e4, List.length_map, fz_byteList]
    | _ => simp only [List.map_cons, freeze, varIntOfList]

theorem fz_readVarInt (net : Network) (v : Val) : readVarInt net (freeze v) = readVarInt net v := by
  cases v <;> simp only [freeze, freezes_eq, readVarInt, fz_varIntOfList]

theorem fz_readMany (f : Val → Py Val) (hf : ∀ v, f (freeze v) = (f v).map freeze) (v : Val) (n : Nat) :
    ∀ current, readMany f (freeze v) n current = (readMany f v n current).map fun p => (p.1.map freeze, p.2) := by
  induction n with
  | zero => intro k; rfl
  | succ n ih =>
    intro k
    simp only [readMany, fz_from, bind_map, hf, fz_len, ih, map_bind, map_ok', List.map_cons]

theorem fz_readOutpoint (v : Val) : readOutpoint (freeze v) = (readOutpoint v).map freeze := by
  unfold readOutpoint
  simp only [fz_slice, bind_map, fz_outpoint, map_bind]

theorem fz_readScriptSig (net : Network) (v : Val) : readScriptSig net (freeze v) = (readScriptSig net v).map fun p => (freeze p.1, freeze p.2) := by
  unfold readScriptSig
  rw [fz_content]
  cases v.content with
  | none => rfl
  | some b =>
    dsimp only
    generalize (deserialize net b >>= _ : Py (Bytes × PyStr)) = first
    cases first with
    | error e =>
      dsimp only
      split
      · simp only [map_ok', freeze]
      · rfl
    | ok p =>
      obtain ⟨stack, last⟩ := p
      dsimp only
      cases serialize net last with
      | ok r => simp only [map_ok', freeze]
      | error e =>
        dsimp only
        split
        · simp only [map_ok', freeze]
        · rfl

theorem fz_bytes (b : Bytes) : freeze (.bytes b) = .bytes b := by simp only [freeze]
theorem fz_none : freeze .none = .none := by simp only [freeze]
theorem fz_list (l : List Val) : freeze (.list l) = .list (l.map freeze) := by simp only [freeze, freezes_eq]
theorem fz_tuple (l : List Val) : freeze (.tuple l) = .tuple (l.map freeze) := by simp only [freeze, freezes_eq]

theorem map_ite {α β : Type} (f : α → β) (c : Prop) [Decidable c] (x y : Py α) : Except.map f (if c then x else y) = if c then x.map f else y.map f := by split <;> rfl

theorem fz_readTxIn (net : Network) (v : Val) : readTxIn net (freeze v) = (readTxIn net v).map freeze := by
  unfold readTxIn
  simp only [fz_slice, bind_map, fz_readOutpoint, fz_readVarInt, map_bind, map_ite, fz_neBytes, fz_content, fz_readScriptSig, ← fz_txIn, fz_bytes]

theorem fz_readTxOut (net : Network) (v : Val) : readTxOut net (freeze v) = (readTxOut net v).map freeze := by
  unfold readTxOut
  simp only [fz_slice, fz_from, bind_map, fz_readVarInt, map_bind, map_ite, ← fz_txOut, map_err]

theorem fz_readItem (net : Network) (v : Val) : readItem net (freeze v) = (readItem net v).map freeze := by
  unfold readItem
  simp only [fz_slice, bind_map, fz_readVarInt, map_bind, ← fz_item]

theorem fz_readWitness (net : Network) (v : Val) : readWitness net (freeze v) = (readWitness net v).map freeze := by
  unfold readWitness
  simp only [bind_map, fz_readVarInt, map_bind, fz_readMany _ (fz_readItem net), ← fz_witness, fz_list]

theorem fz_readTx (E : Env) (v : Val) : readTx E (freeze v) = (readTx E v).map freeze := by
  unfold readTx
  simp only [fz_slice, fz_from, bind_map, fz_readVarInt, map_bind, fz_neBytes, fz_readMany _ (fz_readTxIn E.net), fz_readMany _ (fz_readTxOut E.net), fz_len,
    fz_readMany _ (fz_readWitness E.net)]
  congr 1; funext version; congr 1; funext mark
  have e : freeze (if mark.neBytes E.net.segwitTxFlag = false then Val.bytes E.net.segwitTxFlag else .none) =
      if mark.neBytes E.net.segwitTxFlag = false then Val.bytes E.net.segwitTxFlag else .none := by
    split
    · rw [fz_bytes]
    · rw [fz_none]
  generalize (if mark.neBytes E.net.segwitTxFlag = false then Val.bytes E.net.segwitTxFlag else .none) = fl at e ⊢
  congr 1; funext r; congr 1; funext ni; congr 1; funext p; congr 1; funext r; congr 1; funext no; congr 1; funext q
  split
  · simp only [map_bind]
    congr 1; funext r; congr 1; funext l
    split
    · simp only [map_bind, ← fz_tx, fz_list, e]
    · simp only [ok_bind, map_bind, ← fz_tx, fz_list, List.map_nil, e]
  · simp only [ok_bind, map_bind, ← fz_tx, fz_list, List.map_nil, e]

theorem fz_readSproutProof (E : Env) (v : Val) : readSproutProof E.net (freeze v) = (readSproutProof E.net v).map freeze := by
  unfold readSproutProof
  simp only [fz_slice, bind_map, map_bind, fz_sproutProof]

theorem fz_readSaplingProof (E : Env) (v : Val) : readSaplingProof E.net (freeze v) = (readSaplingProof E.net v).map freeze := by
  unfold readSaplingProof
  simp only [fz_slice, bind_map, map_bind, fz_saplingProof]

theorem fz_readSproutJs (E : Env) (v : Val) : readSproutJs E.net (freeze v) = (readSproutJs E.net v).map freeze := by
  unfold readSproutJs
  simp only [fz_slice, bind_map, map_bind, fz_readSproutProof, fz_sproutJs]

theorem fz_readSaplingJs (E : Env) (v : Val) : readSaplingJs E.net (freeze v) = (readSaplingJs E.net v).map freeze := by
  unfold readSaplingJs
  simp only [fz_slice, bind_map, map_bind, fz_readSaplingProof, fz_saplingJs]

theorem fz_readSpend (E : Env) (v : Val) : readSpend E.net (freeze v) = (readSpend E.net v).map freeze := by
  unfold readSpend
  simp only [fz_slice, bind_map, map_bind, fz_readSaplingProof, fz_saplingSpend]

theorem fz_readOutput (E : Env) (v : Val) : readOutput E.net (freeze v) = (readOutput E.net v).map freeze := by
  unfold readOutput
  simp only [fz_slice, bind_map, map_bind, fz_readSaplingProof, fz_saplingOutput]

theorem fz_readInsOuts (net : Network) (v : Val) (k : Nat) : readInsOuts net (freeze v) k =
    (readInsOuts net v k).map fun p => ⟨p.txIns.map freeze, p.txOuts.map freeze, p.outsNumLen, p.current⟩ := by
  unfold readInsOuts
  simp only [fz_from, bind_map, fz_readVarInt, map_bind, fz_readMany _ (fz_readTxIn net), fz_readMany _ (fz_readTxOut net), map_ok']

theorem fz_readSproutTx (E : Env) (v : Val) : readSproutTx E (freeze v) = (readSproutTx E v).map freeze := by
  have h : ∀ w k, readSproutRest E.net (freeze v) (freeze w) k = (readSproutRest E.net v w k).map fun p => (freeze p.1, freeze p.2.1, freeze p.2.2) := by
    intro w k
    unfold readSproutRest
    simp only [fz_slice, fz_from, fz_le2i, bind_map, fz_readVarInt, map_bind, map_ite, fz_readMany _ (fz_readSproutJs E), map_ok', fz_list, fz_none]
  unfold readSproutTx
  simp only [fz_slice, bind_map, fz_readInsOuts, h, map_bind, ← fz_list, fz_sproutTx]

theorem fz_readHeader (v : Val) (a b : Bytes) : readHeader (freeze v) a b = readHeader v a b := by
  unfold readHeader
  simp only [fz_slice, bind_map, fz_neBytes, fz_hexAttr]

theorem fz_readOverwinterTx (E : Env) (v : Val) : readOverwinterTx E (freeze v) = (readOverwinterTx E v).map freeze := by
  have h : ∀ o k, readOverwinterRest E.net (freeze v) o k = (readOverwinterRest E.net v o k).map fun p => (freeze p.1, freeze p.2.1, freeze p.2.2) := by
    intro o k
    unfold readOverwinterRest
    simp only [fz_slice, fz_from, fz_len, bind_map, fz_readVarInt, map_bind, map_ite, fz_readMany _ (fz_readSproutJs E), map_ok', fz_list, fz_tuple, fz_none, List.map_nil]
  unfold readOverwinterTx
  simp only [fz_slice, bind_map, fz_readHeader, fz_readInsOuts, h, map_bind, ← fz_list, fz_overwinterTx]

theorem fz_readSaplingTx (E : Env) (v : Val) : readSaplingTx E (freeze v) = (readSaplingTx E v).map freeze := by
  have h : ∀ o k, readSaplingRest E.net (freeze v) o k = (readSaplingRest E.net v o k).map fun r =>
      ⟨r.spends.map freeze, r.outputs.map freeze, r.js.map freeze, freeze r.pk, freeze r.sig, freeze r.binding⟩ := by
    intro o k
    unfold readSaplingRest
    simp only [fz_slice, fz_from, bind_map, fz_readVarInt, map_bind, fz_readMany _ (fz_readSpend E), fz_readMany _ (fz_readOutput E), fz_readMany _ (fz_readSaplingJs E), map_ok',
      List.length_map, map_ite, ok_bind, fz_none]
  unfold readSaplingTx
  simp only [fz_slice, bind_map, fz_readHeader, fz_readInsOuts, h, map_bind, ← fz_list, fz_saplingTx]

theorem fz_readDcrOutpoint (E : Env) (v : Val) : readDcrOutpoint E.net (freeze v) = (readDcrOutpoint E.net v).map freeze := by
  unfold readDcrOutpoint
  simp only [fz_slice, bind_map, map_bind, fz_dcrOutpoint]

theorem fz_readDcrTxIn (E : Env) (v : Val) : readDcrTxIn E.net (freeze v) = (readDcrTxIn E.net v).map freeze := by
  unfold readDcrTxIn
  simp only [fz_slice, bind_map, map_bind, fz_readDcrOutpoint, fz_dcrTxIn]

theorem fz_readDcrTxOut (E : Env) (v : Val) : readDcrTxOut E.net (freeze v) = (readDcrTxOut E.net v).map freeze := by
  unfold readDcrTxOut
  simp only [fz_slice, fz_from, bind_map, fz_readVarInt, map_bind, map_ite, ← fz_dcrTxOut, map_err]

/-- C120: `from_bytes` reads a bytearray as bytes: with all bytearrays replaced by bytes in the argument, the exception is the same, or the object is the same with all
bytearrays in it replaced. -/
theorem C120_bytearrays (E : Env) (v : Val) :
    readVarInt E.net (freeze v) = readVarInt E.net v ∧
    readOutpoint (freeze v) = (readOutpoint v).map freeze ∧ readTxIn E.net (freeze v) = (readTxIn E.net v).map freeze ∧
    readTxOut E.net (freeze v) = (readTxOut E.net v).map freeze ∧ readItem E.net (freeze v) = (readItem E.net v).map freeze ∧
    readWitness E.net (freeze v) = (readWitness E.net v).map freeze ∧ readTx E (freeze v) = (readTx E v).map freeze ∧
    readSproutProof E.net (freeze v) = (readSproutProof E.net v).map freeze ∧ readSproutJs E.net (freeze v) = (readSproutJs E.net v).map freeze ∧
    readSaplingProof E.net (freeze v) = (readSaplingProof E.net v).map freeze ∧ readSpend E.net (freeze v) = (readSpend E.net v).map freeze ∧
    readOutput E.net (freeze v) = (readOutput E.net v).map freeze ∧ readSaplingJs E.net (freeze v) = (readSaplingJs E.net v).map freeze ∧
    readSproutTx E (freeze v) = (readSproutTx E v).map freeze ∧ readOverwinterTx E (freeze v) = (readOverwinterTx E v).map freeze ∧
    readSaplingTx E (freeze v) = (readSaplingTx E v).map freeze ∧
    readDcrOutpoint E.net (freeze v) = (readDcrOutpoint E.net v).map freeze ∧ readDcrTxIn E.net (freeze v) = (readDcrTxIn E.net v).map freeze ∧
    readDcrTxOut E.net (freeze v) = (readDcrTxOut E.net v).map freeze :=
  ⟨fz_readVarInt _ v, fz_readOutpoint v, fz_readTxIn _ v, fz_readTxOut _ v, fz_readItem _ v, fz_readWitness _ v, fz_readTx E v, fz_readSproutProof E v, fz_readSproutJs E v,
    fz_readSaplingProof E v, fz_readSpend E v, fz_readOutput E v, fz_readSaplingJs E v, fz_readSproutTx E v, fz_readOverwinterTx E v, fz_readSaplingTx E v,
    fz_readDcrOutpoint E v, fz_readDcrTxIn E v, fz_readDcrTxOut E v⟩

/-! ### values that are not bytes-like -/

/-- The call raises. -/
def Refused {α : Type} (x : Py α) : Prop := ∃ e, x = .error e

section
variable {α β : Type}

theorem Refused.bind {x : Py α} (h : Refused x) (f : α → Py β) : Refused (x >>= f) := by
  obtain ⟨e, rfl⟩ := h
  exact ⟨e, rfl⟩

theorem refused_then {x : Py α} {f : α → Py β} (h : ∀ a, x = .ok a → Refused (f a)) : Refused (x >>= f) := by
  cases x with
  | error e => exact ⟨e, rfl⟩
  | ok a => exact h a rfl

theorem refused_error (e : PyErr) : Refused (.error e : Py α) := ⟨e, rfl⟩
end

theorem slice_content {v w : Val} {i j : Nat} (h : v.content = none) (e : v.slice i j = .ok w) : w.content = none := by
  cases v <;> simp [Val.content] at h <;> simp [Val.slice] at e <;> subst e <;> rfl

theorem validate_refused {v : Val} (h : v.content = none) (n : Option Nat) : v.validate n = .error .valueError := by
  unfold Val.validate; rw [h]

theorem validateAll_refused {v : Val} (h : v.content = none) (n : Nat) (l : List (Val × Nat)) : Refused (Val.validateAll ((v, n) :: l)) := by
  rw [validateAll_cons, validate_refused h]
  exact refused_error _

theorem refuse_outpoint {v : Val} (h : v.content = none) : Refused (readOutpoint v) := by
  unfold readOutpoint
  refine refused_then fun a ha => refused_then fun b hb => ?_
  unfold Dyn.outpoint
  rw [validate_refused (slice_content h ha)]
  exact refused_error _

theorem refuse_txIn (net : Network) {v : Val} (h : v.content = none) : Refused (readTxIn net v) := by
  unfold readTxIn
  exact refused_then fun a ha => (refuse_outpoint (slice_content h ha)).bind _

theorem refuse_txOut (net : Network) {v : Val} (h : v.content = none) : Refused (readTxOut net v) := by
  unfold readTxOut
  refine refused_then fun r _ => refused_then fun n _ => ?_
  split
  · refine refused_then fun a ha => refused_then fun b _ => ?_
    unfold Dyn.txOut
    rw [validate_refused (slice_content h ha)]
    exact refused_error _
  · exact refused_error _

theorem refuse_item (net : Network) {v : Val} (h : v.content = none) : Refused (readItem net v) := by
  unfold readItem
  refine refused_then fun n _ => refused_then fun a ha => ?_
  unfold Dyn.item
  rw [validate_refused (slice_content h ha)]
  exact refused_error _

theorem from_content {v w : Val} {i : Nat} (h : v.content = none) (e : v.from_ i = .ok w) : w.content = none := by
  cases v <;> simp [Val.content] at h <;> simp [Val.from_] at e <;> subst e <;> rfl

theorem refuse_many {f : Val → Py Val} (hf : ∀ w : Val, w.content = none → Refused (f w)) {v : Val} (h : v.content = none) {n : Nat} (hn : n ≠ 0) (k : Nat) :
    Refused (readMany f v n k) := by
  cases n with
  | zero => exact absurd rfl hn
  | succ n => exact refused_then fun r hr => (hf r (from_content h hr)).bind _

theorem refuse_tx (E : Env) {v : Val} (h : v.content = none) : Refused (readTx E v) := by
  unfold readTx
  refine refused_then fun version hv => refused_then fun mark _ => refused_then fun r _ => refused_then fun ni _ => refused_then fun p _ => refused_then fun r _ =>
    refused_then fun no _ => refused_then fun q _ => ?_
  have key : ∀ a b c d l, Refused (Dyn.tx E version a b c d l) := by
    intro a b c d l
    unfold Dyn.tx
    rw [validate_refused (slice_content h hv)]
    exact refused_error _
  dsimp only
  split
  · refine refused_then fun _ _ => refused_then fun _ _ => ?_
    split <;> exact refused_then fun _ _ => refused_then fun _ _ => key _ _ _ _ _
  · exact refused_then fun _ _ => refused_then fun _ _ => key _ _ _ _ _

theorem refuse_sproutProof (net : Network) {v : Val} (h : v.content = none) : Refused (readSproutProof net v) := by
  unfold readSproutProof
  refine refused_then fun a ha => refused_then fun _ _ => refused_then fun _ _ => refused_then fun _ _ => refused_then fun _ _ => refused_then fun _ _ =>
    refused_then fun _ _ => refused_then fun _ _ => ?_
  exact refused_then fun _ _ => (validateAll_refused (slice_content h ha) _ _).bind _

theorem refuse_saplingProof (net : Network) {v : Val} (h : v.content = none) : Refused (readSaplingProof net v) := by
  unfold readSaplingProof
  refine refused_then fun a ha => refused_then fun _ _ => refused_then fun _ _ => ?_
  exact refused_then fun _ _ => (validateAll_refused (slice_content h ha) _ _).bind _

theorem refuse_sproutJs (net : Network) {v : Val} (h : v.content = none) : Refused (readSproutJs net v) := by
  unfold readSproutJs
  exact refused_then fun _ _ => refused_then fun _ _ => refused_then fun _ _ => refused_then fun _ _ => refused_then fun _ _ => refused_then fun _ _ =>
    refused_then fun _ _ => refused_then fun _ _ => refused_then fun _ hp => (refuse_sproutProof net (slice_content h hp)).bind _

theorem refuse_saplingJs (net : Network) {v : Val} (h : v.content = none) : Refused (readSaplingJs net v) := by
  unfold readSaplingJs
  exact refused_then fun _ _ => refused_then fun _ _ => refused_then fun _ _ => refused_then fun _ _ => refused_then fun _ _ => refused_then fun _ _ =>
    refused_then fun _ _ => refused_then fun _ _ => refused_then fun _ hp => (refuse_saplingProof net (slice_content h hp)).bind _

theorem refuse_spend (net : Network) {v : Val} (h : v.content = none) : Refused (readSpend net v) := by
  unfold readSpend
  exact refused_then fun _ _ => refused_then fun _ _ => refused_then fun _ _ => refused_then fun _ _ => refused_then fun _ hp =>
    (refuse_saplingProof net (slice_content h hp)).bind _

theorem refuse_output (net : Network) {v : Val} (h : v.content = none) : Refused (readOutput net v) := by
  unfold readOutput
  exact refused_then fun _ _ => refused_then fun _ _ => refused_then fun _ _ => refused_then fun _ _ => refused_then fun _ _ => refused_then fun _ hp =>
    (refuse_saplingProof net (slice_content h hp)).bind _

theorem refuse_sproutTx (E : Env) {v : Val} (h : v.content = none) : Refused (readSproutTx E v) := by
  unfold readSproutTx
  refine refused_then fun version hv => refused_then fun _ _ => refused_then fun _ _ => refused_then fun _ _ => ?_
  unfold Dyn.sproutTx
  refine refused_then fun _ _ => refused_then fun _ _ => ?_
  rw [validate_refused (slice_content h hv)]
  exact refused_error _

theorem refuse_header {v : Val} (h : v.content = none) (a b : Bytes) : Refused (readHeader v a b) := by
  unfold readHeader
  refine refused_then fun x hx => refused_then fun g _ => ?_
  rw [if_pos (.inl (by unfold Val.neBytes; rw [slice_content h hx]))]
  unfold Val.hexAttr
  rw [slice_content h hx]
  exact refused_error _

theorem refuse_dcrOutpoint (net : Network) {v : Val} (h : v.content = none) : Refused (readDcrOutpoint net v) := by
  unfold readDcrOutpoint
  refine refused_then fun a ha => refused_then fun _ _ => refused_then fun _ _ => ?_
  exact refused_then fun _ _ => (validateAll_refused (slice_content h ha) _ _).bind _

theorem refuse_dcrTxIn (net : Network) {v : Val} (h : v.content = none) : Refused (readDcrTxIn net v) := by
  unfold readDcrTxIn
  exact refused_then fun a ha => (refuse_dcrOutpoint net (slice_content h ha)).bind _

theorem refuse_dcrTxOut (net : Network) {v : Val} (h : v.content = none) : Refused (readDcrTxOut net v) := by
  unfold readDcrTxOut
  refine refused_then fun r _ => refused_then fun n _ => ?_
  split
  · refine refused_then fun a ha => refused_then fun b _ => refused_then fun c _ => ?_
    exact refused_then fun _ _ => (validateAll_refused (slice_content h ha) _ _).bind _
  · exact refused_error _

/-- C120: a value that is not bytes-like is refused by every `from_bytes`, but for two: `VarInt.from_bytes` and `InputWitness.from_bytes` (next theorems). -/
theorem C120_refused (E : Env) (v : Val) (h : v.content = none) :
    Refused (readOutpoint v) ∧ Refused (readTxIn E.net v) ∧ Refused (readTxOut E.net v) ∧ Refused (readItem E.net v) ∧ Refused (readTx E v) ∧
    Refused (readSproutProof E.net v) ∧ Refused (readSproutJs E.net v) ∧ Refused (readSaplingProof E.net v) ∧ Refused (readSpend E.net v) ∧ Refused (readOutput E.net v) ∧
    Refused (readSaplingJs E.net v) ∧ Refused (readSproutTx E v) ∧ Refused (readOverwinterTx E v) ∧ Refused (readSaplingTx E v) ∧
    Refused (readDcrOutpoint E.net v) ∧ Refused (readDcrTxIn E.net v) ∧ Refused (readDcrTxOut E.net v) :=
  ⟨refuse_outpoint h, refuse_txIn _ h, refuse_txOut _ h, refuse_item _ h, refuse_tx E h, refuse_sproutProof _ h, refuse_sproutJs _ h, refuse_saplingProof _ h, refuse_spend _ h,
    refuse_output _ h, refuse_saplingJs _ h, refuse_sproutTx E h, (refuse_header h _ _).bind _, (refuse_header h _ _).bind _, refuse_dcrOutpoint _ h, refuse_dcrTxIn _ h,
    refuse_dcrTxOut _ h⟩

theorem byteList_ok (l : List Val) (b : Bytes) : Val.byteList l = .ok b ↔ l = b.map fun x => .int x.toNat := by
  induction l generalizing b with
  | nil => cases b <;> simp [Val.byteList]
  | cons v l ih =>
    cases v with
    | int n =>
      simp only [Val.byteList]
      by_cases h : 0 ≤ n ∧ n < 256
      · rw [if_pos h, bind_ok_iff]
        constructor
        · rintro ⟨bs, hb, e⟩
          cases e
          rw [(ih bs).1 hb]
          simp only [List.map_cons, List.cons.injEq, Val.int.injEq, and_true]
          simp only [UInt8.toNat_ofNat']
          omega
        · intro e
          cases b with
          | nil => simp at e
          | cons x bs =>
            simp only [List.map_cons, List.cons.injEq, Val.int.injEq] at e
            refine ⟨bs, (ih bs).2 e.2, ?_⟩
            have : n.toNat = x.toNat := by omega
            rw [this, UInt8.ofNat_toNat]
      · rw [if_neg h]
        refine ⟨fun e => (nomatch e), fun e => ?_⟩
        cases b with
        | nil => simp at e
        | cons x bs =>
          simp only [List.map_cons, List.cons.injEq, Val.int.injEq] at e
          have := x.toNat_lt
          omega
    | _ => cases b <;> simp [Val.byteList]

theorem VarInt.make_zero {n : Nat} (h : n < 2 ^ 64) : VarInt.make (n : Int) (some 0) = .ok ⟨compactSize n, n⟩ := by
  have e : VarInt.make (n : Int) (some 0) = VarInt.make (n : Int) := by
    unfold VarInt.make
    by_cases c : (n : Int) ≤ 0xfc
    · simp only [c, if_true]
      cases i2le (n : Int) <;> simp
    · simp [c]
  rw [e, VarInt.make_len h]

theorem varIntOfList_ok (l : List Val) (n : VarInt) : varIntOfList l = .ok n ↔
    ∃ num : Bytes, n.number = leValue num ∧ n.bytes = compactSize (leValue num) ∧
      ((∃ x, num = [x] ∧ x.toNat ≤ 0xfc ∧ l.head? = some (.int x.toNat)) ∨
       ∃ p k, (p, k) ∈ [((0xfd : Int), 2), (0xfe, 4), (0xff, 8)] ∧ num.length ∈ [1, 2, 4, 8] ∧ (num.map fun x => Val.int x.toNat) = (l.drop 1).take k ∧ l.head? = some (.int p)) := by
  have mk : ∀ num : Bytes, num.length ≤ 8 → (VarInt.make (Verif.le2i num : Nat) (some 0) = .ok n ↔ n.number = leValue num ∧ n.bytes = compactSize (leValue num)) := by
    intro num h
    have e : Verif.le2i num = leValue num := leToNat_eq_leValue num
    have lt : leValue num < 2 ^ 64 := by
      rw [← e]
      refine Nat.lt_of_lt_of_le (leToNat_lt num) ?_
      exact Nat.le_trans (Nat.pow_le_pow_right (by omega) h) (by decide)
    rw [e, VarInt.make_zero lt]
    obtain ⟨b, m⟩ := n
    simp only [Except.ok.injEq, VarInt.mk.injEq]
    constructor
    · rintro ⟨rfl, rfl⟩; exact ⟨rfl, rfl⟩
    · rintro ⟨rfl, rfl⟩; exact ⟨rfl, rfl⟩
  have big : ∀ (m : Int) (l : List Val) (k : Nat), (m, k) ∈ [((0xfd : Int), 2), (0xfe, 4), (0xff, 8)] →
      varIntOfList (.int m :: l) = (do
        check ((l.take k).length = 1 ∨ (l.take k).length = 2 ∨ (l.take k).length = 4 ∨ (l.take k).length = 8) .attributeError
        let b ← Val.byteList (l.take k)
        VarInt.make (Verif.le2i b) (some 0)) := by
    intro m l k h
    simp only [List.mem_cons, Prod.mk.injEq, List.not_mem_nil, or_false] at h
    rcases h with ⟨rfl, rfl⟩ | ⟨rfl, rfl⟩ | ⟨rfl, rfl⟩ <;> rfl
  cases l with
  | nil => simp [varIntOfList]
  | cons v l =>
    cases v with
    | int m =>
      by_cases h1 : m ≤ 0xfc
      · have e : varIntOfList (.int m :: l) = (do let b ← Val.byteList [.int m]; VarInt.make (Verif.le2i b) (some 0)) := by
          simp only [varIntOfList, h1, if_true, List.take_succ_cons, List.take_zero, List.length_singleton]
          rw [show check (m ≤ 0xff) .exception = .ok () from by simp [check]; omega]
          rfl
        rw [e, bind_ok_iff]
        constructor
        · rintro ⟨b, hb, hm⟩
          rw [byteList_ok] at hb
          have hx : ∃ x, b = [x] ∧ m = x.toNat := by
            match b, hb with
            | [x], hb => simp at hb; exact ⟨x, rfl, hb⟩
          obtain ⟨x, rfl, rfl⟩ := hx
          have hm := (mk _ (by simp)).1 hm
          exact ⟨[x], hm.1, hm.2, .inl ⟨x, rfl, by omega, rfl⟩⟩
        · rintro ⟨num, e1, e2, ⟨x, rfl, hx, hl⟩ | ⟨p, k, hp, -, -, hl⟩⟩
          · simp only [List.head?_cons, Option.some.injEq, Val.int.injEq] at hl
            exact ⟨[x], (byteList_ok _ _).2 (by simp [hl]), (mk _ (by simp)).2 ⟨e1, e2⟩⟩
          · simp only [List.head?_cons, Option.some.injEq, Val.int.injEq] at hl
            simp at hp
            omega
      · by_cases hk : ∃ k, (m, k) ∈ [((0xfd : Int), 2), (0xfe, 4), (0xff, 8)]
        · obtain ⟨k, hk⟩ := hk
          rw [big m l k hk]
          have uniq : ∀ k', (m, k') ∈ [((0xfd : Int), 2), (0xfe, 4), (0xff, 8)] → k' = k := by
            intro k' h'
            simp only [List.mem_cons, Prod.mk.injEq, List.not_mem_nil, or_false] at h' hk
            omega
          constructor
          · intro h
            obtain ⟨_, hl, h⟩ := bind_ok_iff.1 h
            rw [check_ok] at hl
            obtain ⟨b, hb, hm⟩ := bind_ok_iff.1 h
            rw [byteList_ok] at hb
            have lb : b.length = (l.take k).length := by rw [hb, List.length_map]
            have hm := (mk b (by omega)).1 hm
            refine ⟨b, hm.1, hm.2, .inr ⟨m, k, hk, ?_, hb.symm, rfl⟩⟩
            rw [lb]
            simpa using hl
          · rintro ⟨num, e1, e2, ⟨x, rfl, hx, hl⟩ | ⟨p, k', hp, hn, hb, hl⟩⟩
            · simp only [List.head?_cons, Option.some.injEq, Val.int.injEq] at hl
              omega
            · simp only [List.head?_cons, Option.some.injEq, Val.int.injEq] at hl
              subst hl
              rw [uniq k' hp] at hb
              have lb : num.length = (l.take k).length := by
                have := congrArg List.length hb
                simpa using this
              simp only [List.mem_cons, List.not_mem_nil, or_false] at hn
              refine bind_ok_iff.2 ⟨(), check_ok.2 (by rw [← lb]; exact hn), bind_ok_iff.2 ⟨num, (byteList_ok _ _).2 hb.symm, (mk num (by omega)).2 ⟨e1, e2⟩⟩⟩
        · have h2 : 0xff < m := by
            apply Int.not_le.1
            intro hc
            have : m = 0xfd ∨ m = 0xfe ∨ m = 0xff := by omega
            rcases this with rfl | rfl | rfl
            · exact hk ⟨2, by simp⟩
            · exact hk ⟨4, by simp⟩
            · exact hk ⟨8, by simp⟩
          refine ⟨fun h => ?_, ?_⟩
          · simp only [varIntOfList] at h
            obtain ⟨_, _, h⟩ := bind_ok_iff.1 h
            obtain ⟨_, h, _⟩ := bind_ok_iff.1 h
            rw [check_ok] at h
            omega
          · rintro ⟨num, e1, e2, ⟨x, rfl, hx, hl⟩ | ⟨p, k', hp, hn, hb, hl⟩⟩
            · simp only [List.head?_cons, Option.some.injEq, Val.int.injEq] at hl
              omega
            · simp only [List.head?_cons, Option.some.injEq, Val.int.injEq] at hl
              subst hl
              exact absurd ⟨k', hp⟩ hk
    | _ => simp [varIntOfList]

/-- C120: `VarInt.from_bytes` accepts, of the values that are not bytes-like, exactly the lists and tuples that start with the bytes of a number: an integer up to 0xfc, or
the prefix 0xfd, 0xfe or 0xff and two, four or eight integers (or only one, two or four, where the list ends), all from 0 to 255; and the `VarInt` is the shortest with that
number, on every network. -/
theorem C120_varint (net : Network) (v : Val) (n : VarInt) (h : v.content = none) : readVarInt net v = .ok n ↔
    ∃ (l : List Val) (num : Bytes), IsSeq v l ∧ n.number = leValue num ∧ n.bytes = compactSize (leValue num) ∧
      ((∃ x, num = [x] ∧ x.toNat ≤ 0xfc ∧ l.head? = some (.int x.toNat)) ∨
       ∃ p k, (p, k) ∈ [((0xfd : Int), 2), (0xfe, 4), (0xff, 8)] ∧ num.length ∈ [1, 2, 4, 8] ∧ (num.map fun x => Val.int x.toNat) = (l.drop 1).take k ∧ l.head? = some (.int p)) := by
  have seq : ∀ l, IsSeq v l → (readVarInt net v = .ok n ↔ varIntOfList l = .ok n) := by
    rintro l (rfl | rfl) <;> rfl
  have uniq : ∀ l l', IsSeq v l → IsSeq v l' → l = l' := by
    rintro l l' (rfl | rfl) (h | h) <;> cases h <;> rfl
  constructor
  · intro e
    have : ∃ l, IsSeq v l := by
      cases v with
      | list l => exact ⟨l, .inl rfl⟩
      | tuple l => exact ⟨l, .inr rfl⟩
      | str s => simp only [readVarInt] at e; split at e <;> cases e
      | none => cases e
      | int m => cases e
      | bytes b => cases h
      | bytearray b => cases h
      | obj c l b => cases h
    obtain ⟨l, hl⟩ := this
    obtain ⟨num, hnum⟩ := (varIntOfList_ok l n).1 ((seq l hl).1 e)
    exact ⟨l, num, hl, hnum⟩
  · rintro ⟨l, num, hl, hnum⟩
    exact (seq l hl).2 ((varIntOfList_ok l n).2 ⟨num, hnum⟩)

/-- C120: of the values that are not bytes-like, `InputWitness.from_bytes` accepts exactly those that `VarInt.from_bytes` reads as 0, and makes a witness without items. -/
theorem C120_witness (net : Network) (v w : Val) (h : v.content = none) : readWitness net v = .ok w ↔
    (∃ n, readVarInt net v = .ok n ∧ n.number = 0) ∧ w = .obj .witness [.tuple []] [0] := by
  unfold readWitness
  constructor
  · intro hw
    rw [bind_ok_iff] at hw
    obtain ⟨n, hn, hw⟩ := hw
    by_cases h0 : n.number = 0
    · refine ⟨⟨n, hn, h0⟩, ?_⟩
      rw [h0] at hw
      simp only [readMany, ok_bind] at hw
      have e : Dyn.witness (.list []) = .ok (.obj .witness [.tuple []] [0]) := rfl
      rw [e] at hw
      cases hw; rfl
    · obtain ⟨e, he⟩ := refuse_many (fun w hw => refuse_item net hw) h h0 n.bytes.length
      rw [he] at hw
      cases hw
  · rintro ⟨⟨n, hn, h0⟩, rfl⟩
    rw [hn]
    simp only [ok_bind, h0, readMany]
    rfl

/-! ### examples -/

/-- An input as bytes: a coinbase outpoint, the script 0x51, and a sequence. -/
def exInBytes : Bytes := List.replicate 32 0 ++ List.replicate 4 0xff ++ [1, 0x51] ++ [1, 2, 3, 4]

/-- Read from bytes, from a bytearray, and from a list of integers. -/
example : (readTxIn toyEnv.net (.bytes exInBytes) = .ok (.obj .txIn [.obj .outpoint [.bytes (List.replicate 32 0), .bytes (List.replicate 4 0xff)] (List.replicate 32 0 ++ List.replicate 4 0xff),
      .bytes [0x51], .bytes [], .bytes [0x51], .bytes [1, 2, 3, 4]] exInBytes)) ∧
    (readTxIn toyEnv.net (.bytearray exInBytes) = .ok (.obj .txIn [.obj .outpoint [.bytearray (List.replicate 32 0), .bytearray (List.replicate 4 0xff)]
      (List.replicate 32 0 ++ List.replicate 4 0xff), .bytearray [0x51], .bytes [], .bytearray [0x51], .bytearray [1, 2, 3, 4]] exInBytes)) ∧
    readTxIn toyEnv.net (.list (exInBytes.map fun x => .int x.toNat)) = .error .valueError := ⟨rfl, rfl, rfl⟩

/-- `VarInt.from_bytes([0xfd, 1, 1, 7])`, `VarInt.from_bytes((300,))`, and `InputWitness.from_bytes([0])`. -/
example : readVarInt toyEnv.net (.list [.int 0xfd, .int 1, .int 1, .int 7]) = .ok ⟨[0xfd, 1, 1], 257⟩ ∧ readVarInt toyEnv.net (.tuple [.int 300]) = .error .exception ∧
    readWitness toyEnv.net (.list [.int 0]) = .ok (.obj .witness [.tuple []] [0]) := ⟨rfl, rfl, rfl⟩

/-- C120: what an input read from a bytearray is made of, if its script does not parse: bytearrays, the script too. (The object cannot be changed, but its attributes can be,
in place.) -/
theorem C120_kept (net : Network) (o s q rest : Bytes) (ho : o.length = 36) (hnull : o ≠ List.replicate 32 0 ++ List.replicate 4 0xff) (hs : s ≠ []) (hl : s.length ≤ 1650)
    (hz : (net.isOverwinter = false ∧ net.isSapling = false) ∨ s.length < 253 ∨ 256 ≤ s.length) (hq : q.length = 4) (e : PyErr) (hd : deserialize net s = .error e) :
    readTxIn net (.bytearray (o ++ varBytes s ++ q ++ rest)) = .ok (.obj .txIn
      [.obj .outpoint [.bytearray (o.take 32), .bytearray (o.drop 32)] o, .bytearray s, .bytes [], .bytearray s, .bytearray q] (o ++ varBytes s ++ q)) := by
  have hz : LenOK net s.length := by
    rcases hz with h | h | h
    · exact .inl h
    · exact .inr (by omega)
    · exact .inr (by omega)
  have hb : o ++ varBytes s ++ q ++ rest = o ++ (compactSize s.length ++ (s ++ (q ++ rest))) := by simp [varBytes]
  have e0 : slice (o ++ (compactSize s.length ++ (s ++ (q ++ rest)))) 0 36 = o := by rw [slice_zero_append' _ _ _ ho]
  have e1 : slice (o ++ (compactSize s.length ++ (s ++ (q ++ rest)))) 36 45 = compactSize s.length ++ (s ++ (q ++ rest)).take (9 - (compactSize s.length).length) := by
    have hc := compactSize_le s.length
    unfold slice
    rw [List.take_append, List.drop_append, ho, List.drop_eq_nil_of_le (by simp [ho]), List.take_append, List.take_of_length_le (i := 45 - 36) (by omega)]
    simp [ho]
  have e2 : slice (o ++ (compactSize s.length ++ (s ++ (q ++ rest)))) (36 + (compactSize s.length).length) (36 + (compactSize s.length).length + s.length) = s := by
    rw [← List.append_assoc, Verif.slice_mid _ _ _ _ _ (by simp [ho]) rfl]
  have e3 : slice (o ++ (compactSize s.length ++ (s ++ (q ++ rest)))) (36 + (compactSize s.length).length + s.length)
      (36 + (compactSize s.length).length + s.length + 4) = q := by
    rw [← List.append_assoc, ← List.append_assoc, Verif.slice_mid _ _ _ _ _ (by simp [ho]; omega) (by rw [hq])]
  have e4 : slice o 0 32 = o.take 32 := by unfold slice; simp
  have e5 : slice o 32 36 = o.drop 32 := by unfold slice; rw [List.take_of_length_le (by omega)]
  have n1 : Dyn.outpoint (.bytearray (o.take 32)) (.bytearray (o.drop 32)) = .ok (.obj .outpoint [.bytearray (o.take 32), .bytearray (o.drop 32)] o) :=
    ((C114_outpoint _ _).1 _).2 ⟨_, _, rfl, rfl, by simp [ho], by simp [ho], by rw [List.take_append_drop]⟩
  have n2 : Dyn.outpoint (.bytes (List.replicate 32 0)) (.bytes (List.replicate 4 0xff)) =
      .ok (.obj .outpoint [.bytes (List.replicate 32 0), .bytes (List.replicate 4 0xff)] (List.replicate 32 0 ++ List.replicate 4 0xff)) :=
    ((C114_outpoint _ _).1 _).2 ⟨_, _, rfl, rfl, by simp, by simp, rfl⟩
  have n3 : readScriptSig net (.bytearray s) = .ok (.bytearray s, .bytes []) := by
    unfold readScriptSig
    simp only [Val.content, hd, error_bind]
    rcases deserialize_error hd with rfl | rfl | rfl <;> simp
  have n4 : Dyn.txIn (.obj .outpoint [.bytearray (o.take 32), .bytearray (o.drop 32)] o) (.bytearray s) (.bytes []) (.bytearray q) = .ok (.obj .txIn
      [.obj .outpoint [.bytearray (o.take 32), .bytearray (o.drop 32)] o, .bytearray s, .bytes [], .bytearray s, .bytearray q] (o ++ varBytes s ++ q)) := by
    refine ((C114_txIn _ _ _ _).1 _).2 ⟨o, s, [], q, .bytearray s, rfl, rfl, rfl, rfl, ⟨_, .inr rfl⟩, ⟨_, .inl rfl⟩, ho, by simpa using hl, hq, ⟨_, .inr rfl⟩, by simp [Byteslike, Val.content],
      by simp [Val.add], ?_⟩
    simp [wireIn]
  unfold readTxIn readOutpoint
  rw [hb]
  simp only [Val.slice, ok_bind, e0, e1, e4, e5, n1, readVarInt, VarInt.fromBytes_len (Nat.lt_of_le_of_lt hl (by decide)) hz, e2, e3]
  rw [if_neg (by simp [Val.neBytes, Val.content, hs]), n2, ok_bind, if_neg (by simpa [Val.content] using hnull), n3, ok_bind]
  exact n4

/-- A push that is cut short. -/
example : deserialize toyEnv.net [5, 1] = .error .indexError := rfl

end Verif.Props
