import Verif.Props.Builder
import Verif.Props.Sighash2
import Verif.Lemmas.ParseAny

/-! Properties C90, C91: signing a transaction. -/

namespace Verif.Props
open Verif Spec

/-! ## C90 -/

/-- The two transactions differ at most in script sigs and in the content of the witnesses. -/
structure SameUnsigned (t t' : Tx) : Prop where
  version : t.version = t'.version
  lockTime : t.lockTime = t'.lockTime
  outs : t.txOuts = t'.txOuts
  outpoints : t.txIns.map (·.outpoint) = t'.txIns.map (·.outpoint)
  sequences : t.txIns.map (·.sequence) = t'.txIns.map (·.sequence)
  /-- both have a flag or witnesses, or neither does -/
  witness : (t.flag = none ∧ t.txWitnesses = none) ↔ (t'.flag = none ∧ t'.txWitnesses = none)

theorem zip_core {l l' : List TxIn} (h1 : l.map (·.outpoint) = l'.map (·.outpoint)) (h2 : l.map (·.sequence) = l'.map (·.sequence)) :
    List.Forall₂ (fun x y : TxIn => x.outpoint = y.outpoint ∧ x.sequence = y.sequence) l l' := by
  induction l generalizing l' with
  | nil => cases l' with
    | nil => exact .nil
    | cons => simp at h1
  | cons x xs ih => cases l' with
    | nil => simp at h1
    | cons y ys =>
      simp only [List.map_cons, List.cons.injEq] at h1 h2
      exact .cons ⟨h1.1, h2.1⟩ (ih h1.2 h2.2)

theorem prep_congr {l l' : List TxIn} (h : List.Forall₂ (fun x y : TxIn => x.outpoint = y.outpoint ∧ x.sequence = y.sequence) l l') :
    mapPy (fun i : TxIn => i.copy (stackScript := some []) (redeemScript := some [])) l =
      mapPy (fun i : TxIn => i.copy (stackScript := some []) (redeemScript := some [])) l' := by
  induction h with
  | nil => rfl
  | @cons x y _ _ hxy _ ih =>
    simp only [mapPy, ih]
    congr 1
    simp only [TxIn.copy, Option.getD, hxy.1, hxy.2]

theorem getItem_forall {α β : Type} {R : α → β → Prop} {l : List α} {l' : List β} (h : List.Forall₂ R l l') (i : Int) :
    (∃ x y, getItem l i = .ok x ∧ getItem l' i = .ok y ∧ R x y) ∨ (getItem l i = .error .indexError ∧ getItem l' i = .error .indexError) := by
  unfold getItem
  rw [h.length_eq]
  cases hk : pyIndex i l'.length with
  | none => exact .inr ⟨rfl, rfl⟩
  | some k =>
    simp only []
    by_cases hl : k < l.length
    · have hl' : k < l'.length := by rw [← h.length_eq]; exact hl
      rw [List.getElem?_eq_getElem hl, List.getElem?_eq_getElem hl']
      exact .inl ⟨_, _, rfl, rfl, List.forall₂_iff_get.1 h |>.2 k hl hl'⟩
    · have hl' : ¬ k < l'.length := by rw [← h.length_eq]; exact hl
      rw [List.getElem?_eq_none (by omega), List.getElem?_eq_none (by omega)]
      exact .inr ⟨rfl, rfl⟩

theorem flat_congr {l l' : List TxIn} (h : List.Forall₂ (fun x y : TxIn => x.outpoint = y.outpoint ∧ x.sequence = y.sequence) l l') :
    l.flatMap (·.outpoint.bytes) = l'.flatMap (·.outpoint.bytes) ∧ l.flatMap (·.sequence) = l'.flatMap (·.sequence) := by
  induction h with
  | nil => exact ⟨rfl, rfl⟩
  | cons hxy _ ih => simp only [List.flatMap_cons, ih.1, ih.2, hxy.1, hxy.2, and_self]

theorem witness_congr {t t' : Tx} (hw : (t.flag = none ∧ t.txWitnesses = none) ↔ (t'.flag = none ∧ t'.txWitnesses = none)) :
    t.isWitness = t'.isWitness := by
  unfold Tx.isWitness
  rw [Bool.eq_iff_iff]
  simp only [Bool.or_eq_true, Option.isSome_iff_ne_none, ne_eq, ← Classical.not_and_iff_not_or_not, hw]

theorem not_witness {t : Tx} (h : t.isWitness = false) : t.flag = none ∧ t.txWitnesses = none := by
  unfold Tx.isWitness at h
  rw [Bool.or_eq_false_iff] at h
  exact ⟨Option.not_isSome_iff_eq_none.1 (by rw [h.1]; exact Bool.false_ne_true), Option.not_isSome_iff_eq_none.1 (by rw [h.2]; exact Bool.false_ne_true)⟩

theorem sighashPrep_congr (E : Env) {t t' : Tx} (same : SameUnsigned t t') (hi : t.isWitness = false) (index : Int) (script : Bytes) :
    t.sighashPrep E index script = t'.sighashPrep E index script := by
  obtain ⟨hv, hl, ho, h1, h2, hw⟩ := same
  have hb := not_witness hi
  have hb' := hw.1 hb
  have hc : ∀ l, t.copy E (txIns := some l) = t'.copy E (txIns := some l) := by
    intro l
    simp only [Tx.copy, Option.getD, hv, hl, ho, hb.1, hb.2, hb'.1, hb'.2]
  unfold Tx.sighashPrep
  rw [prep_congr (zip_core h1 h2)]
  simp only [hc]

theorem bind_forall {α β γ : Type} {R : α → β → Prop} {l : List α} {l' : List β} (h : List.Forall₂ R l l') (i : Int)
    {f : α → Py γ} {g : β → Py γ} (hfg : ∀ x y, R x y → f x = g y) : (getItem l i >>= f) = (getItem l' i >>= g) := by
  rcases getItem_forall h i with ⟨x, y, hx, hy, hxy⟩ | ⟨hx, hy⟩
  · rw [hx, hy, ok_bind, ok_bind, hfg x y hxy]
  · rw [hx, hy]; rfl

theorem bind_congr' {α γ : Type} {x : Py α} {f g : α → Py γ} (h : ∀ v, f v = g v) : (x >>= f) = (x >>= g) := by
  rw [funext h]

theorem bip143_congr (E : Env) {t t' : Tx} (same : SameUnsigned t t') (index : Int) (script : Bytes) (value : Option Bytes) (ty : Nat)
    (acp : Bool) : t.segwitSighash E index ty value script acp = t'.segwitSighash E index ty value script acp ∧
      ∀ k, t.sighashForkid E k index script value ty acp = t'.sighashForkid E k index script value ty acp := by
  obtain ⟨hv, hl, ho, h1, h2, hw⟩ := same
  have hz := zip_core h1 h2
  have hprev : t.hashPrevouts E acp = t'.hashPrevouts E acp := by
    unfold Tx.hashPrevouts
    rw [(flat_congr hz).1]
  have hseq : t.hashSequence E ty acp = t'.hashSequence E ty acp := by
    unfold Tx.hashSequence
    rw [(flat_congr hz).2]
  have hout : t.hashOutputs E index ty = t'.hashOutputs E index ty := by
    unfold Tx.hashOutputs
    rw [ho]
  constructor
  · unfold Tx.segwitSighash
    rw [hprev, hseq, hout, hv, hl]
    refine bind_forall hz index ?_
    rintro x y ⟨h3, h4⟩
    rw [h3, h4]
  · intro k
    unfold Tx.sighashForkid
    rw [hprev, hseq, hout, hv, hl]
    cases value with
    | none => rfl
    | some v =>
      refine bind_congr' fun _ => bind_congr' fun v => bind_forall hz index ?_
      rintro x y ⟨h3, h4⟩
      rw [h3, h4]

/-- C90: script sigs and witnesses have no influence on any digest. For every index, script, value and type, and whether or not the call
raises, the two transactions behave alike. -/
theorem C90_digest (E : Env) (t t' : Tx) (same : SameUnsigned t t') (index : Int) (script : Bytes) (value : Option Bytes) (acp : Bool) :
    t.sighashAll E index script value acp = t'.sighashAll E index script value acp ∧
    t.sighashSingle E index script value acp = t'.sighashSingle E index script value acp := by
  have hwit := witness_congr same.witness
  have hseg := fun ty => (bip143_congr E same index script value ty acp).1
  have hfork := fun ty => (bip143_congr E same index script value ty acp).2
  have hprep := fun hi => sighashPrep_congr E same hi index script
  constructor
  · unfold Tx.sighashAll
    rw [← hwit, hseg]
    simp only [hfork]
    cases hi : t.isWitness with
    | true => simp only [if_true]
    | false => rw [hprep hi]
  · unfold Tx.sighashSingle Tx.sighashSingleLegacy
    rw [← hwit, ← same.outs, hseg]
    simp only [hfork]
    cases hi : t.isWitness with
    | true => simp only [if_true]
    | false => rw [hprep hi]

/-- `y` is the input `x` with its script sig filled in. -/
def Signs (x y : TxIn) : Prop := ∃ stack redeem, x.copy (stackScript := some stack) (redeemScript := some redeem) = .ok y

theorem Signs.facts {x y : TxIn} (hx : x.Built) (h : Signs x y) : y.Built ∧ x.outpoint = y.outpoint ∧ x.sequence = y.sequence := by
  obtain ⟨s, r, h⟩ := h
  refine ⟨⟨_, _, _, _, hx.eq.1, h⟩, ?_⟩
  obtain ⟨-, -, -, rfl⟩ := TxIn.make_iff.1 h
  exact ⟨rfl, rfl⟩

theorem signs_maps {l l' : List TxIn} (hl : ∀ x ∈ l, x.Built) (h : List.Forall₂ Signs l l') :
    (∀ y ∈ l', y.Built) ∧ l.map (·.outpoint) = l'.map (·.outpoint) ∧ l.map (·.sequence) = l'.map (·.sequence) := by
  induction h with
  | nil => exact ⟨by simp, rfl, rfl⟩
  | cons h1 _ ih =>
    have h2 := h1.facts (hl _ (by simp))
    have h3 := ih (fun x hx => hl x (by simp [hx]))
    refine ⟨?_, by rw [List.map_cons, List.map_cons, h2.2.1, h3.2.1], by rw [List.map_cons, List.map_cons, h2.2.2, h3.2.2]⟩
    intro y hy
    rcases List.mem_cons.1 hy with rfl | hy
    · exact h2.1
    · exact h3.1 y hy

/-- C90, filling in script sigs: when every input is replaced by a copy with a stack script and a redeem script, the transaction
can be copied with these inputs, keeps everything else, and has the same digests as the unsigned one, whatever is asked. -/
theorem C90_script_sigs (E : Env) (t : Tx) (h : t.Built E) (signed : List TxIn) (hs : List.Forall₂ Signs t.txIns signed) :
    ∃ t', t.copy E (txIns := some signed) = .ok t' ∧ t'.Built E ∧ t'.txIns = signed ∧ t'.txOuts = t.txOuts ∧ t'.version = t.version ∧
      t'.lockTime = t.lockTime ∧ t'.flag = t.flag ∧ t'.txWitnesses = t.txWitnesses ∧
      ∀ index script value acp, t'.sighashAll E index script value acp = t.sighashAll E index script value acp ∧
        t'.sighashSingle E index script value acp = t.sighashSingle E index script value acp := by
  have f := h.facts
  obtain ⟨hb, ho, hq⟩ := signs_maps f.ins hs
  have hargs : TxArgsOK E t.version t.flag signed t.txOuts t.txWitnesses t.lockTime := by
    have := f.args
    unfold TxArgsOK at this ⊢
    rw [← hs.length_eq]
    obtain ⟨a1, a2, a3, a4, a5, a6, a7, a8⟩ := this
    refine ⟨a1, a2, a3, a4, ?_, a6, a7, a8⟩
    intro hn
    have := hs.length_eq
    rw [hn] at this
    exact a5 (List.length_eq_zero_iff.1 this)
  have hc : t.copy E (txIns := some signed) = Tx.make E t.version t.flag signed t.txOuts t.txWitnesses t.lockTime := by
    unfold Tx.copy
    cases t.flag <;> cases t.txWitnesses <;> rfl
  refine ⟨_, hc.trans (Tx.make_iff.2 ⟨hargs, rfl⟩), ⟨_, _, _, _, _, _, hb, f.outs, f.wits, Tx.make_iff.2 ⟨hargs, rfl⟩⟩, rfl, rfl, rfl, rfl, rfl, rfl, ?_⟩
  intro index script value acp
  exact C90_digest E (txObj E t.version t.flag signed t.txOuts t.txWitnesses t.lockTime) t ⟨rfl, rfl, rfl, ho.symm, hq.symm, Iff.rfl⟩ index script value acp

/-- C90, filling in witnesses: a segwit transaction can be copied with one witness for each input; it keeps its `tx_id` and everything
else, and has the same digests as before, whatever is asked. -/
theorem C90_witnesses (E : Env) (t : Tx) (h : t.Built E) (hf : t.flag ≠ none) (ws : List InputWitness) (hw : ∀ w ∈ ws, w.Built)
    (hl : ws.length = t.txIns.length) :
    ∃ t', t.copy E (txWitnesses := some ws) = .ok t' ∧ t'.Built E ∧ t'.txWitnesses = some ws ∧ t'.txIns = t.txIns ∧ t'.txOuts = t.txOuts ∧
      t'.version = t.version ∧ t'.lockTime = t.lockTime ∧ t'.flag = t.flag ∧ t'.txId = t.txId ∧
      ∀ index script value acp, t'.sighashAll E index script value acp = t.sighashAll E index script value acp ∧
        t'.sighashSingle E index script value acp = t.sighashSingle E index script value acp := by
  have f := h.facts
  have hargs : TxArgsOK E t.version t.flag t.txIns t.txOuts (some ws) t.lockTime := by
    have := f.args
    unfold TxArgsOK at this ⊢
    obtain ⟨a1, a2, a3, a4, a5, a6, a7, a8⟩ := this
    exact ⟨a1, a2, a3, fun _ => ⟨hf, hl⟩, a5, a6, a7, a8⟩
  have hc : t.copy E (txWitnesses := some ws) = Tx.make E t.version t.flag t.txIns t.txOuts (some ws) t.lockTime := by
    unfold Tx.copy
    cases t.flag <;> rfl
  have hb : (txObj E t.version t.flag t.txIns t.txOuts (some ws) t.lockTime).Built E :=
    ⟨_, _, _, _, some ws, _, f.ins, f.outs, hw, Tx.make_iff.2 ⟨hargs, rfl⟩⟩
  refine ⟨_, hc.trans (Tx.make_iff.2 ⟨hargs, rfl⟩), hb, rfl, rfl, rfl, rfl, rfl, rfl, C43_txid_ignores_witnesses E _ t hb h rfl rfl rfl rfl, ?_⟩
  intro index script value acp
  exact C90_digest E (txObj E t.version t.flag t.txIns t.txOuts (some ws) t.lockTime) t ⟨rfl, rfl, rfl, rfl, rfl, by simp [hf, txObj]⟩ index script value acp

/-- The input of `exLegacy` signed with another stack script. -/
def exSigned : TxIn := ⟨exOutpoint, [1, 8], [2, 0x51, 0x51], [1, 8, 2, 0x51, 0x51], [0xfe, 0xff, 0xff, 0xff],
  exOutpoint.bytes ++ [5, 1, 8, 2, 0x51, 0x51] ++ [0xfe, 0xff, 0xff, 0xff]⟩
example : exLegacy.Built toyEnv ∧ Signs exIn exSigned ∧ List.Forall₂ Signs exLegacy.txIns [exSigned, exSigned] ∧ exSigned ≠ exIn := by
  have h : Signs exIn exSigned := ⟨[1, 8], [2, 0x51, 0x51], by decide +kernel⟩
  exact ⟨exLegacy_built, h, .cons h (.cons h .nil), by decide +kernel⟩
example : exTx.Built toyEnv ∧ exTx.flag ≠ none ∧ exWit.Built ∧ [exWit].length = exTx.txIns.length := ⟨exTx_built, by decide, exWit_built, rfl⟩
example : SameUnsigned exLegacy (txObj toyEnv [2, 0, 0, 0] none [exSigned, exSigned] [exOut, exOut] none [0, 0, 0, 0]) :=
  ⟨rfl, rfl, rfl, rfl, rfl, Iff.rfl⟩

/-- C90, the whole workflow without segwit: build an unsigned transaction, ask for a digest, fill in the script sigs. The result has the
given outputs, the signed inputs and the digests of the unsigned transaction. -/
theorem C90_legacy_workflow (E : Env) (hs : E.net.Supported) (hz : E.net.isZcash = false) (ins : List TxIn) (outs : List TxOut)
    (hi : ins.length < 2 ^ 64) (ho : outs.length < 2 ^ 64) (hi0 : ins ≠ []) (ho0 : outs ≠ []) (bi : ∀ i ∈ ins, i.Built)
    (bo : ∀ o ∈ outs, o.Built) (k : Simple.Kwargs) (kv : U32 (k.version.getD 2)) (kl : U32 (k.lockTime.getD 0)) (signed : List TxIn)
    (hsg : List.Forall₂ Signs ins signed) :
    ∃ t t', Simple.unsignedLegacyTx E ins outs k = .ok (.std t) ∧ t.copy E (txIns := some signed) = .ok t' ∧ t'.Built E ∧
      t'.txIns = signed ∧ t'.txOuts = outs ∧ t'.flag = none ∧ t'.txWitnesses = none ∧ (leValue t'.version : Int) = k.version.getD 2 ∧
      (leValue t'.lockTime : Int) = k.lockTime.getD 0 ∧
      ∀ index script value acp, t'.sighashAll E index script value acp = t.sighashAll E index script value acp ∧
        t'.sighashSingle E index script value acp = t.sighashSingle E index script value acp := by
  obtain ⟨t, h1, h2, h3, h4, h5, h6, h7, h8⟩ := (C68_unsigned_legacy_tx E hs hz ins outs hi ho k).1 kv kl hi0 ho0
  obtain ⟨t', g1, g2, g3, g4, g5, g6, g7, g8, g9⟩ := C90_script_sigs E t (h8 bi bo) signed (by rw [h2]; exact hsg)
  exact ⟨t, t', h1, g1, g2, g3, g4.trans h3, g7.trans h4, g8.trans h5, by rw [g5]; exact h6, by rw [g6]; exact h7, g9⟩

/-- C90, the whole workflow with segwit: build an unsigned witness transaction, ask for a digest, fill in the witnesses. The result has the
given inputs, outputs and witnesses, and the digests and `tx_id` of the unsigned transaction. -/
theorem C90_witness_workflow (E : Env) (hs : E.net.Supported) (hz : E.net.isZcash = false) (ins : List TxIn) (outs : List TxOut)
    (hi : ins.length < 2 ^ 64) (ho : outs.length < 2 ^ 64) (hi0 : ins ≠ []) (ho0 : outs ≠ []) (bi : ∀ i ∈ ins, i.Built)
    (bo : ∀ o ∈ outs, o.Built) (k : Simple.Kwargs) (kv : U32 (k.version.getD 2)) (kl : U32 (k.lockTime.getD 0))
    (ws : List InputWitness) (hw : ∀ w ∈ ws, w.Built) (hl : ws.length = ins.length) :
    ∃ t t', Simple.unsignedWitnessTx E ins outs k = .ok (.std t) ∧ t.copy E (txWitnesses := some ws) = .ok t' ∧ t'.Built E ∧
      t'.txIns = ins ∧ t'.txOuts = outs ∧ t'.flag = some [0x00, 0x01] ∧ t'.txWitnesses = some ws ∧
      (leValue t'.version : Int) = k.version.getD 2 ∧ (leValue t'.lockTime : Int) = k.lockTime.getD 0 ∧ t'.txId = t.txId ∧
      ∀ index script value acp, t'.sighashAll E index script value acp = t.sighashAll E index script value acp ∧
        t'.sighashSingle E index script value acp = t.sighashSingle E index script value acp := by
  obtain ⟨t, ws0, h1, h2, h3, h4, h5, -, -, h6, h7, h8⟩ := (C68_unsigned_witness_tx E hs hz ins outs hi ho k).1 kv kl hi0 ho0
  obtain ⟨t', g1, g2, g3, g4, g5, g6, g7, g8, g9, g10⟩ :=
    C90_witnesses E t (h8 bi bo) (by rw [h4]; simp) ws hw (by rw [h2]; exact hl)
  exact ⟨t, t', h1, g1, g2, g4.trans h2, g5.trans h3, g8.trans h4, g3, by rw [g6]; exact h6, by rw [g7]; exact h7, g9, g10⟩

/-! ## C91 -/

/-- A one-byte prefix is stripped, whatever its value. -/
theorem fromBytes_one (net : Network) {b : UInt8} (hb : b.toNat < 0xfd) (s : Bytes) :
    ∃ v, VarInt.fromBytes net (b :: s) = .ok v ∧ v.bytes.length = 1 := by
  have := VarInt.fromBytes_len (net := net) (n := b.toNat) (by omega) (.inr (by omega)) s
  rw [show compactSize b.toNat = [b] by unfold compactSize; rw [if_pos hb]; simp [leBytes]] at this
  exact ⟨_, this, rfl⟩

/-- Two arguments that leave the same bytes after stripping give the same prepared transaction. -/
theorem prep_strip (E : Env) (t : Tx) (index : Int) {p q : Bytes} {v w : VarInt} (hp : VarInt.fromBytes E.net p = .ok v)
    (hq : VarInt.fromBytes E.net q = .ok w) (h : p.drop v.bytes.length = q.drop w.bytes.length) :
    t.sighashPrep E index p = t.sighashPrep E index q := by
  unfold Tx.sighashPrep
  simp only [hp, hq, ok_bind, h]

/-- C91 is violated: on a legacy transaction the value of a one-byte prefix is not looked at. Any byte below 0xfd in place of the right
length gives the digest of the rest. -/
theorem C91_false (E : Env) (hf : E.net.forkid = none) (t : Tx) (hw : t.flag = none ∧ t.txWitnesses = none) (index : Int) (b : UInt8)
    (hb : b.toNat < 0xfd) (s : Bytes) (hl : s.length < 2 ^ 64)
    (hz : (E.net.isOverwinter = false ∧ E.net.isSapling = false) ∨ ¬ (253 ≤ s.length ∧ s.length < 256)) (value : Option Bytes) (acp : Bool) :
    t.sighashAll E index (b :: s) value acp = t.sighashAll E index (varBytes s) value acp ∧
    t.sighashSingle E index (b :: s) value acp = t.sighashSingle E index (varBytes s) value acp := by
  obtain ⟨v, h1, h2⟩ := fromBytes_one E.net hb s
  have h3 := VarInt.fromBytes_len (net := E.net) hl hz s
  have hp := prep_strip E t index h1 h3 (by rw [h2]; simp)
  have hp : t.sighashPrep E index (b :: s) = t.sighashPrep E index (varBytes s) := hp
  have hw' : t.isWitness = false := by simp [Tx.isWitness, hw.1, hw.2]
  constructor
  · unfold Tx.sighashAll
    rw [hf]
    simp only [hw', Bool.false_eq_true, if_false, hp]
  · unfold Tx.sighashSingle Tx.sighashSingleLegacy
    rw [hf]
    simp only [hw', Bool.false_eq_true, if_false, hp]

/-- The two scripts have different preimages. -/
theorem legacyPreimage_ne (E : Env) (t : Tx) (h : t.Built E) (hw : t.flag = none ∧ t.txWitnesses = none) (i : Nat)
    (hi : i < t.txIns.length) {s s' : Bytes} (hs : s.length ≤ 1650) (hs' : s'.length ≤ 1650) (hne : s ≠ s') (acp : Bool) :
    legacyPreimage t.sig i s (if acp then 0x81 else 0x01) ≠ legacyPreimage t.sig i s' (if acp then 0x81 else 0x01) := by
  intro e
  let E' : Env := ⟨bitcoinMain, ⟨id, id, fun _ => id⟩⟩
  have hid : ∀ m, E'.hash256 m = m := fun m => rfl
  have f := h.facts
  let u : Tx := txObj E' t.version t.flag t.txIns t.txOuts t.txWitnesses t.lockTime
  have h' : u.Built E' := by
    have ha : TxArgsOK E' t.version t.flag t.txIns t.txOuts t.txWitnesses t.lockTime := by
      obtain ⟨a1, a2, a3, a4⟩ := f.args
      exact ⟨a1, a2, .inl hw.1, a4⟩
    exact ⟨_, _, _, _, _, _, f.ins, f.outs, f.wits, Tx.make_iff.2 ⟨ha, rfl⟩⟩
  have e : legacyPreimage u.sig i s (if acp then 0x81 else 0x01) = legacyPreimage u.sig i s' (if acp then 0x81 else 0x01) := e
  have hz : ∀ n : Nat, (E'.net.isOverwinter = false ∧ E'.net.isSapling = false) ∨ ¬ (253 ≤ n ∧ n < 256) := fun _ => .inl ⟨rfl, rfl⟩
  have q := C53_legacy E' rfl acp acp u u h' h' hw hw i i hi hi s s' hs hs' (hz _) (hz _) none none (by
    rw [C48_all E' rfl u h' hw i i (.inl rfl) hi s hs (hz _), C48_all E' rfl u h' hw i i (.inl rfl) hi s' hs' (hz _), e])
  rcases q with ⟨-, -, -, -, q, -⟩ | ⟨p, hm, q1, q2⟩
  · exact hne q
  · rw [hid, hid] at q2
    exact q1 q2

/-- C91 is violated: a script passed without its length prefix is signed without its first byte, and that is the digest of another
preimage. This holds for every script whose first byte is below 0xfd, so for every standard output script. -/
theorem C91_unprefixed_false (E : Env) (hf : E.net.forkid = none) (t : Tx) (h : t.Built E) (hw : t.flag = none ∧ t.txWitnesses = none)
    (i : Nat) (hi : i < t.txIns.length) (b : UInt8) (hb : b.toNat < 0xfd) (s : Bytes) (hs : s.length < 1650)
    (hz : (E.net.isOverwinter = false ∧ E.net.isSapling = false) ∨ ¬ (253 ≤ s.length ∧ s.length < 256)) (value : Option Bytes) (acp : Bool) :
    t.sighashAll E i (b :: s) value acp = .ok (E.hash256 (legacyPreimage t.sig i s (if acp then 0x81 else 0x01))) ∧
    legacyPreimage t.sig i s (if acp then 0x81 else 0x01) ≠ legacyPreimage t.sig i (b :: s) (if acp then 0x81 else 0x01) := by
  refine ⟨?_, legacyPreimage_ne E t h hw i hi (by omega) (by simpa using hs) (fun e => ?_) acp⟩
  · rw [(C91_false E hf t hw i b hb s (by omega) hz value acp).1]
    exact C48_all E hf t h hw i i (.inl rfl) hi s (by omega) hz value acp
  · simpa using congrArg List.length e

/-- C91 is violated for segwit transactions too: no argument is refused, with or without a prefix, and the digests of a script passed with
and without its prefix have different preimages. -/
theorem C91_witness_false (E : Env) (hf : E.net.forkid = none) (t : Tx) (h : t.Built E) (hw : t.flag ≠ none ∨ t.txWitnesses ≠ none)
    (i : Nat) (x : TxIn) (hx : t.txIns[i]? = some x) (script value : Bytes) (acp : Bool) :
    t.sighashAll E i script (some value) acp = .ok (E.hash256 (preimage143 E t i x script value (if acp then 0x81 else 0x01))) ∧
    preimage143 E t i x script value (if acp then 0x81 else 0x01) ≠
      preimage143 E t i x (varBytes script) value (if acp then 0x81 else 0x01) := by
  refine ⟨C46_all E hf t h hw i i x (.inl rfl) hx script value acp, fun e => ?_⟩
  have e := congrArg List.length e
  have := compactSize_pos script.length
  simp only [preimage143, bip143, varBytes, List.length_append] at e
  omega

/-- An input takes at most 1650 bytes of script. -/
theorem copy_long {x : TxIn} {s : Bytes} (h0 : x.stackScript = []) (hs : ¬ s.length ≤ 1650) :
    x.copy (redeemScript := some s) = .error .valueError := by
  show TxIn.make x.outpoint x.stackScript s x.sequence = .error .valueError
  cases h : TxIn.make x.outpoint x.stackScript s x.sequence with
  | ok y => exact absurd (TxIn.make_iff.1 h).2.2.1 (by rw [h0]; simpa using hs)
  | error e => rw [TxIn.make_error h]

/-- C91, what does hold on a legacy transaction: an empty argument is refused with IndexError, and any other is refused with ValueError or
gives the digest of the argument without its first `k ≥ 1` bytes. -/
theorem C91_partial (E : Env) (hf : E.net.forkid = none) (t : Tx) (h : t.Built E) (hw : t.flag = none ∧ t.txWitnesses = none)
    (hz : E.net.isOverwinter = false ∧ E.net.isSapling = false)
    (i : Nat) (hi : i < t.txIns.length) (value : Option Bytes) (acp : Bool) :
    t.sighashAll E i [] value acp = .error .indexError ∧
    ∀ script, script ≠ [] → t.sighashAll E i script value acp = .error .valueError ∨
      ∃ k, 1 ≤ k ∧ t.sighashAll E i script value acp =
        .ok (E.hash256 (legacyPreimage t.sig i (script.drop k) (if acp then 0x81 else 0x01))) := by
  have hw' : t.isWitness = false := by simp [Tx.isWitness, hw.1, hw.2]
  have hc := mapPy_ok (f := fun i : TxIn => i.copy (stackScript := some []) (redeemScript := some [])) (g := fun i => inWith [] i.sequence i)
    (l := t.txIns) (fun x hx => inWith_make ((h.facts.ins x hx).eq).1 (by simp) ((h.facts.ins x hx).eq).2.1)
  constructor
  · unfold Tx.sighashAll Tx.sighashPrep
    rw [hf]
    simp only [hw', Bool.false_eq_true, if_false, hc, ok_bind, VarInt.fromBytes]
    rfl
  intro script hne
  rcases VarInt.fromBytes_any E.net script with ⟨h1, -⟩ | ⟨-, h1⟩ | ⟨-, v, h1, -⟩
  · exact absurd h1 hne
  · left
    unfold Tx.sighashAll Tx.sighashPrep
    rw [hf]
    simp only [hw', Bool.false_eq_true, if_false, hc, ok_bind, h1]
    rfl
  by_cases hs : (script.drop v.bytes.length).length ≤ 1650
  · right
    refine ⟨v.bytes.length, (VarInt.fromBytes_ok h1).2.2.2, ?_⟩
    rw [← C48_all E hf t h hw i i (.inl rfl) hi (script.drop v.bytes.length) hs (.inl hz) value acp]
    have h3 := VarInt.fromBytes_len (net := E.net) (n := (script.drop v.bytes.length).length) (by omega) (.inl hz) (script.drop v.bytes.length)
    have hp := prep_strip E t i h1 h3 (by simp)
    have hp : t.sighashPrep E i script = t.sighashPrep E i (varBytes (script.drop v.bytes.length)) := hp
    unfold Tx.sighashAll
    rw [hf]
    simp only [hw', Bool.false_eq_true, if_false, hp]
  · left
    unfold Tx.sighashAll Tx.sighashPrep
    rw [hf]
    simp only [hw', Bool.false_eq_true, if_false, hc, ok_bind, h1]
    rw [getItem_ok (pyIndex_nat (by simpa using hi)), ok_bind, copy_long (by simp [inWith]) hs]
    rfl

example : toyEnv.net.forkid = none ∧ exLegacy.Built toyEnv ∧ exLegacy.flag = none ∧ exLegacy.txWitnesses = none ∧ 1 < exLegacy.txIns.length ∧
    (0x76 : UInt8).toNat < 0xfd ∧ toyEnv.net.isOverwinter = false ∧ toyEnv.net.isSapling = false :=
  ⟨rfl, exLegacy_built, rfl, rfl, by decide, by decide, rfl, rfl⟩
example : exTx.Built toyEnv ∧ exTx.flag ≠ none ∧ exTx.txIns[0]? = some exIn := ⟨exTx_built, by decide, rfl⟩

end Verif.Props
