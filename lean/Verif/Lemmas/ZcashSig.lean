import Verif.Lemmas.Sapling2
import Verif.Lemmas.Sighash3

namespace Verif
open Spec Props

attribute [local irreducible] Env.hash256

/-- The plain fields of an Overwinter transaction. -/
def OverwinterTx.zsig (t : OverwinterTx) : ZSigTx where
  header := [0x03, 0x00, 0x00, 0x80]
  groupId := [0x70, 0x82, 0xc4, 0x03]
  ins := t.txIns.map fun i => (i.outpoint.txId ++ i.outpoint.index, i.sequence)
  outs := t.txOuts.map fun o => wireOut o.value o.outputScript
  js := t.txJoinsplits.map (·.bytes)
  jsPubkey := t.joinsplitPubkey.getD []
  spends := []
  outputs := []
  lockTime := t.lockTime
  expiry := t.expiryHeight
  balance := []

/-- The plain fields of a Sapling transaction; spends without their signature. -/
def SaplingTx.zsig (t : SaplingTx) : ZSigTx where
  header := [0x04, 0x00, 0x00, 0x80]
  groupId := [0x85, 0x20, 0x2f, 0x89]
  ins := t.txIns.map fun i => (i.outpoint.txId ++ i.outpoint.index, i.sequence)
  outs := t.txOuts.map fun o => wireOut o.value o.outputScript
  js := t.txJoinsplits.map (·.bytes)
  jsPubkey := t.joinsplitPubkey.getD []
  spends := t.txShieldedSpends.map fun s => s.cv ++ s.anchor ++ s.nullifier ++ s.rk ++ s.zkproof.bytes
  outputs := t.txShieldedOutputs.map (·.bytes)
  lockTime := t.lockTime
  expiry := t.expiryHeight
  balance := t.valueBalance

/-- The data about the input being signed. -/
def zInput (x : TxIn) (script value : Bytes) : ZInput := ⟨x.outpoint.txId ++ x.outpoint.index, script, value, x.sequence⟩

theorem ins_outpoint_bytes {ins : List TxIn} (h : ∀ i ∈ ins, i.Built) :
    ins.flatMap (·.outpoint.bytes) = ((ins.map fun i => (i.outpoint.txId ++ i.outpoint.index, i.sequence)).map (·.1)).flatten := by
  rw [flatMap_bytes, List.map_map]
  congr 1
  exact List.map_congr_left fun i hi => (h i hi).eq.1.eq.2.2

theorem ins_sequence_bytes (ins : List TxIn) :
    ins.flatMap (·.sequence) = ((ins.map fun i => (i.outpoint.txId ++ i.outpoint.index, i.sequence)).map (·.2)).flatten := by
  rw [flatMap_bytes, List.map_map]; rfl

theorem outs_wire {outs : List TxOut} (h : ∀ o ∈ outs, o.Built) : outs.map (·.bytes) = outs.map fun o => wireOut o.value o.outputScript :=
  List.map_congr_left fun o ho => (h o ho).eq.2.2

theorem ascii_prevouts : ascii (pystr "ZcashPrevoutHash") = persPrevouts := by decide
theorem ascii_sequence : ascii (pystr "ZcashSequencHash") = persSequence := by decide
theorem ascii_outputs : ascii (pystr "ZcashOutputsHash") = persOutputs := by decide
theorem ascii_joinsplits : ascii (pystr "ZcashJSplitsHash") = persJoinsplits := by decide
theorem ascii_spends : ascii (pystr "ZcashSSpendsHash") = persSpends := by decide
theorem ascii_shielded : ascii (pystr "ZcashSOutputHash") = persShieldedOutputs := by decide
theorem ascii_sig_overwinter : ascii (pystr "ZcashSigHash") ++ [0x19, 0x1b, 0xa8, 0x5b] = persSigHash 0x5ba81b19 := by decide
theorem ascii_sig_sapling : ascii (pystr "ZcashSigHash") ++ [0xbb, 0x09, 0xb8, 0x76] = persSigHash 0x76b809bb := by decide

/-- The base type constant. -/
def baseConst (single : Bool) : Nat := if single then SIGHASH_SINGLE else SIGHASH_ALL

theorem sigType_const (single acp : Bool) : (if acp then baseConst single ||| SIGHASH_ANYONECANPAY else baseConst single) = sigType single acp :=
  (sigType_facts single acp).2.2.2

/-! ### Overwinter -/

theorem OverwinterTx.hashPrevouts_eq {E : Env} {t : OverwinterTx} (h : t.Facts E) {acp : Bool} {T : Nat} (ha : acpBit T = acp) :
    t.hashPrevouts E acp = zHashPrevouts E.H.blake2b t.zsig T := by
  unfold OverwinterTx.hashPrevouts zHashPrevouts
  rw [ha, ascii_prevouts, ins_outpoint_bytes h.ins]; rfl

theorem OverwinterTx.hashSequence_eq {E : Env} {t : OverwinterTx} {single acp : Bool} {T : Nat} (ha : acpBit T = acp)
    (hb : baseType T = if single then 3 else 1) : t.hashSequence E (baseConst single) acp = zHashSequence E.H.blake2b t.zsig T := by
  unfold OverwinterTx.hashSequence zHashSequence
  rw [ha, hb, ascii_sequence, ins_sequence_bytes]
  cases acp <;> cases single <;> simp [baseConst, SIGHASH_SINGLE, SIGHASH_ALL, OverwinterTx.zsig, zeros32]

theorem OverwinterTx.hashOutputs_eq {E : Env} {t : OverwinterTx} (h : t.Facts E) {single : Bool} {index : Int} {i T : Nat}
    (hs : single = true → index = i ∧ i < t.txOuts.length) (hb : baseType T = if single then 3 else 1) :
    t.hashOutputs E (baseConst single) index = .ok (zHashOutputs E.H.blake2b t.zsig i T) := by
  unfold OverwinterTx.hashOutputs zHashOutputs
  rw [ascii_outputs]
  cases single with
  | false =>
    rw [hb, if_neg (by decide), if_pos (by decide), if_pos (by decide), flatMap_bytes, outs_wire h.outs]; rfl
  | true =>
    obtain ⟨rfl, hi⟩ := hs rfl
    rw [hb, if_neg (by decide), if_neg (by decide), if_neg (by omega), getItem_ok (pyIndex_nat hi), ok_bind, if_neg (by decide), if_pos rfl]
    simp only [OverwinterTx.zsig, List.getElem?_map, List.getElem?_eq_getElem hi, Option.map_some]
    rw [(h.outs _ (List.getElem_mem hi)).eq.2.2]; simp

theorem OverwinterTx.hashJoinsplits_eq {E : Env} {t : OverwinterTx} (h : t.Facts E) :
    t.hashJoinsplits E = .ok (zHashJoinsplits E.H.blake2b t.zsig) := by
  unfold OverwinterTx.hashJoinsplits zHashJoinsplits
  rw [ascii_joinsplits]
  by_cases c : t.txJoinsplits = []
  · simp [c, OverwinterTx.zsig, zeros32]
  · obtain ⟨⟨p, hp, -⟩, -⟩ := h.args.keys c
    rw [if_neg (by simpa using c), hp]
    simp only [appendOpt, ok_bind, OverwinterTx.zsig, hp, Option.getD_some]
    rw [if_neg (by simpa using c), flatMap_bytes]

/-- Signing a transparent input. -/
theorem OverwinterTx.sighash_eq {E : Env} {t : OverwinterTx} (h : t.Facts E) {index : Int} {i : Nat}
    (hi : pyIndex index t.txIns.length = some i) (single acp : Bool) (hs : single = true → index = i ∧ i < t.txOuts.length)
    (script value : Bytes) :
    t.sighash E (baseConst single) value script index false acp =
      .ok (sighash143 E.H.blake2b t.zsig i (some (zInput (t.txIns[i]'(pyIndex_lt hi)) script value)) (sigType single acp)) := by
  obtain ⟨h1, h2, h3, -⟩ := sigType_facts single acp
  unfold OverwinterTx.sighash OverwinterTx.inputPart zcashGate
  rw [check_bind, if_pos (by simp), check_bind, if_pos h.args.zc, OverwinterTx.hashOutputs_eq h hs h2, ok_bind,
    OverwinterTx.hashJoinsplits_eq h, ok_bind, sigType_const, i2lePadded4 h3, ok_bind, if_pos (by simp), getItem_ok hi, ok_bind, ok_bind,
    OverwinterTx.hashPrevouts_eq h h1, OverwinterTx.hashSequence_eq h1 h2, ascii_sig_overwinter,
    (h.ins _ (List.getElem_mem (pyIndex_lt hi))).eq.1.eq.2.2]
  have hh : t.header = [0x03, 0x00, 0x00, 0x80] := congrArg OverwinterTx.header h.obj
  have hg : t.groupId = [0x70, 0x82, 0xc4, 0x03] := congrArg OverwinterTx.groupId h.obj
  rw [hh, hg]
  rfl

/-- Signing the joinsplits. -/
theorem OverwinterTx.sighash_js {E : Env} {t : OverwinterTx} (h : t.Facts E) {index : Int} {i : Nat} (single : Bool)
    (hs : single = true → index = i ∧ i < t.txOuts.length) (script value : Bytes) :
    t.sighash E (baseConst single) value script index true false =
      .ok (sighash143 E.H.blake2b t.zsig i none (sigType single false)) := by
  obtain ⟨h1, h2, h3, -⟩ := sigType_facts single false
  unfold OverwinterTx.sighash OverwinterTx.inputPart zcashGate
  have hc := sigType_const single false
  simp only [Bool.false_eq_true, if_false] at hc
  have hi2 : i2lePadded (baseConst single) 4 = .ok (leBytes 4 (sigType single false)) := by rw [hc]; exact i2lePadded4 h3
  rw [check_bind, if_pos (by simp), check_bind, if_pos h.args.zc, OverwinterTx.hashOutputs_eq h hs h2, ok_bind,
    OverwinterTx.hashJoinsplits_eq h, ok_bind, if_neg (by simp), hi2, ok_bind, if_neg (by simp), ok_bind,
    OverwinterTx.hashPrevouts_eq h h1, OverwinterTx.hashSequence_eq h1 h2, ascii_sig_overwinter]
  have hh : t.header = [0x03, 0x00, 0x00, 0x80] := congrArg OverwinterTx.header h.obj
  have hg : t.groupId = [0x70, 0x82, 0xc4, 0x03] := congrArg OverwinterTx.groupId h.obj
  rw [hh, hg]
  rfl

/-! ### Sapling -/

theorem SaplingTx.hashPrevouts_eq {E : Env} {t : SaplingTx} (h : t.Facts E) {acp : Bool} {T : Nat} (ha : acpBit T = acp) :
    t.hashPrevouts E acp = zHashPrevouts E.H.blake2b t.zsig T := by
  unfold SaplingTx.hashPrevouts zHashPrevouts
  rw [ha, ascii_prevouts, ins_outpoint_bytes h.ins]; rfl

theorem SaplingTx.hashSequence_eq {E : Env} {t : SaplingTx} {single acp : Bool} {T : Nat} (ha : acpBit T = acp)
    (hb : baseType T = if single then 3 else 1) : t.hashSequence E (baseConst single) acp = zHashSequence E.H.blake2b t.zsig T := by
  unfold SaplingTx.hashSequence zHashSequence
  rw [ha, hb, ascii_sequence, ins_sequence_bytes]
  cases acp <;> cases single <;> simp [baseConst, SIGHASH_SINGLE, SIGHASH_ALL, SaplingTx.zsig, zeros32]

theorem SaplingTx.hashOutputs_eq {E : Env} {t : SaplingTx} (h : t.Facts E) {single : Bool} {index : Int} {i T : Nat}
    (hs : single = true → index = i ∧ i < t.txOuts.length) (hb : baseType T = if single then 3 else 1) :
    t.hashOutputs E (baseConst single) index = .ok (zHashOutputs E.H.blake2b t.zsig i T) := by
  unfold SaplingTx.hashOutputs zHashOutputs
  rw [ascii_outputs]
  cases single with
  | false =>
    rw [hb, if_neg (by decide), if_pos (by decide), if_pos (by decide), flatMap_bytes, outs_wire h.outs]; rfl
  | true =>
    obtain ⟨rfl, hi⟩ := hs rfl
    rw [hb, if_neg (by decide), if_neg (by decide), if_neg (by omega), getItem_ok (pyIndex_nat hi), ok_bind, if_neg (by decide), if_pos rfl]
    simp only [SaplingTx.zsig, List.getElem?_map, List.getElem?_eq_getElem hi, Option.map_some]
    rw [(h.outs _ (List.getElem_mem hi)).eq.2.2]; simp

theorem SaplingTx.hashJoinsplits_eq {E : Env} {t : SaplingTx} (h : t.Facts E) :
    t.hashJoinsplits E = .ok (zHashJoinsplits E.H.blake2b t.zsig) := by
  unfold SaplingTx.hashJoinsplits zHashJoinsplits
  rw [ascii_joinsplits]
  by_cases c : t.txJoinsplits = []
  · simp [c, SaplingTx.zsig, zeros32]
  · obtain ⟨⟨p, hp, -⟩, -⟩ := h.args.keys c
    rw [if_neg (by simpa using c), hp]
    simp only [appendOpt, ok_bind, SaplingTx.zsig, hp, Option.getD_some]
    rw [if_neg (by simpa using c), flatMap_bytes]

/-- A spend's bytes without the signature at the end. -/
theorem SaplingShieldedSpend.Built.take {net : Network} {s : SaplingShieldedSpend} (h : s.Built net) :
    s.bytes.take 320 = s.cv ++ s.anchor ++ s.nullifier ++ s.rk ++ s.zkproof.bytes := by
  obtain ⟨cv, an, nf, rk, z, sg, hz, h⟩ := h
  have hl := hz.length
  rw [SaplingShieldedSpend.make_iff] at h
  obtain ⟨-, h1, h2, h3, h4, h5, rfl⟩ := h
  exact List.take_left' (by simp only [List.length_append, h1, h2, h3, h4, hl])

theorem SaplingTx.hashShieldedSpends_eq {E : Env} {t : SaplingTx} (h : t.Facts E) :
    t.hashShieldedSpends E = zHashSpends E.H.blake2b t.zsig := by
  unfold SaplingTx.hashShieldedSpends zHashSpends
  rw [ascii_spends]
  by_cases c : t.txShieldedSpends = []
  · simp [c, SaplingTx.zsig, zeros32]
  · rw [if_neg (by simpa using c), if_neg (by simpa [SaplingTx.zsig] using c), flatMap_bytes]
    congr 2
    exact List.map_congr_left fun s hs => (h.ss s hs).take

theorem SaplingTx.hashShieldedOutputs_eq {E : Env} {t : SaplingTx} :
    t.hashShieldedOutputs E = zHashShieldedOutputs E.H.blake2b t.zsig := by
  unfold SaplingTx.hashShieldedOutputs zHashShieldedOutputs
  rw [ascii_shielded]
  by_cases c : t.txShieldedOutputs = []
  · simp [c, SaplingTx.zsig, zeros32]
  · rw [if_neg (by simpa using c), if_neg (by simpa [SaplingTx.zsig] using c), flatMap_bytes]; rfl

/-- Signing a transparent input. -/
theorem SaplingTx.sighash_eq {E : Env} {t : SaplingTx} (h : t.Facts E) {index : Int} {i : Nat}
    (hi : pyIndex index t.txIns.length = some i) (single acp : Bool) (hs : single = true → index = i ∧ i < t.txOuts.length)
    (script value : Bytes) :
    t.sighash E (baseConst single) value index false (some script) acp =
      .ok (sighash243 E.H.blake2b t.zsig i (some (zInput (t.txIns[i]'(pyIndex_lt hi)) script value)) (sigType single acp)) := by
  obtain ⟨h1, h2, h3, -⟩ := sigType_facts single acp
  unfold SaplingTx.sighash SaplingTx.inputPart zcashGate
  rw [check_bind, if_pos (by simp), check_bind, if_pos h.args.zc, SaplingTx.hashOutputs_eq h hs h2, ok_bind,
    SaplingTx.hashJoinsplits_eq h, ok_bind, sigType_const, i2lePadded4 h3, ok_bind, if_pos (by simp), getItem_ok hi, ok_bind,
    show appendOpt (some script) = .ok script from rfl, ok_bind, ok_bind,
    SaplingTx.hashPrevouts_eq h h1, SaplingTx.hashSequence_eq h1 h2, ascii_sig_sapling, SaplingTx.hashShieldedSpends_eq h,
    SaplingTx.hashShieldedOutputs_eq,
    (h.ins _ (List.getElem_mem (pyIndex_lt hi))).eq.1.eq.2.2]
  have hh : t.header = [0x04, 0x00, 0x00, 0x80] := congrArg SaplingTx.header h.obj
  have hg : t.groupId = [0x85, 0x20, 0x2f, 0x89] := congrArg SaplingTx.groupId h.obj
  rw [hh, hg]
  rfl

/-- Signing joinsplits or shielded parts. -/
theorem SaplingTx.sighash_js {E : Env} {t : SaplingTx} (h : t.Facts E) {index : Int} {i : Nat} (single : Bool)
    (hs : single = true → index = i ∧ i < t.txOuts.length) (script : Option Bytes) (value : Bytes) :
    t.sighash E (baseConst single) value index true script false =
      .ok (sighash243 E.H.blake2b t.zsig i none (sigType single false)) := by
  obtain ⟨h1, h2, h3, -⟩ := sigType_facts single false
  unfold SaplingTx.sighash SaplingTx.inputPart zcashGate
  have hc := sigType_const single false
  simp only [Bool.false_eq_true, if_false] at hc
  have hi2 : i2lePadded (baseConst single) 4 = .ok (leBytes 4 (sigType single false)) := by rw [hc]; exact i2lePadded4 h3
  rw [check_bind, if_pos (by simp), check_bind, if_pos h.args.zc, SaplingTx.hashOutputs_eq h hs h2, ok_bind,
    SaplingTx.hashJoinsplits_eq h, ok_bind, if_neg (by simp), hi2, ok_bind, if_neg (by simp), ok_bind,
    SaplingTx.hashPrevouts_eq h h1, SaplingTx.hashSequence_eq h1 h2, ascii_sig_sapling, SaplingTx.hashShieldedSpends_eq h,
    SaplingTx.hashShieldedOutputs_eq]
  have hh : t.header = [0x04, 0x00, 0x00, 0x80] := congrArg SaplingTx.header h.obj
  have hg : t.groupId = [0x85, 0x20, 0x2f, 0x89] := congrArg SaplingTx.groupId h.obj
  rw [hh, hg]
  rfl

end Verif
