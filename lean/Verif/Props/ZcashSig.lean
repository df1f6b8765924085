import Verif.Props.ZcashTx2
import Verif.Props.Sighash
import Verif.Lemmas.ZcashSig2

/-! Properties C50 (Zcash), C56, C60, C61, C76 and C77: signature hashes of the Zcash transaction classes. -/

namespace Verif.Props
open Verif Spec

attribute [local irreducible] Env.hash256

/-! ## C56 -/

theorem sprout_len_ok {net : Network} (hn : net.Supported) (hs : net.isSprout = true) (n : Nat) : LenOK net n := by
  left
  revert net; unfold Network.Supported; decide +kernel

/-- The transaction `SproutTx.sighash_all` hashes: the legacy copy, and for version 2 the joinsplits and their key, without signature. -/
def sproutPreimage (t : SproutTx) (i : Nat) (script : Bytes) : Bytes :=
  wireLegacy t.version ((t.txIns.map fun x => (x.outpoint.txId ++ x.outpoint.index, x.sequence)).mapIdx (legacyIn i 1 script))
      (t.txOuts.map fun o => wireOut o.value o.outputScript) t.lockTime
    ++ (if t.version = [2, 0, 0, 0] then vector (t.txJoinsplits.map (·.bytes)) ++ t.joinsplitPubkey.getD [] else [])

/-- C56: `sighash_all` is the double hash of the prepared copy and the type; refused exactly when the copy is too large. -/
theorem C56_all (E : Env) (hn : E.net.Supported) (t : SproutTx) (h : t.Built E) (index : Int) (i : Nat)
    (hi : index = i ∨ index = (i : Int) - t.txIns.length) (hl : i < t.txIns.length) (script : Bytes) (hs : script.length ≤ 1650) :
    t.sighashAll E index (varBytes script) =
      (if (sproutPreimage t i script).length ≤ 100000 then .ok (E.hash256 (sproutPreimage t i script ++ leBytes 4 1))
      else .error .valueError) := by
  have f := h.facts
  have hp : pyIndex index t.txIns.length = some i := by
    unfold pyIndex
    rcases hi with rfl | rfl
    · rw [if_pos (by omega), if_pos (by omega)]; simp
    · rw [if_neg (by omega), if_pos (by omega)]; congr 1; omega
  have key : sproutBytes t.version ((prepIns t.txIns i script).map (·.bytes)) (t.txOuts.map (·.bytes)) t.lockTime
      (t.txJoinsplits.map (·.bytes)) (t.joinsplitPubkey.getD []) [] = sproutPreimage t i script := by
    rw [prepIns_bytes' f.ins i script (T := 1) rfl, outs_wire' f.outs]
    unfold sproutPreimage
    rcases f.args.ver with ⟨hv, -⟩ | ⟨hv, -⟩
    · rw [sproutBytes_v1 hv, if_neg (by rw [hv]; decide), List.append_nil]
    · rw [sproutBytes_v2 hv, if_pos hv, List.append_nil]
  unfold SproutTx.sighashAll
  rw [SproutTx.sighashPrep_eq f hp hs (sprout_len_ok hn f.args.sp _), SproutTx.copy_prep f (by simp [prepIns]), key]
  split
  · rw [ok_bind, if_neg (by decide), SproutTx.final_eq f.args.zc _ (by decide)]
    simp only [sproutObj]
    rw [Option.getD_some, key]; rfl
  · rfl

/-- C56: without inputs there is nothing to prepare; the script is ignored. -/
theorem C56_all_no_inputs (E : Env) (t : SproutTx) (h : t.Built E) (hi : t.txIns = []) (index : Int) (script : Bytes) :
    t.sighashAll E index script = .ok (E.hash256 (sproutPreimage t 0 [] ++ leBytes 4 1)) := by
  have f := h.facts
  have hv : t.version = v2 := by
    rcases f.args.ver with ⟨-, -, hh⟩ | ⟨hv, -⟩
    · exact absurd hi hh
    · exact hv
  have key : sproutBytes t.version (t.txIns.map (·.bytes)) (t.txOuts.map (·.bytes)) t.lockTime
      (t.txJoinsplits.map (·.bytes)) (t.joinsplitPubkey.getD []) [] = sproutPreimage t 0 [] := by
    rw [outs_wire' f.outs, sproutBytes_v2 hv]
    unfold sproutPreimage
    rw [if_pos hv, hi, List.append_nil]
    rfl
  have hsz : (sproutPreimage t 0 []).length ≤ 100000 := by
    rw [← key]
    have := f.args.size
    rw [sproutBytes_v2 hv] at this ⊢
    simp only [List.length_append, Option.getD_some, List.length_nil] at this ⊢
    omega
  have hc := SproutTx.copy_prep f (ins := t.txIns) rfl
  unfold SproutTx.sighashAll SproutTx.sighashPrep
  rw [if_pos (by rw [hi]; rfl)]
  have e1 : t.copy E (joinsplitSig := some []) = t.copy E (txIns := some t.txIns) (joinsplitSig := some []) := by
    unfold SproutTx.copy; rfl
  rw [e1, hc, key, if_pos hsz, ok_bind, if_neg (by decide), SproutTx.final_eq f.args.zc _ (by decide)]
  simp only [sproutObj]
  rw [Option.getD_some, key]; rfl

/-- C56 is false: SINGLE and ANYONECANPAY are refused for every Sprout transaction, joinsplits or not. -/
theorem C56_false (E : Env) (t : SproutTx) :
    (∀ index script acp, t.sighashSingle E index script acp = .error .valueError) ∧
    (∀ index script, ∃ e, t.sighashAll E index script true = .error e) ∧
    (∀ index script d, t.sighashAll E index script = .ok d → t.sighashAll E index script true = .error .valueError) := by
  have hacp : ∀ index script x, t.sighashPrep E index script = .ok x → t.sighashAll E index script true = .error .valueError := by
    intro index script x hx
    unfold SproutTx.sighashAll
    rw [hx, ok_bind, if_pos rfl]; rfl
  refine ⟨fun index script acp => rfl, fun index script => ?_, fun index script d hd => ?_⟩
  · cases hx : t.sighashPrep E index script with
    | error e => exact ⟨e, by unfold SproutTx.sighashAll; rw [hx]; rfl⟩
    | ok x => exact ⟨_, hacp _ _ _ hx⟩
  · unfold SproutTx.sighashAll at hd
    obtain ⟨x, hx, -⟩ := bind_ok_iff.1 hd
    exact hacp _ _ _ hx

/-- A transaction without joinsplits and one with. -/
example : exSprout1.Built sproutEnv ∧ exSprout1.txJoinsplits = [] ∧ exSprout2.Built sproutEnv ∧ exSprout2.txIns = [exIn] ∧
    sproutEnv.net.Supported := ⟨exSprout1_built, rfl, exSprout2_built, rfl, by unfold Network.Supported; decide +kernel⟩

/-! ## C50, C60, C61, C76 and C77 -/

theorem index_py {index : Int} {n i : Nat} (hi : index = i ∨ index = (i : Int) - n) (hl : i < n) : pyIndex index n = some i := by
  unfold pyIndex
  rcases hi with rfl | rfl
  · rw [if_pos (by omega), if_pos (by omega)]; simp
  · rw [if_neg (by omega), if_pos (by omega)]; congr 1; omega

/-! ### Overwinter -/

/-- C60 for Overwinter, transparent input `i` (given as `i` or counted from the end): the ZIP143 digest, ALL or SINGLE, with or without
ANYONECANPAY. For SINGLE the input must have its output. -/
theorem C60_overwinter (E : Env) (t : OverwinterTx) (h : t.Built E) (index : Int) (i : Nat) (hi : index = i ∨ index = (i : Int) - t.txIns.length)
    (hl : i < t.txIns.length) (single acp : Bool) (hs : single = true → index = i ∧ i < t.txOuts.length) (script value : Bytes) :
    t.sighash E (if single then 3 else 1) value script index false acp =
      .ok (sighash143 E.H.blake2b t.zsig i (some ⟨t.txIns[i].outpoint.txId ++ t.txIns[i].outpoint.index, script, value, t.txIns[i].sequence⟩)
        ((if single then 3 else 1) + (if acp then 128 else 0))) :=
  OverwinterTx.sighash_eq h.facts (index_py hi hl) single acp hs script value

/-- C60 for Overwinter, signing joinsplits: the ZIP143 digest without an input; never with ANYONECANPAY. -/
theorem C60_overwinter_joinsplit (E : Env) (t : OverwinterTx) (h : t.Built E) (i : Nat) (single : Bool)
    (hs : single = true → i < t.txOuts.length) (script value : Bytes) :
    t.sighash E (if single then 3 else 1) value script i true false =
      .ok (sighash143 E.H.blake2b t.zsig i none (if single then 3 else 1)) ∧
    t.sighash E (if single then 3 else 1) value script i true true = .error .valueError := by
  refine ⟨(OverwinterTx.sighash_js h.facts single (fun e => ⟨rfl, hs e⟩) script value).trans ?_, rfl⟩
  cases single <;> rfl

/-- C50 for Overwinter: SINGLE without an output, and input indices out of range. -/
theorem C50_overwinter (E : Env) (t : OverwinterTx) (h : t.Built E) (index : Int) (script value : Bytes) (js acp : Bool) (hj : ¬ (js = true ∧ acp = true)) :
    (index = t.txOuts.length → t.sighash E 3 value script index js acp = .error .indexError) ∧
    (index > t.txOuts.length → t.sighash E 3 value script index js acp = .error .notImplementedError) ∧
    (index ≥ t.txIns.length ∨ index < -(t.txIns.length : Int) → t.sighash E 1 value script index false acp = .error .indexError) := by
  have f := h.facts
  refine ⟨fun e => ?_, fun e => ?_, fun e => ?_⟩
  · unfold OverwinterTx.sighash zcashGate OverwinterTx.hashOutputs
    rw [check_bind, if_pos hj, check_bind, if_pos f.args.zc, if_neg (by decide), if_neg (by decide), if_neg (by omega),
      getItem_none (pyIndex_none (.inl (by omega)))]
    rfl
  · unfold OverwinterTx.sighash zcashGate OverwinterTx.hashOutputs
    rw [check_bind, if_pos hj, check_bind, if_pos f.args.zc, if_neg (by decide), if_neg (by decide), if_pos e]
    rfl
  · unfold OverwinterTx.sighash zcashGate
    have e1 : t.hashOutputs E 1 index = .ok (zHashOutputs E.H.blake2b t.zsig 0 1) :=
      OverwinterTx.hashOutputs_eq (single := false) (T := 1) f (fun e => by cases e) rfl
    have e2 : ∃ b, i2lePadded ((if acp then 1 ||| SIGHASH_ANYONECANPAY else 1 : Nat) : Int) 4 = .ok b := by
      cases acp
      · exact ⟨_, i2lePadded4 (by decide)⟩
      · exact ⟨_, i2lePadded4 (by decide)⟩
    obtain ⟨b, e2⟩ := e2
    unfold OverwinterTx.inputPart
    rw [check_bind, if_pos (by simp), check_bind, if_pos f.args.zc, e1, ok_bind, OverwinterTx.hashJoinsplits_eq f, ok_bind, e2, ok_bind,
      if_pos (by simp), getItem_none (pyIndex_none e)]
    rfl

/-- The preimage for a transparent input. -/
def overwinterPreimage (E : Env) (t : OverwinterTx) (i : Nat) (x : TxIn) (script value : Bytes) (type : Nat) : Bytes :=
  zip143 E.H.blake2b t.zsig i (some ⟨x.outpoint.txId ++ x.outpoint.index, script, value, x.sequence⟩) type

theorem overwinter_widths {E : Env} {t : OverwinterTx} (f : t.Facts E) {x : TxIn} (hx : x.Built) {script value : Bytes} (hv : value.length = 8) {T : Nat}
    (hT : T < 2 ^ 32) : ZWidths t.zsig (some ⟨x.outpoint.txId ++ x.outpoint.index, script, value, x.sequence⟩) T := by
  refine ⟨rfl, rfl, f.args.lt4, f.args.ex4, ?_, hT⟩
  intro y hy
  cases hy
  exact ⟨hx.eq.1.len36, hv, hx.eq.2.1⟩

theorem overwinter_widths_none {E : Env} {t : OverwinterTx} (f : t.Facts E) {T : Nat} (hT : T < 2 ^ 32) : ZWidths t.zsig none T :=
  ⟨rfl, rfl, f.args.lt4, f.args.ex4, fun y hy => by (cases hy), hT⟩

/-- C61 is false for Overwinter: the wrappers called with `anyone_can_pay` hash the preimage of the plain type, which is never the one that
`sighash` hashes with `anyone_can_pay`. -/
theorem C61_overwinter_false (E : Env) (hH : E.H.LengthOK) (t : OverwinterTx) (h : t.Built E) (i : Nat) (hl : i < t.txIns.length) (single : Bool)
    (hs : single = true → i < t.txOuts.length) (script value : Bytes) (hv : value.length = 8) :
    ∃ p p', p ≠ p' ∧
      (if single then t.sighashSingle E value script i false true else t.sighashAll E value script i false true) = .ok (E.H.blake2b (persSigHash 0x5ba81b19) p) ∧
      t.sighash E (if single then 3 else 1) value script i false true = .ok (E.H.blake2b (persSigHash 0x5ba81b19) p') := by
  have f := h.facts
  have b1 := f.ins _ (List.getElem_mem hl)
  refine ⟨overwinterPreimage E t i t.txIns[i] script value (if single then 3 else 1),
    overwinterPreimage E t i t.txIns[i] script value ((if single then 3 else 1) + 128), ?_, ?_, ?_⟩
  · intro e
    have := (zip143_inj (fun p b => hH.blake2b p b) (overwinter_widths f b1 hv (by cases single <;> decide))
      (overwinter_widths f b1 hv (by cases single <;> decide)) e).type
    omega
  · have e := C60_overwinter E t h i i (.inl rfl) hl single false (fun e => ⟨rfl, hs e⟩) script value
    cases single
    · exact e
    · exact e
  · exact C60_overwinter E t h i i (.inl rfl) hl single true (fun e => ⟨rfl, hs e⟩) script value

/-- C61 without `anyone_can_pay`: the wrappers return the ZIP143 digests of ALL and SINGLE, for a transparent input and for joinsplits. -/
theorem C61_overwinter_partial (E : Env) (t : OverwinterTx) (h : t.Built E) (i : Nat) (script value : Bytes) :
    (∀ hl : i < t.txIns.length, t.sighashAll E value script i false = .ok (sighash143 E.H.blake2b t.zsig i
      (some ⟨t.txIns[i].outpoint.txId ++ t.txIns[i].outpoint.index, script, value, t.txIns[i].sequence⟩) 1)) ∧
    (∀ hl : i < t.txIns.length, i < t.txOuts.length → t.sighashSingle E value script i false = .ok (sighash143 E.H.blake2b t.zsig i
      (some ⟨t.txIns[i].outpoint.txId ++ t.txIns[i].outpoint.index, script, value, t.txIns[i].sequence⟩) 3)) ∧
    t.sighashAll E value script i true = .ok (sighash143 E.H.blake2b t.zsig i none 1) ∧
    (i < t.txOuts.length → t.sighashSingle E value script i true = .ok (sighash143 E.H.blake2b t.zsig i none 3)) := by
  refine ⟨fun hl => ?_, fun hl ho => ?_, ?_, fun ho => ?_⟩
  · exact C60_overwinter E t h i i (.inl rfl) hl false false (fun e => by cases e) script value
  · exact C60_overwinter E t h i i (.inl rfl) hl true false (fun _ => ⟨rfl, ho⟩) script value
  · exact (C60_overwinter_joinsplit E t h i false (fun e => by cases e) script value).1
  · exact (C60_overwinter_joinsplit E t h i true (fun _ => ho) script value).1

/-- C61, arguments left out: without an index the first input is signed, and without `joinsplit` it is an input that is signed, with every
type and both ways of asking. -/
theorem C61_overwinter_defaults (E : Env) (t : OverwinterTx) (h : t.Built E) (hl : 0 < t.txIns.length) (ho : 0 < t.txOuts.length) (script value : Bytes) :
    let input : ZInput := ⟨t.txIns[0].outpoint.txId ++ t.txIns[0].outpoint.index, script, value, t.txIns[0].sequence⟩
    t.sighashAll E value script = .ok (sighash143 E.H.blake2b t.zsig 0 (some input) 1) ∧
    t.sighashSingle E value script = .ok (sighash143 E.H.blake2b t.zsig 0 (some input) 3) ∧
    t.sighash E 1 value script = .ok (sighash143 E.H.blake2b t.zsig 0 (some input) 1) ∧
    t.sighash E 3 value script = .ok (sighash143 E.H.blake2b t.zsig 0 (some input) 3) := by
  have p := C61_overwinter_partial E t h 0 script value
  exact ⟨p.1 hl, p.2.1 hl ho, p.1 hl, p.2.1 hl ho⟩

/-- What the code hashes for NONE: the sequences are always there. -/
theorem overwinter_none {E : Env} {t : OverwinterTx} (f : t.Facts E) {i : Nat} (hl : i < t.txIns.length) (acp : Bool) (script value : Bytes) :
    t.sighash E 2 value script i false acp = .ok (E.H.blake2b (persSigHash 0x5ba81b19)
      (t.zsig.header ++ t.zsig.groupId ++ zHashPrevouts E.H.blake2b t.zsig (if acp then 0x82 else 2)
        ++ (if acp then zeros32 else E.H.blake2b persSequence (t.zsig.ins.map (·.2)).flatten) ++ zeros32
        ++ zHashJoinsplits E.H.blake2b t.zsig ++ t.zsig.lockTime ++ t.zsig.expiry ++ leBytes 4 (if acp then 0x82 else 2)
        ++ zInputPart (some ⟨t.txIns[i].outpoint.txId ++ t.txIns[i].outpoint.index, script, value, t.txIns[i].sequence⟩))) := by
  have hb : acpBit (if acp then 0x82 else 2) = acp := by cases acp <;> rfl
  have hT : (if acp then 2 ||| SIGHASH_ANYONECANPAY else 2) = (if acp then 0x82 else 2 : Nat) := by cases acp <;> rfl
  have ho : t.hashOutputs E 2 i = .ok zeros32 := rfl
  have hq : t.hashSequence E 2 acp = (if acp then zeros32 else E.H.blake2b persSequence (t.zsig.ins.map (·.2)).flatten) := by
    unfold OverwinterTx.hashSequence
    cases acp
    · rw [if_neg (by decide), ins_sequence_bytes, ascii_sequence]; rfl
    · rw [if_pos (by decide)]; rfl
  unfold OverwinterTx.sighash OverwinterTx.inputPart zcashGate
  rw [check_bind, if_pos (by simp), check_bind, if_pos f.args.zc, ho, ok_bind,
    OverwinterTx.hashJoinsplits_eq f, ok_bind, hT, i2lePadded4 (by cases acp <;> decide), ok_bind, if_pos (by simp), getItem_ok (pyIndex_nat hl), ok_bind, ok_bind,
    OverwinterTx.hashPrevouts_eq f hb, hq, ascii_sig_overwinter, 
    (f.ins _ (List.getElem_mem hl)).eq.1.eq.2.2]
  have hh : t.header = t.zsig.header := congrArg OverwinterTx.header f.obj
  have hg : t.groupId = t.zsig.groupId := congrArg OverwinterTx.groupId f.obj
  rw [hh, hg]
  rfl

/-- C76 for Overwinter with ANYONECANPAY: the NONE digest is the ZIP143 one. -/
theorem C76_overwinter_partial (E : Env) (t : OverwinterTx) (h : t.Built E) (i : Nat) (hl : i < t.txIns.length) (script value : Bytes) :
    t.sighash E 2 value script i false true = .ok (E.H.blake2b (persSigHash 0x5ba81b19) (overwinterPreimage E t i t.txIns[i] script value 0x82)) := by
  rw [overwinter_none h.facts hl true script value]
  rfl

/-- C76 is false for Overwinter without ANYONECANPAY: the digest is that of another preimage than the ZIP143 one, unless the sequences
hash to zero. -/
theorem C76_overwinter_false (E : Env) (hH : E.H.LengthOK) (t : OverwinterTx) (h : t.Built E) (i : Nat) (hl : i < t.txIns.length) (script value : Bytes)
    (hz : E.H.blake2b persSequence (t.txIns.map (·.sequence)).flatten ≠ zeros32) :
    ∃ p, p ≠ overwinterPreimage E t i t.txIns[i] script value 2 ∧
      t.sighash E 2 value script i false false = .ok (E.H.blake2b (persSigHash 0x5ba81b19) p) := by
  refine ⟨_, ?_, overwinter_none h.facts hl false script value⟩
  intro e
  unfold overwinterPreimage zip143 at e
  simp only [List.append_assoc, Bool.false_eq_true, if_false] at e
  have e := List.append_cancel_left e
  have e := List.append_cancel_left e
  have e := List.append_cancel_left e
  obtain ⟨e, -⟩ := List.append_inj e (by rw [hH.blake2b]; rfl)
  apply hz
  have hq : zHashSequence E.H.blake2b t.zsig 2 = zeros32 := rfl
  rw [hq] at e
  simpa only [OverwinterTx.zsig, List.map_map, Function.comp_def] using e

/-- What an Overwinter signature of the given type commits to, besides the signed input: everything but signatures and input scripts. -/
structure OverwinterSame (single acp : Bool) (t : OverwinterTx) (i : Nat) (t' : OverwinterTx) (i' : Nat) : Prop where
  lockTime : t.lockTime = t'.lockTime
  expiry : t.expiryHeight = t'.expiryHeight
  joinsplits : t.txJoinsplits = t'.txJoinsplits
  pubkey : t.joinsplitPubkey = t'.joinsplitPubkey
  /-- all inputs, unless ANYONECANPAY -/
  outpoints : acp = false → t.txIns.map (·.outpoint) = t'.txIns.map (·.outpoint)
  sequences : acp = false → single = false → t.txIns.map (·.sequence) = t'.txIns.map (·.sequence)
  /-- the outputs, or with SINGLE the one at the index -/
  outs : single = false → t.txOuts = t'.txOuts
  out : single = true → ∃ o, t.txOuts[i]? = some o ∧ t'.txOuts[i']? = some o

theorem overwinter_same_zip {E : Env} {single acp : Bool} {t t' : OverwinterTx} {i i' : Nat} (same : OverwinterSame single acp t i t' i') (inp : Option ZInput) :
    zip143 E.H.blake2b t.zsig i inp (sigType single acp) = zip143 E.H.blake2b t'.zsig i' inp (sigType single acp) := by
  obtain ⟨f1, f2, f3, -⟩ := sigType_facts single acp
  have p1 : zHashPrevouts E.H.blake2b t.zsig (sigType single acp) = zHashPrevouts E.H.blake2b t'.zsig (sigType single acp) := by
    unfold zHashPrevouts
    rw [f1]
    cases acp
    · have := congrArg (List.map fun (o : Outpoint) => o.txId ++ o.index) (same.outpoints rfl)
      simp only [List.map_map, Function.comp_def] at this
      simp only [OverwinterTx.zsig, List.map_map, Function.comp_def, this]
    · rfl
  have p2 : zHashSequence E.H.blake2b t.zsig (sigType single acp) = zHashSequence E.H.blake2b t'.zsig (sigType single acp) := by
    unfold zHashSequence
    rw [f1, f2]
    cases acp
    · cases single
      · simp only [OverwinterTx.zsig, List.map_map, Function.comp_def, same.sequences rfl rfl]
      · rfl
    · rfl
  have p3 : zHashOutputs E.H.blake2b t.zsig i (sigType single acp) = zHashOutputs E.H.blake2b t'.zsig i' (sigType single acp) := by
    unfold zHashOutputs
    rw [f2]
    cases single
    · simp only [OverwinterTx.zsig, same.outs rfl]; rfl
    · obtain ⟨o, h1, h2⟩ := same.out rfl
      simp only [OverwinterTx.zsig, List.getElem?_map, h1, h2]; rfl
  have p4 : zHashJoinsplits E.H.blake2b t.zsig = zHashJoinsplits E.H.blake2b t'.zsig := by
    have e1 : t.zsig.js = t'.zsig.js := congrArg (List.map _) same.joinsplits
    have e2 : t.zsig.jsPubkey = t'.zsig.jsPubkey := congrArg (Option.getD · []) same.pubkey
    unfold zHashJoinsplits
    rw [e1, e2]
  unfold zip143
  rw [p1, p2, p3, p4, show t.zsig.lockTime = t'.zsig.lockTime from same.lockTime, show t.zsig.expiry = t'.zsig.expiry from same.expiry]
  rfl

/-- C77 for Overwinter: a digest depends on nothing but what its type commits to. -/
theorem C77_overwinter_depends (E : Env) (single acp : Bool) (t t' : OverwinterTx) (h : t.Built E) (h' : t'.Built E) (i i' : Nat)
    (same : OverwinterSame single acp t i t' i') (script value : Bytes) :
    (∀ x x', t.txIns[i]? = some x → t'.txIns[i']? = some x' → x.outpoint = x'.outpoint → x.sequence = x'.sequence →
      t.sighash E (if single then 3 else 1) value script i false acp = t'.sighash E (if single then 3 else 1) value script i' false acp) ∧
    (acp = false → t.sighash E (if single then 3 else 1) value script i true acp = t'.sighash E (if single then 3 else 1) value script i' true acp) := by
  have o1 : single = true → i < t.txOuts.length := fun e => by
    obtain ⟨o, h1, _⟩ := same.out e
    exact (List.getElem?_eq_some_iff.1 h1).1
  have o2 : single = true → i' < t'.txOuts.length := fun e => by
    obtain ⟨o, _, h1⟩ := same.out e
    exact (List.getElem?_eq_some_iff.1 h1).1
  constructor
  · intro x x' hx hx' e1 e2
    obtain ⟨hl, rfl⟩ := List.getElem?_eq_some_iff.1 hx
    obtain ⟨hl', rfl⟩ := List.getElem?_eq_some_iff.1 hx'
    rw [C60_overwinter E t h i i (.inl rfl) hl single acp (fun e => ⟨rfl, o1 e⟩), C60_overwinter E t' h' i' i' (.inl rfl) hl' single acp (fun e => ⟨rfl, o2 e⟩),
      e1, e2]
    unfold sighash143
    have := overwinter_same_zip (E := E) same (some ⟨t'.txIns[i'].outpoint.txId ++ t'.txIns[i'].outpoint.index, script, value, t'.txIns[i'].sequence⟩)
    unfold sigType at this
    rw [this]
  · rintro rfl
    rw [(C60_overwinter_joinsplit E t h i single o1 script value).1, (C60_overwinter_joinsplit E t' h' i' single o2 script value).1]
    unfold sighash143
    have := overwinter_same_zip (E := E) same none
    unfold sigType at this
    simp only [Bool.false_eq_true, if_false, Nat.add_zero] at this
    rw [this]

theorem overwinter_core {E : Env} (hH : E.H.LengthOK) {single acp single' acp' : Bool} {t t' : OverwinterTx} (f : t.Facts E) (f' : t'.Facts E) {i i' : Nat}
    {inp inp' : Option ZInput} (w : ZWidths t.zsig inp (sigType single acp)) (w' : ZWidths t'.zsig inp' (sigType single' acp'))
    (ho : single = true → i < t.txOuts.length) (ho' : single' = true → i' < t'.txOuts.length)
    (nb : ¬ BlakeBreak E.H.blake2b ((persSigHash 0x5ba81b19, zip143 E.H.blake2b t.zsig i inp (sigType single acp),
      zip143 E.H.blake2b t'.zsig i' inp' (sigType single' acp')) :: zPairs t.zsig i t'.zsig i'))
    (e : sighash143 E.H.blake2b t.zsig i inp (sigType single acp) = sighash143 E.H.blake2b t'.zsig i' inp' (sigType single' acp')) :
    single = single' ∧ acp = acp' ∧ OverwinterSame single acp t i t' i' ∧ inp = inp' := by
  have c := (BlakeBreak.not nb (.head _)).1 e
  have hl : zPairs t.zsig i t'.zsig i' ⊆ ((persSigHash 0x5ba81b19, zip143 E.H.blake2b t.zsig i inp (sigType single acp),
      zip143 E.H.blake2b t'.zsig i' inp' (sigType single' acp')) :: zPairs t.zsig i t'.zsig i') := List.subset_cons_self _ _
  have r := zip143_inj (fun p b => hH.blake2b p b) w w' c
  have ht : single = single' ∧ acp = acp' := by
    have := r.type
    revert this
    cases single <;> cases single' <;> cases acp <;> cases acp' <;> decide
  obtain ⟨rfl, rfl⟩ := ht
  obtain ⟨f1, f2, f3, -⟩ := sigType_facts single acp
  have hjs : t.txJoinsplits = t'.txJoinsplits ∧ t.joinsplitPubkey = t'.joinsplitPubkey := by
    have o1 := congrArg OverwinterTx.joinsplitPubkey f.obj
    have o1' := congrArg OverwinterTx.joinsplitPubkey f'.obj
    simp only [overObj] at o1 o1'
    rcases zJoinsplits_break hl nb r.joinsplits with ⟨c1, c2⟩ | ⟨c1, c2, c3⟩
    · have c1 : t.txJoinsplits = [] := List.map_eq_nil_iff.1 c1
      have c2 : t'.txJoinsplits = [] := List.map_eq_nil_iff.1 c2
      rw [if_neg (by simpa using c1)] at o1
      rw [if_neg (by simpa using c2)] at o1'
      exact ⟨by rw [c1, c2], by rw [o1, o1']⟩
    · have c1 : t.txJoinsplits ≠ [] := fun e => c1 (List.map_eq_nil_iff.2 e)
      have c2 : t'.txJoinsplits ≠ [] := fun e => c2 (List.map_eq_nil_iff.2 e)
      obtain ⟨⟨p, ep, hp⟩, -⟩ := f.args.keys c1
      obtain ⟨⟨p', ep', hp'⟩, -⟩ := f'.args.keys c2
      simp only [OverwinterTx.zsig, ep, ep', Option.getD_some] at c3
      obtain ⟨e1, e2⟩ := flat_tail_inj (n := 1802) (by decide) (mem_map_len fun j hj => (f.js j hj).length)
        (mem_map_len fun j hj => (f'.js j hj).length) (by rw [hp, hp']) c3
      exact ⟨js_bytes_inj f.js f'.js e1, by rw [ep, ep', e2]⟩
  refine ⟨rfl, rfl, ⟨r.lockTime, r.expiry, hjs.1, hjs.2, ?_, ?_, ?_, ?_⟩, r.inp⟩
  · rintro rfl
    exact ins_fst f.ins f'.ins (zPrevouts_break hl nb f1 r.prevouts)
  · rintro rfl rfl
    exact ins_snd f.ins f'.ins (zSequence_break hl nb f1 f2 r.sequence)
  · rintro rfl
    exact outs_flat f.outs f'.outs (zOutputs_break hl nb f2 r.outputs)
  · rintro rfl
    have l1 := ho rfl
    have l2 := ho' rfl
    have q1 : t.zsig.outs[i]? = some t.txOuts[i].bytes := by
      simp only [OverwinterTx.zsig]; rw [← outs_wire f.outs]; simp [l1]
    have q2 : t'.zsig.outs[i']? = some t'.txOuts[i'].bytes := by
      simp only [OverwinterTx.zsig]; rw [← outs_wire f'.outs]; simp [l2]
    have ee := zOutput_break hl nb f2 q1 q2 r.outputs
    have := ((f.outs _ (List.getElem_mem l1)).inj (f'.outs _ (List.getElem_mem l2)) (r := []) (s := []) (by rw [ee])).1
    exact ⟨_, List.getElem?_eq_getElem l1, by rw [this]; exact List.getElem?_eq_getElem l2⟩

/-- C77 for Overwinter, transparent inputs: equal digests mean equal type, committed parts, signed input, script code and value, or one of eight
explicit pairs of messages is a BLAKE2b collision or contains a preimage of zero. -/
theorem C77_overwinter_binds (E : Env) (hH : E.H.LengthOK) (single acp single' acp' : Bool) (t t' : OverwinterTx) (h : t.Built E) (h' : t'.Built E) (i i' : Nat)
    (x x' : TxIn) (hx : t.txIns[i]? = some x) (hx' : t'.txIns[i']? = some x') (ho : single = true → i < t.txOuts.length)
    (ho' : single' = true → i' < t'.txOuts.length) (script script' value value' : Bytes) (hv : value.length = 8) (hv' : value'.length = 8)
    (e : t.sighash E (if single then 3 else 1) value script i false acp = t'.sighash E (if single' then 3 else 1) value' script' i' false acp') :
    (single = single' ∧ acp = acp' ∧ OverwinterSame single acp t i t' i' ∧ x.outpoint = x'.outpoint ∧ x.sequence = x'.sequence ∧
      script = script' ∧ value = value') ∨
    BlakeBreak E.H.blake2b ((persSigHash 0x5ba81b19, overwinterPreimage E t i x script value ((if single then 3 else 1) + if acp then 128 else 0),
      overwinterPreimage E t' i' x' script' value' ((if single' then 3 else 1) + if acp' then 128 else 0)) :: zPairs t.zsig i t'.zsig i') := by
  obtain ⟨hl, rfl⟩ := List.getElem?_eq_some_iff.1 hx
  obtain ⟨hl', rfl⟩ := List.getElem?_eq_some_iff.1 hx'
  rw [C60_overwinter E t h i i (.inl rfl) hl single acp (fun e => ⟨rfl, ho e⟩), C60_overwinter E t' h' i' i' (.inl rfl) hl' single' acp' (fun e => ⟨rfl, ho' e⟩)] at e
  have f := h.facts
  have f' := h'.facts
  have b := f.ins _ (List.getElem_mem hl)
  have b' := f'.ins _ (List.getElem_mem hl')
  by_cases nb : BlakeBreak E.H.blake2b ((persSigHash 0x5ba81b19, overwinterPreimage E t i t.txIns[i] script value ((if single then 3 else 1) + if acp then 128 else 0),
      overwinterPreimage E t' i' t'.txIns[i'] script' value' ((if single' then 3 else 1) + if acp' then 128 else 0)) :: zPairs t.zsig i t'.zsig i')
  · exact .inr nb
  · left
    obtain ⟨r1, r2, r3, r4⟩ := overwinter_core hH f f' (overwinter_widths f b hv (sigType_facts single acp).2.2.1)
      (overwinter_widths f' b' hv' (sigType_facts single' acp').2.2.1) ho ho' nb (Except.ok.inj e)
    simp only [Option.some.injEq, ZInput.mk.injEq] at r4
    exact ⟨r1, r2, r3, b.eq.1.inj b'.eq.1 r4.1, r4.2.2.2, r4.2.1, r4.2.2.1⟩

/-- C77 for Overwinter, signing joinsplits: as above; and such a digest is never that of a transparent input. -/
theorem C77_overwinter_binds_joinsplit (E : Env) (hH : E.H.LengthOK) (single single' acp' : Bool) (t t' : OverwinterTx) (h : t.Built E) (h' : t'.Built E)
    (i i' : Nat) (ho : single = true → i < t.txOuts.length) (ho' : single' = true → i' < t'.txOuts.length)
    (script script' value value' : Bytes) :
    (t.sighash E (if single then 3 else 1) value script i true false = t'.sighash E (if single' then 3 else 1) value' script' i' true false →
      (single = single' ∧ OverwinterSame single false t i t' i') ∨
      BlakeBreak E.H.blake2b ((persSigHash 0x5ba81b19, zip143 E.H.blake2b t.zsig i none (if single then 3 else 1),
        zip143 E.H.blake2b t'.zsig i' none (if single' then 3 else 1)) :: zPairs t.zsig i t'.zsig i')) ∧
    (∀ x', t'.txIns[i']? = some x' → value'.length = 8 →
      t.sighash E (if single then 3 else 1) value script i true false = t'.sighash E (if single' then 3 else 1) value' script' i' false acp' →
      BlakeBreak E.H.blake2b ((persSigHash 0x5ba81b19, zip143 E.H.blake2b t.zsig i none (if single then 3 else 1),
        overwinterPreimage E t' i' x' script' value' ((if single' then 3 else 1) + if acp' then 128 else 0)) :: zPairs t.zsig i t'.zsig i')) := by
  have f := h.facts
  have f' := h'.facts
  have hT : ∀ s : Bool, (if s then 3 else 1 : Nat) = sigType s false := by intro s; cases s <;> rfl
  rw [(C60_overwinter_joinsplit E t h i single ho script value).1]
  constructor
  · rw [(C60_overwinter_joinsplit E t' h' i' single' ho' script' value').1, hT, hT]
    intro e
    rw [Classical.or_iff_not_imp_right]
    intro nb
    obtain ⟨r1, r2, r3, r4⟩ := overwinter_core hH f f' (overwinter_widths_none f (sigType_facts single false).2.2.1)
      (overwinter_widths_none f' (sigType_facts single' false).2.2.1) ho ho' nb (Except.ok.inj e)
    exact ⟨r1, r3⟩
  · intro x' hx' hv' e
    obtain ⟨hl', rfl⟩ := List.getElem?_eq_some_iff.1 hx'
    rw [C60_overwinter E t' h' i' i' (.inl rfl) hl' single' acp' (fun e => ⟨rfl, ho' e⟩)] at e
    rw [hT single] at e ⊢
    apply Classical.byContradiction
    intro nb
    obtain ⟨r1, r2, r3, r4⟩ := overwinter_core hH f f' (overwinter_widths_none f (sigType_facts single false).2.2.1)
      (overwinter_widths f' (f'.ins _ (List.getElem_mem hl')) hv' (sigType_facts single' acp').2.2.1) ho ho' nb (Except.ok.inj e)
    cases r4

example : (exOver 2).Built overEnv ∧ overEnv.H.LengthOK ∧ (exOver 2).txIns[0]? = some exIn ∧ (exOver 2).txOuts.length = 2 ∧ (exOver 2).txJoinsplits ≠ [] :=
  ⟨exOver_built (by omega), toyHashes_ok, rfl, rfl, List.cons_ne_nil _ _⟩

/-- The toy hash does not give zero on the sequences. -/
example : overEnv.H.blake2b persSequence ((exOver 2).txIns.map (·.sequence)).flatten ≠ zeros32 := by decide

/-! ### Sapling -/

/-- C60 for Sapling, transparent input `i` (given as `i` or counted from the end): the ZIP243 digest, ALL or SINGLE, with or without
ANYONECANPAY. For SINGLE the input must have its output. -/
theorem C60_sapling (E : Env) (t : SaplingTx) (h : t.Built E) (index : Int) (i : Nat) (hi : index = i ∨ index = (i : Int) - t.txIns.length)
    (hl : i < t.txIns.length) (single acp : Bool) (hs : single = true → index = i ∧ i < t.txOuts.length) (script value : Bytes) :
    t.sighash E (if single then 3 else 1) value index false (some script) acp =
      .ok (sighash243 E.H.blake2b t.zsig i (some ⟨t.txIns[i].outpoint.txId ++ t.txIns[i].outpoint.index, script, value, t.txIns[i].sequence⟩)
        ((if single then 3 else 1) + (if acp then 128 else 0))) :=
  SaplingTx.sighash_eq h.facts (index_py hi hl) single acp hs script value

/-- C60 for Sapling, signing joinsplits or shielded parts: the ZIP243 digest without an input; never with ANYONECANPAY. -/
theorem C60_sapling_joinsplit (E : Env) (t : SaplingTx) (h : t.Built E) (i : Nat) (single : Bool)
    (hs : single = true → i < t.txOuts.length) (script value : Bytes) :
    t.sighash E (if single then 3 else 1) value i true (some script) false =
      .ok (sighash243 E.H.blake2b t.zsig i none (if single then 3 else 1)) ∧
    t.sighash E (if single then 3 else 1) value i true (some script) true = .error .valueError := by
  refine ⟨(SaplingTx.sighash_js h.facts single (fun e => ⟨rfl, hs e⟩) (some script) value).trans ?_, rfl⟩
  cases single <;> rfl

/-- C50 for Sapling: SINGLE without an output, and input indices out of range. -/
theorem C50_sapling (E : Env) (t : SaplingTx) (h : t.Built E) (index : Int) (script value : Bytes) (js acp : Bool) (hj : ¬ (js = true ∧ acp = true)) :
    (index = t.txOuts.length → t.sighash E 3 value index js (some script) acp = .error .indexError) ∧
    (index > t.txOuts.length → t.sighash E 3 value index js (some script) acp = .error .notImplementedError) ∧
    (index ≥ t.txIns.length ∨ index < -(t.txIns.length : Int) → t.sighash E 1 value index false (some script) acp = .error .indexError) := by
  have f := h.facts
  refine ⟨fun e => ?_, fun e => ?_, fun e => ?_⟩
  · unfold SaplingTx.sighash zcashGate SaplingTx.hashOutputs
    rw [check_bind, if_pos hj, check_bind, if_pos f.args.zc, if_neg (by decide), if_neg (by decide), if_neg (by omega),
      getItem_none (pyIndex_none (.inl (by omega)))]
    rfl
  · unfold SaplingTx.sighash zcashGate SaplingTx.hashOutputs
    rw [check_bind, if_pos hj, check_bind, if_pos f.args.zc, if_neg (by decide), if_neg (by decide), if_pos e]
    rfl
  · unfold SaplingTx.sighash zcashGate
    have e1 : t.hashOutputs E 1 index = .ok (zHashOutputs E.H.blake2b t.zsig 0 1) :=
      SaplingTx.hashOutputs_eq (single := false) (T := 1) f (fun e => by cases e) rfl
    have e2 : ∃ b, i2lePadded ((if acp then 1 ||| SIGHASH_ANYONECANPAY else 1 : Nat) : Int) 4 = .ok b := by
      cases acp
      · exact ⟨_, i2lePadded4 (by decide)⟩
      · exact ⟨_, i2lePadded4 (by decide)⟩
    obtain ⟨b, e2⟩ := e2
    unfold SaplingTx.inputPart
    rw [check_bind, if_pos (by simp), check_bind, if_pos f.args.zc, e1, ok_bind, SaplingTx.hashJoinsplits_eq f, ok_bind, e2, ok_bind,
      if_pos (by simp), getItem_none (pyIndex_none e)]
    rfl

/-- The preimage for a transparent input. -/
def saplingPreimage (E : Env) (t : SaplingTx) (i : Nat) (x : TxIn) (script value : Bytes) (type : Nat) : Bytes :=
  zip243 E.H.blake2b t.zsig i (some ⟨x.outpoint.txId ++ x.outpoint.index, script, value, x.sequence⟩) type

theorem sapling_widths {E : Env} {t : SaplingTx} (f : t.Facts E) {x : TxIn} (hx : x.Built) {script value : Bytes} (hv : value.length = 8) {T : Nat}
    (hT : T < 2 ^ 32) : ZWidths t.zsig (some ⟨x.outpoint.txId ++ x.outpoint.index, script, value, x.sequence⟩) T := by
  refine ⟨rfl, rfl, f.args.lt4, f.args.ex4, ?_, hT⟩
  intro y hy
  cases hy
  exact ⟨hx.eq.1.len36, hv, hx.eq.2.1⟩

theorem sapling_widths_none {E : Env} {t : SaplingTx} (f : t.Facts E) {T : Nat} (hT : T < 2 ^ 32) : ZWidths t.zsig none T :=
  ⟨rfl, rfl, f.args.lt4, f.args.ex4, fun y hy => by (cases hy), hT⟩

/-- C61 is false for Sapling: the wrappers called with `anyone_can_pay` hash the preimage of the plain type, which is never the one that
`sighash` hashes with `anyone_can_pay`. -/
theorem C61_sapling_false (E : Env) (hH : E.H.LengthOK) (t : SaplingTx) (h : t.Built E) (i : Nat) (hl : i < t.txIns.length) (single : Bool)
    (hs : single = true → i < t.txOuts.length) (script value : Bytes) (hv : value.length = 8) :
    ∃ p p', p ≠ p' ∧
      (if single then t.sighashSingle E value i false (some script) true else t.sighashAll E value i false (some script) true) = .ok (E.H.blake2b (persSigHash 0x76b809bb) p) ∧
      t.sighash E (if single then 3 else 1) value i false (some script) true = .ok (E.H.blake2b (persSigHash 0x76b809bb) p') := by
  have f := h.facts
  have b1 := f.ins _ (List.getElem_mem hl)
  refine ⟨saplingPreimage E t i t.txIns[i] script value (if single then 3 else 1),
    saplingPreimage E t i t.txIns[i] script value ((if single then 3 else 1) + 128), ?_, ?_, ?_⟩
  · intro e
    have := (zip243_inj (fun p b => hH.blake2b p b) (sapling_widths f b1 hv (by cases single <;> decide))
      (sapling_widths f b1 hv (by cases single <;> decide)) f.args.vb8 f.args.vb8 e).1.type
    omega
  · have e := C60_sapling E t h i i (.inl rfl) hl single false (fun e => ⟨rfl, hs e⟩) script value
    cases single
    · exact e
    · exact e
  · exact C60_sapling E t h i i (.inl rfl) hl single true (fun e => ⟨rfl, hs e⟩) script value

/-- C61 without `anyone_can_pay`: the wrappers return the ZIP243 digests of ALL and SINGLE, for a transparent input and for joinsplits or shielded parts. -/
theorem C61_sapling_partial (E : Env) (t : SaplingTx) (h : t.Built E) (i : Nat) (script value : Bytes) :
    (∀ hl : i < t.txIns.length, t.sighashAll E value i false (some script) = .ok (sighash243 E.H.blake2b t.zsig i
      (some ⟨t.txIns[i].outpoint.txId ++ t.txIns[i].outpoint.index, script, value, t.txIns[i].sequence⟩) 1)) ∧
    (∀ hl : i < t.txIns.length, i < t.txOuts.length → t.sighashSingle E value i false (some script) = .ok (sighash243 E.H.blake2b t.zsig i
      (some ⟨t.txIns[i].outpoint.txId ++ t.txIns[i].outpoint.index, script, value, t.txIns[i].sequence⟩) 3)) ∧
    t.sighashAll E value i true (some script) = .ok (sighash243 E.H.blake2b t.zsig i none 1) ∧
    (i < t.txOuts.length → t.sighashSingle E value i true (some script) = .ok (sighash243 E.H.blake2b t.zsig i none 3)) := by
  refine ⟨fun hl => ?_, fun hl ho => ?_, ?_, fun ho => ?_⟩
  · exact C60_sapling E t h i i (.inl rfl) hl false false (fun e => by cases e) script value
  · exact C60_sapling E t h i i (.inl rfl) hl true false (fun _ => ⟨rfl, ho⟩) script value
  · exact (C60_sapling_joinsplit E t h i false (fun e => by cases e) script value).1
  · exact (C60_sapling_joinsplit E t h i true (fun _ => ho) script value).1

/-- C61, arguments left out: without an index the first input is signed; without a script code `sighash` raises TypeError for an input,
and signs joinsplits and shielded parts as with one. -/
theorem C61_sapling_defaults (E : Env) (t : SaplingTx) (h : t.Built E) (hl : 0 < t.txIns.length) (ho : 0 < t.txOuts.length) (script value : Bytes) :
    let input : ZInput := ⟨t.txIns[0].outpoint.txId ++ t.txIns[0].outpoint.index, script, value, t.txIns[0].sequence⟩
    (t.sighashAll E value (scriptCode := some script) = .ok (sighash243 E.H.blake2b t.zsig 0 (some input) 1) ∧
    t.sighashSingle E value (scriptCode := some script) = .ok (sighash243 E.H.blake2b t.zsig 0 (some input) 3) ∧
    t.sighash E 1 value (scriptCode := some script) = .ok (sighash243 E.H.blake2b t.zsig 0 (some input) 1) ∧
    t.sighash E 3 value (scriptCode := some script) = .ok (sighash243 E.H.blake2b t.zsig 0 (some input) 3)) ∧
    (t.sighashAll E value = .error .typeError ∧ t.sighashSingle E value = .error .typeError ∧
    t.sighash E 1 value = .error .typeError ∧ t.sighash E 3 value = .error .typeError) ∧
    (t.sighashAll E value (joinsplit := true) = .ok (sighash243 E.H.blake2b t.zsig 0 none 1) ∧
    t.sighashSingle E value (joinsplit := true) = .ok (sighash243 E.H.blake2b t.zsig 0 none 3) ∧
    t.sighash E 1 value (joinsplit := true) = .ok (sighash243 E.H.blake2b t.zsig 0 none 1) ∧
    t.sighash E 3 value (joinsplit := true) = .ok (sighash243 E.H.blake2b t.zsig 0 none 3)) := by
  have p := C61_sapling_partial E t h 0 script value
  have f := h.facts
  have j : ∀ single : Bool, t.sighash E (baseConst single) value 0 true none false = .ok (sighash243 E.H.blake2b t.zsig 0 none (sigType single false)) :=
    fun single => SaplingTx.sighash_js (i := 0) f single (fun _ => ⟨rfl, ho⟩) none value
  have n : ∀ single : Bool, t.sighash E (baseConst single) value 0 false none false = .error .typeError := by
    intro single
    have e1 := SaplingTx.hashOutputs_eq (single := single) (index := 0) (i := 0) (T := sigType single false) f (fun _ => ⟨rfl, ho⟩)
      (by cases single <;> rfl)
    have e2 : ∃ b, i2lePadded ((if (false : Bool) = true then baseConst single ||| SIGHASH_ANYONECANPAY else baseConst single : Nat) : Int) 4 = .ok b := by
      cases single
      · exact ⟨_, i2lePadded4 (by decide)⟩
      · exact ⟨_, i2lePadded4 (by decide)⟩
    obtain ⟨b, e2⟩ := e2
    have e3 : pyIndex 0 t.txIns.length = some 0 := index_py (.inl rfl) hl
    unfold SaplingTx.sighash zcashGate SaplingTx.inputPart
    rw [check_bind, if_pos (by simp), check_bind, if_pos f.args.zc, e1, ok_bind, SaplingTx.hashJoinsplits_eq f, ok_bind, e2, ok_bind,
      if_pos (by simp), getItem_ok e3]
    rfl
  exact ⟨⟨p.1 hl, p.2.1 hl ho, p.1 hl, p.2.1 hl ho⟩, ⟨n false, n true, n false, n true⟩, j false, j true, j false, j true⟩

/-- What the code hashes for NONE: the sequences are always there. -/
theorem sapling_none {E : Env} {t : SaplingTx} (f : t.Facts E) {i : Nat} (hl : i < t.txIns.length) (acp : Bool) (script value : Bytes) :
    t.sighash E 2 value i false (some script) acp = .ok (E.H.blake2b (persSigHash 0x76b809bb)
      (t.zsig.header ++ t.zsig.groupId ++ zHashPrevouts E.H.blake2b t.zsig (if acp then 0x82 else 2)
        ++ (if acp then zeros32 else E.H.blake2b persSequence (t.zsig.ins.map (·.2)).flatten) ++ zeros32
        ++ zHashJoinsplits E.H.blake2b t.zsig ++ zHashSpends E.H.blake2b t.zsig ++ zHashShieldedOutputs E.H.blake2b t.zsig ++ t.zsig.lockTime ++ t.zsig.expiry ++ t.zsig.balance ++ leBytes 4 (if acp then 0x82 else 2)
        ++ zInputPart (some ⟨t.txIns[i].outpoint.txId ++ t.txIns[i].outpoint.index, script, value, t.txIns[i].sequence⟩))) := by
  have hb : acpBit (if acp then 0x82 else 2) = acp := by cases acp <;> rfl
  have hT : (if acp then 2 ||| SIGHASH_ANYONECANPAY else 2) = (if acp then 0x82 else 2 : Nat) := by cases acp <;> rfl
  have ho : t.hashOutputs E 2 i = .ok zeros32 := rfl
  have hq : t.hashSequence E 2 acp = (if acp then zeros32 else E.H.blake2b persSequence (t.zsig.ins.map (·.2)).flatten) := by
    unfold SaplingTx.hashSequence
    cases acp
    · rw [if_neg (by decide), ins_sequence_bytes, ascii_sequence]; rfl
    · rw [if_pos (by decide)]; rfl
  unfold SaplingTx.sighash SaplingTx.inputPart zcashGate
  rw [check_bind, if_pos (by simp), check_bind, if_pos f.args.zc, ho, ok_bind,
    SaplingTx.hashJoinsplits_eq f, ok_bind, hT, i2lePadded4 (by cases acp <;> decide), ok_bind, if_pos (by simp), getItem_ok (pyIndex_nat hl), ok_bind, 
    show appendOpt (some script) = .ok script from rfl, ok_bind, ok_bind,
    SaplingTx.hashPrevouts_eq f hb, hq, ascii_sig_sapling, SaplingTx.hashShieldedSpends_eq f, SaplingTx.hashShieldedOutputs_eq,
    (f.ins _ (List.getElem_mem hl)).eq.1.eq.2.2]
  have hh : t.header = t.zsig.header := congrArg SaplingTx.header f.obj
  have hg : t.groupId = t.zsig.groupId := congrArg SaplingTx.groupId f.obj
  rw [hh, hg]
  rfl

/-- C76 for Sapling with ANYONECANPAY: the NONE digest is the ZIP243 one. -/
theorem C76_sapling_partial (E : Env) (t : SaplingTx) (h : t.Built E) (i : Nat) (hl : i < t.txIns.length) (script value : Bytes) :
    t.sighash E 2 value i false (some script) true = .ok (E.H.blake2b (persSigHash 0x76b809bb) (saplingPreimage E t i t.txIns[i] script value 0x82)) := by
  rw [sapling_none h.facts hl true script value]
  rfl

/-- C76 is false for Sapling without ANYONECANPAY: the digest is that of another preimage than the ZIP243 one, unless the sequences
hash to zero. -/
theorem C76_sapling_false (E : Env) (hH : E.H.LengthOK) (t : SaplingTx) (h : t.Built E) (i : Nat) (hl : i < t.txIns.length) (script value : Bytes)
    (hz : E.H.blake2b persSequence (t.txIns.map (·.sequence)).flatten ≠ zeros32) :
    ∃ p, p ≠ saplingPreimage E t i t.txIns[i] script value 2 ∧
      t.sighash E 2 value i false (some script) false = .ok (E.H.blake2b (persSigHash 0x76b809bb) p) := by
  refine ⟨_, ?_, sapling_none h.facts hl false script value⟩
  intro e
  unfold saplingPreimage zip243 at e
  simp only [List.append_assoc, Bool.false_eq_true, if_false] at e
  have e := List.append_cancel_left e
  have e := List.append_cancel_left e
  have e := List.append_cancel_left e
  obtain ⟨e, -⟩ := List.append_inj e (by rw [hH.blake2b]; rfl)
  apply hz
  have hq : zHashSequence E.H.blake2b t.zsig 2 = zeros32 := rfl
  rw [hq] at e
  simpa only [SaplingTx.zsig, List.map_map, Function.comp_def] using e

/-- What an Sapling signature of the given type commits to, besides the signed input: everything but signatures and input scripts. -/
structure SaplingSame (single acp : Bool) (t : SaplingTx) (i : Nat) (t' : SaplingTx) (i' : Nat) : Prop where
  lockTime : t.lockTime = t'.lockTime
  expiry : t.expiryHeight = t'.expiryHeight
  joinsplits : t.txJoinsplits = t'.txJoinsplits
  pubkey : t.joinsplitPubkey = t'.joinsplitPubkey
  balance : t.valueBalance = t'.valueBalance
  /-- the shielded spends without their signatures -/
  spends : t.txShieldedSpends.map (fun s => (s.cv, s.anchor, s.nullifier, s.rk, s.zkproof)) =
    t'.txShieldedSpends.map (fun s => (s.cv, s.anchor, s.nullifier, s.rk, s.zkproof))
  shieldedOutputs : t.txShieldedOutputs = t'.txShieldedOutputs
  /-- all inputs, unless ANYONECANPAY -/
  outpoints : acp = false → t.txIns.map (·.outpoint) = t'.txIns.map (·.outpoint)
  sequences : acp = false → single = false → t.txIns.map (·.sequence) = t'.txIns.map (·.sequence)
  /-- the outputs, or with SINGLE the one at the index -/
  outs : single = false → t.txOuts = t'.txOuts
  out : single = true → ∃ o, t.txOuts[i]? = some o ∧ t'.txOuts[i']? = some o

theorem sapling_same_zip {E : Env} {single acp : Bool} {t t' : SaplingTx} {i i' : Nat} (same : SaplingSame single acp t i t' i') (inp : Option ZInput) :
    zip243 E.H.blake2b t.zsig i inp (sigType single acp) = zip243 E.H.blake2b t'.zsig i' inp (sigType single acp) := by
  obtain ⟨f1, f2, f3, -⟩ := sigType_facts single acp
  have p1 : zHashPrevouts E.H.blake2b t.zsig (sigType single acp) = zHashPrevouts E.H.blake2b t'.zsig (sigType single acp) := by
    unfold zHashPrevouts
    rw [f1]
    cases acp
    · have := congrArg (List.map fun (o : Outpoint) => o.txId ++ o.index) (same.outpoints rfl)
      simp only [List.map_map, Function.comp_def] at this
      simp only [SaplingTx.zsig, List.map_map, Function.comp_def, this]
    · rfl
  have p2 : zHashSequence E.H.blake2b t.zsig (sigType single acp) = zHashSequence E.H.blake2b t'.zsig (sigType single acp) := by
    unfold zHashSequence
    rw [f1, f2]
    cases acp
    · cases single
      · simp only [SaplingTx.zsig, List.map_map, Function.comp_def, same.sequences rfl rfl]
      · rfl
    · rfl
  have p3 : zHashOutputs E.H.blake2b t.zsig i (sigType single acp) = zHashOutputs E.H.blake2b t'.zsig i' (sigType single acp) := by
    unfold zHashOutputs
    rw [f2]
    cases single
    · simp only [SaplingTx.zsig, same.outs rfl]; rfl
    · obtain ⟨o, h1, h2⟩ := same.out rfl
      simp only [SaplingTx.zsig, List.getElem?_map, h1, h2]; rfl
  have p4 : zHashJoinsplits E.H.blake2b t.zsig = zHashJoinsplits E.H.blake2b t'.zsig := by
    have e1 : t.zsig.js = t'.zsig.js := congrArg (List.map _) same.joinsplits
    have e2 : t.zsig.jsPubkey = t'.zsig.jsPubkey := congrArg (Option.getD · []) same.pubkey
    unfold zHashJoinsplits
    rw [e1, e2]
  have p5 : zHashSpends E.H.blake2b t.zsig = zHashSpends E.H.blake2b t'.zsig := by
    have := congrArg (List.map fun (s : Bytes × Bytes × Bytes × Bytes × SaplingZkproof) => s.1 ++ s.2.1 ++ s.2.2.1 ++ s.2.2.2.1 ++ s.2.2.2.2.bytes)
      same.spends
    simp only [List.map_map, Function.comp_def] at this
    have e : t.zsig.spends = t'.zsig.spends := this
    unfold zHashSpends
    rw [e]
  have p6 : zHashShieldedOutputs E.H.blake2b t.zsig = zHashShieldedOutputs E.H.blake2b t'.zsig := by
    have e : t.zsig.outputs = t'.zsig.outputs := congrArg (List.map _) same.shieldedOutputs
    unfold zHashShieldedOutputs
    rw [e]
  unfold zip243
  rw [p1, p2, p3, p4, p5, p6, show t.zsig.balance = t'.zsig.balance from same.balance, show t.zsig.lockTime = t'.zsig.lockTime from same.lockTime, show t.zsig.expiry = t'.zsig.expiry from same.expiry]
  rfl

/-- C77 for Sapling: a digest depends on nothing but what its type commits to. -/
theorem C77_sapling_depends (E : Env) (single acp : Bool) (t t' : SaplingTx) (h : t.Built E) (h' : t'.Built E) (i i' : Nat)
    (same : SaplingSame single acp t i t' i') (script value : Bytes) :
    (∀ x x', t.txIns[i]? = some x → t'.txIns[i']? = some x' → x.outpoint = x'.outpoint → x.sequence = x'.sequence →
      t.sighash E (if single then 3 else 1) value i false (some script) acp = t'.sighash E (if single then 3 else 1) value i' false (some script) acp) ∧
    (acp = false → t.sighash E (if single then 3 else 1) value i true (some script) acp = t'.sighash E (if single then 3 else 1) value i' true (some script) acp) := by
  have o1 : single = true → i < t.txOuts.length := fun e => by
    obtain ⟨o, h1, _⟩ := same.out e
    exact (List.getElem?_eq_some_iff.1 h1).1
  have o2 : single = true → i' < t'.txOuts.length := fun e => by
    obtain ⟨o, _, h1⟩ := same.out e
    exact (List.getElem?_eq_some_iff.1 h1).1
  constructor
  · intro x x' hx hx' e1 e2
    obtain ⟨hl, rfl⟩ := List.getElem?_eq_some_iff.1 hx
    obtain ⟨hl', rfl⟩ := List.getElem?_eq_some_iff.1 hx'
    rw [C60_sapling E t h i i (.inl rfl) hl single acp (fun e => ⟨rfl, o1 e⟩), C60_sapling E t' h' i' i' (.inl rfl) hl' single acp (fun e => ⟨rfl, o2 e⟩),
      e1, e2]
    unfold sighash243
    have := sapling_same_zip (E := E) same (some ⟨t'.txIns[i'].outpoint.txId ++ t'.txIns[i'].outpoint.index, script, value, t'.txIns[i'].sequence⟩)
    unfold sigType at this
    rw [this]
  · rintro rfl
    rw [(C60_sapling_joinsplit E t h i single o1 script value).1, (C60_sapling_joinsplit E t' h' i' single o2 script value).1]
    unfold sighash243
    have := sapling_same_zip (E := E) same none
    unfold sigType at this
    simp only [Bool.false_eq_true, if_false, Nat.add_zero] at this
    rw [this]

theorem sapling_core {E : Env} (hH : E.H.LengthOK) {single acp single' acp' : Bool} {t t' : SaplingTx} (f : t.Facts E) (f' : t'.Facts E) {i i' : Nat}
    {inp inp' : Option ZInput} (w : ZWidths t.zsig inp (sigType single acp)) (w' : ZWidths t'.zsig inp' (sigType single' acp'))
    (ho : single = true → i < t.txOuts.length) (ho' : single' = true → i' < t'.txOuts.length)
    (nb : ¬ BlakeBreak E.H.blake2b ((persSigHash 0x76b809bb, zip243 E.H.blake2b t.zsig i inp (sigType single acp),
      zip243 E.H.blake2b t'.zsig i' inp' (sigType single' acp')) :: zPairs t.zsig i t'.zsig i'))
    (e : sighash243 E.H.blake2b t.zsig i inp (sigType single acp) = sighash243 E.H.blake2b t'.zsig i' inp' (sigType single' acp')) :
    single = single' ∧ acp = acp' ∧ SaplingSame single acp t i t' i' ∧ inp = inp' := by
  have c := (BlakeBreak.not nb (.head _)).1 e
  have hl : zPairs t.zsig i t'.zsig i' ⊆ ((persSigHash 0x76b809bb, zip243 E.H.blake2b t.zsig i inp (sigType single acp),
      zip243 E.H.blake2b t'.zsig i' inp' (sigType single' acp')) :: zPairs t.zsig i t'.zsig i') := List.subset_cons_self _ _
  obtain ⟨r, r1, r2, r3⟩ := zip243_inj (fun p b => hH.blake2b p b) w w' f.args.vb8 f'.args.vb8 c
  have ht : single = single' ∧ acp = acp' := by
    have := r.type
    revert this
    cases single <;> cases single' <;> cases acp <;> cases acp' <;> decide
  obtain ⟨rfl, rfl⟩ := ht
  obtain ⟨f1, f2, f3, -⟩ := sigType_facts single acp
  have hjs : t.txJoinsplits = t'.txJoinsplits ∧ t.joinsplitPubkey = t'.joinsplitPubkey := by
    have o1 := congrArg SaplingTx.joinsplitPubkey f.obj
    have o1' := congrArg SaplingTx.joinsplitPubkey f'.obj
    simp only [saplingObj] at o1 o1'
    rcases zJoinsplits_break hl nb r.joinsplits with ⟨c1, c2⟩ | ⟨c1, c2, c3⟩
    · have c1 : t.txJoinsplits = [] := List.map_eq_nil_iff.1 c1
      have c2 : t'.txJoinsplits = [] := List.map_eq_nil_iff.1 c2
      rw [if_neg (by simpa using c1)] at o1
      rw [if_neg (by simpa using c2)] at o1'
      exact ⟨by rw [c1, c2], by rw [o1, o1']⟩
    · have c1 : t.txJoinsplits ≠ [] := fun e => c1 (List.map_eq_nil_iff.2 e)
      have c2 : t'.txJoinsplits ≠ [] := fun e => c2 (List.map_eq_nil_iff.2 e)
      obtain ⟨⟨p, ep, hp⟩, -⟩ := f.args.keys c1
      obtain ⟨⟨p', ep', hp'⟩, -⟩ := f'.args.keys c2
      simp only [SaplingTx.zsig, ep, ep', Option.getD_some] at c3
      obtain ⟨e1, e2⟩ := flat_tail_inj (n := 1698) (by decide) (mem_map_len fun j hj => (f.js j hj).length)
        (mem_map_len fun j hj => (f'.js j hj).length) (by rw [hp, hp']) c3
      exact ⟨sjs_bytes_inj f.js f'.js e1, by rw [ep, ep', e2]⟩
  refine ⟨rfl, rfl, ⟨r.lockTime, r.expiry, hjs.1, hjs.2, r3, ?_, ?_, ?_, ?_, ?_, ?_⟩, r.inp⟩
  · refine spends_inj f.ss f'.ss (flatten_inj' (fixed_selfDelim 320) (by rintro x hx rfl; simp at hx) (mem_map_len fun s hs => (f.ss s hs).part_length)
      (mem_map_len fun s hs => (f'.ss s hs).part_length) (zSpends_break hl nb r1))
  · refine souts_bytes_inj f.so f'.so (flatten_inj' (fixed_selfDelim 948) (by rintro x hx rfl; simp at hx) (mem_map_len fun s hs => (f.so s hs).length)
      (mem_map_len fun s hs => (f'.so s hs).length) (zShielded_break hl nb r2))
  · rintro rfl
    exact ins_fst f.ins f'.ins (zPrevouts_break hl nb f1 r.prevouts)
  · rintro rfl rfl
    exact ins_snd f.ins f'.ins (zSequence_break hl nb f1 f2 r.sequence)
  · rintro rfl
    exact outs_flat f.outs f'.outs (zOutputs_break hl nb f2 r.outputs)
  · rintro rfl
    have l1 := ho rfl
    have l2 := ho' rfl
    have q1 : t.zsig.outs[i]? = some t.txOuts[i].bytes := by
      simp only [SaplingTx.zsig]; rw [← outs_wire f.outs]; simp [l1]
    have q2 : t'.zsig.outs[i']? = some t'.txOuts[i'].bytes := by
      simp only [SaplingTx.zsig]; rw [← outs_wire f'.outs]; simp [l2]
    have ee := zOutput_break hl nb f2 q1 q2 r.outputs
    have := ((f.outs _ (List.getElem_mem l1)).inj (f'.outs _ (List.getElem_mem l2)) (r := []) (s := []) (by rw [ee])).1
    exact ⟨_, List.getElem?_eq_getElem l1, by rw [this]; exact List.getElem?_eq_getElem l2⟩

/-- C77 for Sapling, transparent inputs: equal digests mean equal type, committed parts, signed input, script code and value, or one of eight
explicit pairs of messages is a BLAKE2b collision or contains a preimage of zero. -/
theorem C77_sapling_binds (E : Env) (hH : E.H.LengthOK) (single acp single' acp' : Bool) (t t' : SaplingTx) (h : t.Built E) (h' : t'.Built E) (i i' : Nat)
    (x x' : TxIn) (hx : t.txIns[i]? = some x) (hx' : t'.txIns[i']? = some x') (ho : single = true → i < t.txOuts.length)
    (ho' : single' = true → i' < t'.txOuts.length) (script script' value value' : Bytes) (hv : value.length = 8) (hv' : value'.length = 8)
    (e : t.sighash E (if single then 3 else 1) value i false (some script) acp = t'.sighash E (if single' then 3 else 1) value' i' false (some script') acp') :
    (single = single' ∧ acp = acp' ∧ SaplingSame single acp t i t' i' ∧ x.outpoint = x'.outpoint ∧ x.sequence = x'.sequence ∧
      script = script' ∧ value = value') ∨
    BlakeBreak E.H.blake2b ((persSigHash 0x76b809bb, saplingPreimage E t i x script value ((if single then 3 else 1) + if acp then 128 else 0),
      saplingPreimage E t' i' x' script' value' ((if single' then 3 else 1) + if acp' then 128 else 0)) :: zPairs t.zsig i t'.zsig i') := by
  obtain ⟨hl, rfl⟩ := List.getElem?_eq_some_iff.1 hx
  obtain ⟨hl', rfl⟩ := List.getElem?_eq_some_iff.1 hx'
  rw [C60_sapling E t h i i (.inl rfl) hl single acp (fun e => ⟨rfl, ho e⟩), C60_sapling E t' h' i' i' (.inl rfl) hl' single' acp' (fun e => ⟨rfl, ho' e⟩)] at e
  have f := h.facts
  have f' := h'.facts
  have b := f.ins _ (List.getElem_mem hl)
  have b' := f'.ins _ (List.getElem_mem hl')
  by_cases nb : BlakeBreak E.H.blake2b ((persSigHash 0x76b809bb, saplingPreimage E t i t.txIns[i] script value ((if single then 3 else 1) + if acp then 128 else 0),
      saplingPreimage E t' i' t'.txIns[i'] script' value' ((if single' then 3 else 1) + if acp' then 128 else 0)) :: zPairs t.zsig i t'.zsig i')
  · exact .inr nb
  · left
    obtain ⟨r1, r2, r3, r4⟩ := sapling_core hH f f' (sapling_widths f b hv (sigType_facts single acp).2.2.1)
      (sapling_widths f' b' hv' (sigType_facts single' acp').2.2.1) ho ho' nb (Except.ok.inj e)
    simp only [Option.some.injEq, ZInput.mk.injEq] at r4
    exact ⟨r1, r2, r3, b.eq.1.inj b'.eq.1 r4.1, r4.2.2.2, r4.2.1, r4.2.2.1⟩

/-- C77 for Sapling, signing joinsplits or shielded parts: as above; and such a digest is never that of a transparent input. -/
theorem C77_sapling_binds_joinsplit (E : Env) (hH : E.H.LengthOK) (single single' acp' : Bool) (t t' : SaplingTx) (h : t.Built E) (h' : t'.Built E)
    (i i' : Nat) (ho : single = true → i < t.txOuts.length) (ho' : single' = true → i' < t'.txOuts.length)
    (script script' value value' : Bytes) :
    (t.sighash E (if single then 3 else 1) value i true (some script) false = t'.sighash E (if single' then 3 else 1) value' i' true (some script') false →
      (single = single' ∧ SaplingSame single false t i t' i') ∨
      BlakeBreak E.H.blake2b ((persSigHash 0x76b809bb, zip243 E.H.blake2b t.zsig i none (if single then 3 else 1),
        zip243 E.H.blake2b t'.zsig i' none (if single' then 3 else 1)) :: zPairs t.zsig i t'.zsig i')) ∧
    (∀ x', t'.txIns[i']? = some x' → value'.length = 8 →
      t.sighash E (if single then 3 else 1) value i true (some script) false = t'.sighash E (if single' then 3 else 1) value' i' false (some script') acp' →
      BlakeBreak E.H.blake2b ((persSigHash 0x76b809bb, zip243 E.H.blake2b t.zsig i none (if single then 3 else 1),
        saplingPreimage E t' i' x' script' value' ((if single' then 3 else 1) + if acp' then 128 else 0)) :: zPairs t.zsig i t'.zsig i')) := by
  have f := h.facts
  have f' := h'.facts
  have hT : ∀ s : Bool, (if s then 3 else 1 : Nat) = sigType s false := by intro s; cases s <;> rfl
  rw [(C60_sapling_joinsplit E t h i single ho script value).1]
  constructor
  · rw [(C60_sapling_joinsplit E t' h' i' single' ho' script' value').1, hT, hT]
    intro e
    rw [Classical.or_iff_not_imp_right]
    intro nb
    obtain ⟨r1, r2, r3, r4⟩ := sapling_core hH f f' (sapling_widths_none f (sigType_facts single false).2.2.1)
      (sapling_widths_none f' (sigType_facts single' false).2.2.1) ho ho' nb (Except.ok.inj e)
    exact ⟨r1, r3⟩
  · intro x' hx' hv' e
    obtain ⟨hl', rfl⟩ := List.getElem?_eq_some_iff.1 hx'
    rw [C60_sapling E t' h' i' i' (.inl rfl) hl' single' acp' (fun e => ⟨rfl, ho' e⟩)] at e
    rw [hT single] at e ⊢
    apply Classical.byContradiction
    intro nb
    obtain ⟨r1, r2, r3, r4⟩ := sapling_core hH f f' (sapling_widths_none f (sigType_facts single false).2.2.1)
      (sapling_widths f' (f'.ins _ (List.getElem_mem hl')) hv' (sigType_facts single' acp').2.2.1) ho ho' nb (Except.ok.inj e)
    cases r4

example : (exSap 2).Built sapEnv ∧ sapEnv.H.LengthOK ∧ (exSap 2).txIns[0]? = some exIn ∧ (exSap 2).txOuts.length = 2 ∧ (exSap 2).txJoinsplits ≠ [] :=
  ⟨exSap_built (by omega), toyHashes_ok, rfl, rfl, List.cons_ne_nil _ _⟩

/-- The toy hash does not give zero on the sequences. -/
example : sapEnv.H.blake2b persSequence ((exSap 2).txIns.map (·.sequence)).flatten ≠ zeros32 := by decide

end Verif.Props
