import Verif.Props.DynZSafe
import Verif.Props.DynTyped
import Verif.Model.DynDecred
import Verif.Props.ZcashTx
import Verif.Props.SpendDecred

/-! Properties C116 and C117, continued: on arguments of the annotated types the constructors for Zcash and Decred are those of the model with types. -/

namespace Verif.Props
open Verif Spec

theorem validateAll_cons (v : Val) (n : Nat) (l : List (Val × Nat)) : Val.validateAll ((v, n) :: l) = (do v.validate (some n); Val.validateAll l) := rfl
theorem validateAll_nil : Val.validateAll [] = .ok () := rfl
theorem bind_assoc' {α β γ : Type} (x : Py α) (f : α → Py β) (g : β → Py γ) : (x >>= f) >>= g = x >>= fun a => f a >>= g := by cases x <;> rfl

theorem err_bind {α β : Type} (e : PyErr) (f : α → Py β) : (.error e : Py α) >>= f = .error e := rfl

theorem map_ok' {α β : Type} (f : α → β) (a : α) : Except.map f (.ok a : Py α) = .ok (f a) := rfl

theorem checkVpub_typed (a b : Bytes) : Dyn.checkVpub (.bytes a) (.bytes b) = check (¬ (le2i a ≠ 0 ∧ le2i b ≠ 0)) .valueError := by
  unfold Dyn.checkVpub
  simp only [Val.le2i, ok_bind]
  by_cases h : le2i a = 0 <;> simp [h, check]

/-- C116: on `bytes` arguments, and objects of the class, the constructors of the parts of Zcash transactions are those of the model with types; results and exceptions agree. -/
theorem C116_typed_parts (net : Network) :
    (∀ a a' b b' c c' k h : Bytes, Dyn.sproutProof net (.bytes a) (.bytes a') (.bytes b) (.bytes b') (.bytes c) (.bytes c') (.bytes k) (.bytes h) =
      (SproutZkproof.make net a a' b b' c c' k h).map embSproutProof) ∧
    (∀ a b c : Bytes, Dyn.saplingProof net (.bytes a) (.bytes b) (.bytes c) = (SaplingZkproof.make net a b c).map embSapProof) ∧
    (∀ (a b c d e f g h : Bytes) (z : SproutZkproof) (n : Bytes), Dyn.sproutJs net (.bytes a) (.bytes b) (.bytes c) (.bytes d) (.bytes e) (.bytes f) (.bytes g) (.bytes h)
      (embSproutProof z) (.bytes n) = (SproutJoinsplit.make net a b c d e f g h z n).map embSproutJs) ∧
    (∀ (a b c d e f g h : Bytes) (z : SaplingZkproof) (n : Bytes), Dyn.saplingJs net (.bytes a) (.bytes b) (.bytes c) (.bytes d) (.bytes e) (.bytes f) (.bytes g) (.bytes h)
      (embSapProof z) (.bytes n) = (SaplingJoinsplit.make net a b c d e f g h z n).map embSapJs) ∧
    (∀ (a b c d : Bytes) (z : SaplingZkproof) (s : Bytes), Dyn.saplingSpend net (.bytes a) (.bytes b) (.bytes c) (.bytes d) (embSapProof z) (.bytes s) =
      (SaplingShieldedSpend.make net a b c d z s).map embSpend) ∧
    (∀ (a b c d e : Bytes) (z : SaplingZkproof), Dyn.saplingOutput net (.bytes a) (.bytes b) (.bytes c) (.bytes d) (.bytes e) (embSapProof z) =
      (SaplingShieldedOutput.make net a b c d e z).map embOutput) := by
  refine ⟨fun a a' b b' c c' k h => ?_, fun a b c => ?_, fun a b c d e f g h z n => ?_, fun a b c d e f g h z n => ?_, fun a b c d z s => ?_, fun a b c d e z => ?_⟩
  · unfold Dyn.sproutProof SproutZkproof.make
    simp only [validateAll_cons, validateAll_nil, validate_bytes, map_bind, bind_assoc', ok_bind]
    rfl
  · unfold Dyn.saplingProof SaplingZkproof.make
    simp only [validateAll_cons, validateAll_nil, validate_bytes, map_bind, bind_assoc', ok_bind]
    rfl
  · unfold Dyn.sproutJs Dyn.joinsplit SproutJoinsplit.make
    simp only [validateAll_cons, validateAll_nil, validate_bytes, map_bind, bind_assoc', ok_bind, checkVpub_typed]
    rfl
  · unfold Dyn.saplingJs Dyn.joinsplit SaplingJoinsplit.make
    simp only [validateAll_cons, validateAll_nil, validate_bytes, map_bind, bind_assoc', ok_bind, checkVpub_typed]
    rfl
  · unfold Dyn.saplingSpend SaplingShieldedSpend.make
    simp only [validateAll_cons, validateAll_nil, validate_bytes, map_bind, bind_assoc', ok_bind]
    rfl
  · unfold Dyn.saplingOutput SaplingShieldedOutput.make
    simp only [validateAll_cons, validateAll_nil, validate_bytes, map_bind, bind_assoc', ok_bind]
    rfl

/-! ### transactions -/

theorem addVector_emb {α : Type} (f : α → Val) (g : α → Bytes) (h : ∀ a, (f a).content = some (g a)) (l : List α) {v : Val} (hv : IsSeq v (l.map f)) (self : Bytes) :
    Dyn.addVector self v = (do let n ← VarInt.make (l.length : Int); .ok (self ++ n.bytes ++ l.flatMap g)) := by
  unfold Dyn.addVector
  rw [hv.iter.1, hv.iter.2]
  simp only [ok_bind, iaddAll_emb f g h, List.length_map]

theorem checkJsSig_emb (n : Nat) (pk sig : Option Bytes) :
    Dyn.checkJsSig n (embOpt pk) (embOpt sig) = if n ≠ 0 then (do validateOpt pk 32; validateOpt sig 64) else .ok () := by
  unfold Dyn.checkJsSig
  have h : ∀ (o : Option Bytes) (n : Nat), (embOpt o).validate (some n) = validateOpt o n := by intro o n; cases o <;> rfl
  rw [h, h]

theorem iadd_emb (self : Bytes) (o : Option Bytes) : Val.iadd self (embOpt o) = (do let b ← appendOpt o; .ok (self ++ b)) := by cases o <;> rfl

theorem mapPy_emb {α β γ : Type} (f : β → Py γ) (g : α → β) (h : α → γ) (e : ∀ a, f (g a) = .ok (h a)) (l : List α) : mapPy f (l.map g) = .ok (l.map h) := by
  induction l with
  | nil => rfl
  | cons a l ih => rw [List.map_cons, mapPy, e, ih]; rfl

theorem mapPy_zip_emb {α β γ δ : Type} (f : β × γ → Py δ) (g : α → β) (h : α → γ → δ) (e : ∀ a c, f (g a, c) = .ok (h a c)) (l : List α) (m : List γ) :
    mapPy f ((l.map g).zip m) = .ok (List.zipWith h l m) := by
  induction l generalizing m with
  | nil => rfl
  | cons a l ih =>
    cases m with
    | nil => rfl
    | cons c m => rw [List.map_cons, List.zip_cons_cons, mapPy, e, ih]; rfl

theorem hsigs_sprout (E : Env) (k : Bytes) (js : List SproutJoinsplit) :
    Dyn.hsigs E (.bytes k) (js.map embSproutJs) = .ok (js.map fun j => hsig E j.randomSeed j.nullifiers k,
      List.zipWith (fun j h => primaryInput j.anchor j.nullifiers j.commitments j.vpubOld j.vpubNew h j.vmacs) js (js.map fun j => hsig E j.randomSeed j.nullifiers k)) := by
  unfold Dyn.hsigs
  rw [mapPy_emb (Dyn.hsig E (.bytes k)) embSproutJs (fun j => hsig E j.randomSeed j.nullifiers k) (fun _ => rfl), ok_bind,
    mapPy_zip_emb (fun p => Dyn.primaryInput p.1 p.2) embSproutJs (fun j h => primaryInput j.anchor j.nullifiers j.commitments j.vpubOld j.vpubNew h j.vmacs) (fun _ _ => rfl)]
  rfl

theorem hsigs_sapling (E : Env) (k : Bytes) (js : List SaplingJoinsplit) :
    Dyn.hsigs E (.bytes k) (js.map embSapJs) = .ok (js.map fun j => hsig E j.randomSeed j.nullifiers k,
      List.zipWith (fun j h => primaryInput j.anchor j.nullifiers j.commitments j.vpubOld j.vpubNew h j.vmacs) js (js.map fun j => hsig E j.randomSeed j.nullifiers k)) := by
  unfold Dyn.hsigs
  rw [mapPy_emb (Dyn.hsig E (.bytes k)) embSapJs (fun j => hsig E j.randomSeed j.nullifiers k) (fun _ => rfl), ok_bind,
    mapPy_zip_emb (fun p => Dyn.primaryInput p.1 p.2) embSapJs (fun j h => primaryInput j.anchor j.nullifiers j.commitments j.vpubOld j.vpubNew h j.vmacs) (fun _ _ => rfl)]
  rfl

/-- C116: on arguments of the annotated types, `OverwinterTx(…)` is the constructor of the model with types; results and exceptions agree. -/
theorem C116_typed_overwinter (E : Env) (ins : List TxIn) (outs : List TxOut) (lockTime expiry : Bytes) (js : List SproutJoinsplit) (pk sig : Option Bytes) (si so sj : Val)
    (hi : IsSeq si (ins.map embIn)) (ho : IsSeq so (outs.map embOut)) (hj : IsSeq sj (js.map embSproutJs)) :
    Dyn.overwinterTx E si so (.bytes lockTime) (.bytes expiry) sj (embOpt pk) (embOpt sig) = (OverwinterTx.make E ins outs lockTime expiry js pk sig).map embOver := by
  have hv : ∀ (self b : Bytes), Val.iadd self (.bytes b) = .ok (self ++ b) := fun _ _ => rfl
  unfold Dyn.overwinterTx OverwinterTx.make
  rw [validate_bytes, validate_bytes, instances_emb embIn .txIn (fun _ => rfl) ins hi, instances_emb embOut .txOut (fun _ => rfl) outs ho,
    instances_emb embSproutJs .sproutJs (fun _ => rfl) js hj]
  simp only [ok_bind, map_bind, hv, hi.iter.1, hi.iter.2, ho.iter.1, hj.iter.2, List.length_map, Val.le2i, addVector_emb embIn (·.bytes) (fun _ => rfl) ins hi,
    addVector_emb embOut (·.bytes) (fun _ => rfl) outs ho, checkJsSig_emb, bind_assoc']
  unfold Dyn.addJs Dyn.jsAttrs OverwinterTx.checkJs OverwinterTx.jsPart
  simp only [ok_bind, hj.iter.1, hj.iter.2, List.length_map, bind_assoc']
  by_cases h0 : js = []
  · subst h0
    simp only [List.length_nil, ne_eq, not_true_eq_false, if_false, ok_bind]
    rfl
  · have h1 : js.length ≠ 0 := fun e => h0 (List.length_eq_zero_iff.1 e)
    simp only [if_pos h1]
    cases pk with
    | none => simp only [validateOpt]; rfl
    | some k =>
      cases sig with
      | none => simp only [validateOpt, bind_assoc', err_bind]
      | some s =>
        simp only [iaddAll_emb embSproutJs (·.bytes) (fun _ => rfl), appendOpt, embOpt, Option.elim, ok_bind, hsigs_sprout, bind_assoc', hv]
        simp only [Option.getD_some, List.append_assoc]
        rfl

theorem checkBalance_emb (balance : Bytes) (spends : List SaplingShieldedSpend) (outputs : List SaplingShieldedOutput) (binding : Option Bytes) (ss so : Val)
    (hs : IsSeq ss (spends.map embSpend)) (ho : IsSeq so (outputs.map embOutput)) :
    Dyn.checkBalance (.bytes balance) ss so (embOpt binding) = SaplingTx.checkBalance balance spends.length outputs.length binding := by
  unfold Dyn.checkBalance SaplingTx.checkBalance
  rw [hs.iter.2, ho.iter.2]
  simp only [ok_bind, List.length_map]
  have e : (Val.neBytes (.bytes balance) (List.replicate 8 0) = true) ↔ balance ≠ List.replicate 8 0 := by simp [Val.neBytes, Val.content]
  simp only [e]
  split
  · rfl
  · cases binding <;> rfl

/-- C116: the same for `SaplingTx(…)`. -/
theorem C116_typed_sapling (E : Env) (ins : List TxIn) (outs : List TxOut) (lockTime expiry balance : Bytes) (spends : List SaplingShieldedSpend)
    (outputs : List SaplingShieldedOutput) (js : List SaplingJoinsplit) (pk sig binding : Option Bytes) (si so ss st sj : Val)
    (hi : IsSeq si (ins.map embIn)) (ho : IsSeq so (outs.map embOut)) (hs : IsSeq ss (spends.map embSpend)) (ht : IsSeq st (outputs.map embOutput))
    (hj : IsSeq sj (js.map embSapJs)) :
    Dyn.saplingTx E si so (.bytes lockTime) (.bytes expiry) (.bytes balance) ss st sj (embOpt pk) (embOpt sig) (embOpt binding) =
      (SaplingTx.make E ins outs lockTime expiry balance spends outputs js pk sig binding).map embSap := by
  have hv : ∀ (self b : Bytes), Val.iadd self (.bytes b) = .ok (self ++ b) := fun _ _ => rfl
  unfold Dyn.saplingTx SaplingTx.make
  rw [validate_bytes, validate_bytes, validate_bytes, instances_emb embIn .txIn (fun _ => rfl) ins hi, instances_emb embOut .txOut (fun _ => rfl) outs ho,
    instances_emb embSapJs .saplingJs (fun _ => rfl) js hj, instances_emb embSpend .saplingSpend (fun _ => rfl) spends hs,
    instances_emb embOutput .saplingOutput (fun _ => rfl) outputs ht, checkBalance_emb _ _ _ _ _ _ hs ht]
  simp only [ok_bind, map_bind, hv, hi.iter.1, hi.iter.2, ho.iter.1, hj.iter.2, hs.iter.1, hs.iter.2, ht.iter.1, List.length_map, Val.le2i,
    addVector_emb embIn (·.bytes) (fun _ => rfl) ins hi, addVector_emb embOut (·.bytes) (fun _ => rfl) outs ho, addVector_emb embSpend (·.bytes) (fun _ => rfl) spends hs,
    addVector_emb embOutput (·.bytes) (fun _ => rfl) outputs ht, checkJsSig_emb, bind_assoc']
  unfold Dyn.addJs Dyn.jsAttrs SaplingTx.checkJs SaplingTx.jsPart Dyn.addBinding SaplingTx.bindingPart
  simp only [ok_bind, hj.iter.1, hj.iter.2, hs.iter.2, ht.iter.2, List.length_map, bind_assoc']
  by_cases h0 : js = []
  · subst h0
    simp only [List.length_nil, ne_eq, not_true_eq_false, if_false, ok_bind]
    by_cases hb : outputs.length + spends.length = 0
    · simp only [hb, not_true_eq_false, if_false, ok_bind, List.append_nil]
      simp only [List.append_assoc]
      rfl
    · simp only [hb, not_false_eq_true, if_true, iadd_emb, bind_assoc', ok_bind]
      simp only [List.append_assoc]
      rfl
  · have h1 : js.length ≠ 0 := fun e => h0 (List.length_eq_zero_iff.1 e)
    simp only [if_pos h1]
    cases pk with
    | none => simp only [validateOpt]; rfl
    | some k =>
      cases sig with
      | none => simp only [validateOpt, bind_assoc', err_bind]
      | some s =>
        simp only [iaddAll_emb embSapJs (·.bytes) (fun _ => rfl), appendOpt, embOpt, Option.elim, ok_bind, hsigs_sapling, bind_assoc', hv]
        by_cases hb : outputs.length + spends.length = 0
        · simp only [hb, ne_eq, not_true_eq_false, if_false, ok_bind, List.append_nil]
          simp only [Option.getD_some, List.append_assoc]
          rfl
        · simp only [hb, ne_eq, not_false_eq_true, if_true]
          cases binding with
          | none =>
            simp only [Val.iadd, Val.content, err_bind]
          | some g =>
            simp only [hv, ok_bind]
            simp only [Option.getD_some, List.append_assoc]
            rfl

theorem checkV1_emb (v : Bytes) (ins : List TxIn) (js : Option (List SproutJoinsplit)) (si sj : Val) (hi : IsSeq si (ins.map embIn))
    (hj : ∀ l, js = some l → IsSeq sj (l.map embSproutJs)) (hj0 : js = none → sj = .none) : Dyn.checkV1 (le2i v) si sj = SproutTx.checkV1 v ins js := by
  unfold Dyn.checkV1 SproutTx.checkV1
  rw [hi.iter.2, List.length_map]
  split
  · cases js with
    | none => rw [hj0 rfl]; rfl
    | some l =>
      have h := hj l rfl
      have hl := h.iter.2
      rcases h with rfl | rfl <;> simp only [hl, ok_bind, List.length_map] <;> rfl
  · rfl

theorem checkSproutSig_emb (sig : Option Bytes) : Dyn.checkSproutSig (embOpt sig) = SproutTx.checkSig sig := by
  cases sig with
  | none => rfl
  | some s =>
    show (if (s != []) = true then validateBytes s (some 64) else .ok ()) = (if s ≠ [] then validateBytes s (some 64) else .ok ())
    by_cases h : s = [] <;> simp [h]

theorem checkV2_emb (v : Bytes) (js : Option (List SproutJoinsplit)) (pk sig : Option Bytes) (sj : Val)
    (hj : ∀ l, js = some l → IsSeq sj (l.map embSproutJs)) (hj0 : js = none → sj = .none) :
    Dyn.checkV2 (le2i v) sj (embOpt pk) (embOpt sig) = SproutTx.checkV2 v js pk sig := by
  unfold Dyn.checkV2 SproutTx.checkV2
  split
  · cases js with
    | none => rw [hj0 rfl]; rfl
    | some l =>
      have h := hj l rfl
      have e : ∀ (o : Option Bytes) (n : Nat), (embOpt o).validate (some n) = validateOpt o n := by intro o n; cases o <;> rfl
      simp only [h.iter.2, ok_bind, List.length_map, instances_emb embSproutJs .sproutJs (fun _ => rfl) l h, e, checkSproutSig_emb]
  · rfl

/-- C116: the same for `SproutTx(…)`. -/
theorem C116_typed_sprout (E : Env) (version : Bytes) (ins : List TxIn) (outs : List TxOut) (lockTime : Bytes) (js : Option (List SproutJoinsplit)) (pk sig : Option Bytes)
    (si so sj : Val) (hi : IsSeq si (ins.map embIn)) (ho : IsSeq so (outs.map embOut)) (hj : ∀ l, js = some l → IsSeq sj (l.map embSproutJs)) (hj0 : js = none → sj = .none) :
    Dyn.sproutTx E (.bytes version) si so (.bytes lockTime) sj (embOpt pk) (embOpt sig) = (SproutTx.make E version ins outs lockTime js pk sig).map embSprout := by
  have hv : ∀ (self b : Bytes), Val.iadd self (.bytes b) = .ok (self ++ b) := fun _ _ => rfl
  have h2 : i2lePadded 2 4 = .ok [2, 0, 0, 0] := rfl
  unfold Dyn.sproutTx SproutTx.make
  rw [validate_bytes, validate_bytes, instances_emb embIn .txIn (fun _ => rfl) ins hi, instances_emb embOut .txOut (fun _ => rfl) outs ho]
  simp only [Val.le2i, ok_bind]
  rw [checkV1_emb version ins js si sj hi hj hj0, checkV2_emb version js pk sig sj hj hj0]
  simp only [ok_bind, map_bind, hv, hi.iter.1, ho.iter.1, addVector_emb embIn (·.bytes) (fun _ => rfl) ins hi, addVector_emb embOut (·.bytes) (fun _ => rfl) outs ho,
    bind_assoc', h2, List.nil_append]
  unfold Dyn.addSproutJs Dyn.sproutJsAttrs SproutTx.jsPart
  simp only [h2, ok_bind]
  by_cases hver : version = [2, 0, 0, 0]
  · have e1 : (!(Val.neBytes (.bytes version) [2, 0, 0, 0])) = true := by simp [Val.neBytes, Val.content, hver]
    simp only [e1, if_pos hver, if_true, bind_assoc']
    cases js with
    | none =>
      have : SproutTx.checkV2 version none pk sig = .error .typeError := by subst hver; rfl
      rw [this]
      simp only [err_bind]
    | some l =>
      cases pk with
      | none =>
        have : SproutTx.checkV2 version (some l) none sig = (do check (¬ l.length > 5) .valueError; .error .valueError) := by subst hver; rfl
        rw [this]
        simp only [err_bind, bind_assoc']
      | some k =>
        simp only [addVector_emb embSproutJs (·.bytes) (fun _ => rfl) l (hj l rfl), bind_assoc', ok_bind, embOpt, Option.elim, hv, (hj l rfl).iter.1, hsigs_sprout, appendOpt]
        cases sig with
        | none => simp only [Val.iadd, Val.content, err_bind, Option.getD_some]
        | some s =>
          simp only [hv, ok_bind, SproutTx.jsTuple, Option.getD_some, List.append_assoc]
          rfl
  · have e1 : (!(Val.neBytes (.bytes version) [2, 0, 0, 0])) = false := by simp [Val.neBytes, Val.content, hver]
    simp only [e1, if_neg hver, ok_bind, List.append_nil, Bool.false_eq_true, if_false]
    cases js with
    | none =>
      rw [hj0 rfl]
      simp only [Val.iter, err_bind, SproutTx.jsTuple]
    | some l =>
      simp only [(hj l rfl).iter.1, ok_bind, SproutTx.jsTuple]
      rfl

/-! ### Decred -/

/-- C117: on `bytes` arguments, and objects of the class, the constructors of the parts of Decred transactions are those of the model with types; results and exceptions agree. -/
theorem C117_typed_parts (net : Network) :
    (∀ a b c : Bytes, Dyn.dcrOutpoint net (.bytes a) (.bytes b) (.bytes c) = (DecredOutpoint.make net a b c).map embDcrO) ∧
    (∀ (o : DecredOutpoint) (q : Bytes), Dyn.dcrTxIn net (embDcrO o) (.bytes q) = (DecredTxIn.make net o q).map embDcrIn) ∧
    (∀ a b c : Bytes, Dyn.dcrTxOut net (.bytes a) (.bytes b) (.bytes c) = (DecredTxOut.make net a b c).map embDcrOut) ∧
    (∀ a b c s r : Bytes, Dyn.dcrWitness net (.bytes a) (.bytes b) (.bytes c) (.bytes s) (.bytes r) = (DecredInputWitness.make net a b c s r).map embDcrWit) := by
  refine ⟨fun a b c => ?_, fun o q => ?_, fun a b c => ?_, fun a b c s r => ?_⟩
  · unfold Dyn.dcrOutpoint DecredOutpoint.make
    simp only [validateAll_cons, validateAll_nil, validate_bytes, map_bind, bind_assoc', ok_bind]
    rfl
  · unfold Dyn.dcrTxIn DecredTxIn.make
    have h1 : Val.validate (embDcrO o) (some 37) = validateBytes o.bytes (some 37) := rfl
    simp only [validateAll_cons, validateAll_nil, validate_bytes, map_bind, bind_assoc', ok_bind, h1]
    rfl
  · unfold Dyn.dcrTxOut DecredTxOut.make
    simp only [validateAll_cons, validateAll_nil, validate_bytes, map_bind, bind_assoc', ok_bind, map_ok', embDcrOut, Val.iaddAll, Val.iadd, Val.content, Val.len, List.nil_append]
  · unfold Dyn.dcrWitness DecredInputWitness.make
    simp only [validateAll_cons, validateAll_nil, validate_bytes, map_bind, bind_assoc', ok_bind, map_ok', embDcrWit, Val.iaddAll, Val.iadd, Val.content, Val.len, Val.add, List.nil_append]

attribute [local irreducible] blake256 in
/-- C117: on arguments of the annotated types, `DecredTx(…)` is the constructor of the model with types; results and exceptions agree. -/
theorem C117_typed (net : Network) (version : Bytes) (ins : List DecredTxIn) (outs : List DecredTxOut) (lockTime expiry : Bytes) (wits : List DecredInputWitness) (si so sw : Val)
    (hi : IsSeq si (ins.map embDcrIn)) (ho : IsSeq so (outs.map embDcrOut)) (hw : IsSeq sw (wits.map embDcrWit)) :
    Dyn.dcrTx net (.bytes version) si so (.bytes lockTime) (.bytes expiry) sw = (DecredTx.make net version ins outs lockTime expiry wits).map (embDcrTx si so sw) := by
  have hv : ∀ (self b : Bytes), Val.iadd self (.bytes b) = .ok (self ++ b) := fun _ _ => rfl
  unfold Dyn.dcrTx DecredTx.make Dyn.dcrPrefix DecredTx.prefixOf
  rw [instances_emb embDcrIn .dcrTxIn (fun _ => rfl) ins hi, instances_emb embDcrOut .dcrTxOut (fun _ => rfl) outs ho, instances_emb embDcrWit .dcrWitness (fun _ => rfl) wits hw]
  simp only [validateAll_cons, validateAll_nil, validate_bytes, ok_bind, map_bind, bind_assoc', hv, hi.iter.2, ho.iter.2, List.length_map,
    addVector_emb embDcrIn (·.bytes) (fun _ => rfl) ins hi, addVector_emb embDcrOut (·.bytes) (fun _ => rfl) outs ho, addVector_emb embDcrWit (·.bytes) (fun _ => rfl) wits hw,
    Dyn.firstTwo, List.nil_append, map_ok', embDcrTx]

/-! ### cases -/

/-- A proof made of bytearrays and bytes, a joinsplit with it, its bytes. -/
def valProof : Val := .obj .sproutProof [.bytearray (List.replicate 33 1), .bytes (List.replicate 33 2), .bytes (List.replicate 65 3), .bytes (List.replicate 33 4),
    .bytes (List.replicate 33 5), .bytes (List.replicate 33 6), .bytes (List.replicate 33 7), .bytes (List.replicate 33 8)]
  (List.replicate 33 1 ++ List.replicate 33 2 ++ List.replicate 65 3 ++ List.replicate 33 4 ++ List.replicate 33 5 ++ List.replicate 33 6 ++ List.replicate 33 7 ++ List.replicate 33 8)

theorem valProof_made : Made overEnv valProof :=
  .sproutProof _ _ _ _ _ _ _ _ _ (.bytearray (List.replicate 33 1)) (.bytes (List.replicate 33 2)) (.bytes (List.replicate 65 3)) (.bytes (List.replicate 33 4))
    (.bytes (List.replicate 33 5)) (.bytes (List.replicate 33 6)) (.bytes (List.replicate 33 7)) (.bytes (List.replicate 33 8)) rfl

theorem valJs_ex : ∃ v b, Made overEnv v ∧ v.isInstance .sproutJs = true ∧ v.content = some b ∧ b.take 9 = [1, 0, 0, 0, 0, 0, 0, 0, 0] := by
  refine ⟨_, _, .sproutJs _ _ _ _ _ _ _ _ _ _ _ (.bytes [1, 0, 0, 0, 0, 0, 0, 0]) (.bytes (List.replicate 8 0)) (.bytes (List.replicate 32 1)) (.bytes (List.replicate 64 2))
    (.bytes (List.replicate 64 3)) (.bytes (List.replicate 32 4)) (.bytearray (List.replicate 32 5)) (.bytes (List.replicate 64 6)) valProof_made (.bytes (List.replicate 1202 7))
    (((C116_joinsplit _ _ _ _ _ _ _ _ _ _ _ _ _).1 _).2 ⟨rfl, rfl, _, _, _, _, _, _, _, _, _, _, ⟨rfl, ?_⟩, rfl, .inr ?_, rfl⟩), rfl, rfl, rfl⟩
  · simp only [List.map_cons, List.map_nil, List.length_replicate, jsFields]; rfl
  · rfl

/-- A transaction with such a joinsplit, without inputs, can be made; the signature is a bytearray, the inputs an empty string. -/
example : ∃ v, Made overEnv v ∧ v.isInstance .overwinterTx = true := by
  obtain ⟨j, b, hm, hc, hb, -⟩ := valJs_ex
  obtain ⟨b', hl, -, hb', hj⟩ := C116_safe_sproutJs overEnv j hm hc
  rw [hb] at hb'; cases hb'
  refine ⟨_, .overwinterTx _ _ _ _ _ _ _ _ (.str []) (.tuple [] (fun _ h => nomatch h)) (.bytes [0, 0, 0, 0]) (.bytes [1, 0, 0, 0]) (.list [j] fun v hv => by
      rw [List.mem_singleton.1 hv]; exact hm) (.bytes (List.replicate 32 1)) (.bytearray (List.replicate 64 2))
    (((C116_overwinter _ _ _ _ _ _ _ _ ?_).1 _).2 ⟨[0, 0, 0, 0], [1, 0, 0, 0], [], [], [j], [], [], [b], List.replicate 32 1, List.replicate 64 2,
      ⟨rfl, rfl, rfl, rfl, rfl, rfl, by decide, ⟨.inr ⟨rfl, rfl⟩, rfl, rfl⟩, by decide, ⟨.inr ⟨rfl, rfl⟩, rfl, rfl⟩, by decide,
        ⟨⟨.inl (.inl rfl), by simpa using hc, by simpa [Contents] using hb⟩, by simp, fun _ => ⟨rfl, by simp, rfl, by simp⟩⟩, .inr (by simp)⟩, ?_, rfl⟩), rfl⟩
  · rintro l (e | e) v hv - <;> cases e
    rw [List.mem_singleton.1 hv]; exact hj
  · have l0 : (leBytes 1 0).length = 1 := rfl
    have l1 : (leBytes 1 1).length = 1 := rfl
    simp [wireOverwinter, wireJoinsplits, vector, compactSize, hl, l0, l1]

/-- Version 1 with an input: the joinsplits may be an empty list, but not None. -/
example : (Dyn.sproutTx sproutEnv (.bytes [1, 0, 0, 0]) (.list [valIn]) (.tuple []) (.bytes [0, 0, 0, 0]) (.list []) .none .none).isOk = true ∧
    Dyn.sproutTx sproutEnv (.bytes [1, 0, 0, 0]) (.list [valIn]) (.tuple []) (.bytes [0, 0, 0, 0]) .none .none .none = .error .typeError := ⟨rfl, rfl⟩

example : (Dyn.saplingTx sapEnv (.list [valIn]) (.tuple [valOut]) (.bytes [0, 0, 0, 0]) (.bytearray [1, 0, 0, 0]) (.bytes (List.replicate 8 0)) (.list []) (.list []) (.list [])
    .none .none .none).isOk = true := rfl

def dcrIn0 : Val := .obj .dcrTxIn [.bytearray (List.replicate 37 1), .bytes [0, 0, 0, 0]] (List.replicate 37 1 ++ [0, 0, 0, 0])
def dcrOut0 : Val := .obj .dcrTxOut [.bytes (List.replicate 8 1), .bytes [0, 0], .int 1, .bytes [0x51]] (List.replicate 8 1 ++ [0, 0] ++ [1, 0x51])

/-- A Decred transaction, without witnesses. -/
example : ∃ v, Made dcrEnv v ∧ v.isInstance .dcrTx = true := by
  have hi : Made dcrEnv dcrIn0 := .dcrTxIn _ _ _ (.bytearray (List.replicate 37 1)) (.bytes [0, 0, 0, 0]) rfl
  have ho : Made dcrEnv dcrOut0 := .dcrTxOut _ _ _ _ (.bytes (List.replicate 8 1)) (.bytes [0, 0]) (.bytes [0x51]) rfl
  refine ⟨_, .dcrTx _ _ _ _ _ _ _ (.bytes [1, 0, 0, 0]) (.list [dcrIn0] fun v hv => by rw [List.mem_singleton.1 hv]; exact hi)
    (.tuple [dcrOut0] fun v hv => by rw [List.mem_singleton.1 hv]; exact ho) (.bytes [0, 0, 0, 0]) (.bytes [0, 0, 0, 0]) (.list [] fun _ h => nomatch h)
    (((C117_tx _ _ _ _ _ _ _).1 _).2 ⟨[1, 0, 0, 0], [0, 0, 0, 0], [0, 0, 0, 0], [dcrIn0], [dcrOut0], [], [List.replicate 37 1 ++ [0, 0, 0, 0]],
      [List.replicate 8 1 ++ [0, 0] ++ [1, 0x51]], [], ⟨rfl, rfl, rfl, rfl, rfl, rfl, rfl, ⟨.inl (.inl rfl), rfl, rfl⟩, by simp, by simp,
      ⟨.inl (.inr rfl), rfl, rfl⟩, by simp, by simp, ⟨.inr ⟨rfl, rfl⟩, rfl, rfl⟩, by simp⟩, by decide, rfl⟩), rfl⟩

end Verif.Props
