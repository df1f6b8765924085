import Verif.Model.DynCopy
import Verif.Props.DynZSafe
import Verif.Lemmas.ZcashTx

/-! Property C118: `copy` with arguments of any type, on objects made with arguments of any type. -/

namespace Verif.Props
open Verif Spec Dyn

/-- The two values are used alike where a sequence is expected. -/
def SameSeq (a b : Val) : Prop := a.len = b.len ∧ a.iter = b.iter ∧ (a = .none ↔ b = .none)

theorem SameSeq.rfl {a : Val} : SameSeq a a := ⟨Eq.refl _, Eq.refl _, Iff.rfl⟩

theorem sameSeq_tuple {a : Val} {l : List Val} (h : a.iter = .ok l) : SameSeq (.tuple l) a := by
  refine ⟨?_, ?_, ?_⟩
  · rw [len_of_iter h]; rfl
  · rw [h]; rfl
  · constructor
    · intro e; cases e
    · rintro rfl; cases h

theorem SameSeq.keep {a b : Val} (h : SameSeq a b) (x : Val) : SameSeq (keep x a) (keep x b) := by
  cases x <;> first | exact h | exact .rfl

/-- What an optional argument says: None is the default. -/
def argOr (arg attr : Val) : Val :=
  match arg with
  | .none => attr
  | v => v

theorem keep_eq : keep = argOr := by
  funext a b
  cases a <;> rfl

theorem allInstances_dcongr {c : Cls} {a b : Val} (h : SameSeq a b) : a.allInstances c = b.allInstances c := by
  unfold Val.allInstances; rw [h.2.1]

theorem addVector_dcongr {s : Bytes} {a b : Val} (h : SameSeq a b) : addVector s a = addVector s b := by
  unfold addVector; rw [h.1, h.2.1]

theorem witness_dcongr {a b : Val} (h : SameSeq a b) : witness a = witness b := by
  unfold witness; rw [allInstances_dcongr h, h.1, h.2.1]

theorem addWitnesses_dcongr {s : Bytes} {a b : Val} (h : SameSeq a b) : addWitnesses s a = addWitnesses s b := by
  have e : ∀ v : Val, v ≠ .none → addWitnesses s v = (do
      let ws ← v.iter
      let self ← Val.iaddAll s ws
      .ok (self, .tuple ws)) := by
    intro v hv; cases v <;> first | exact absurd (Eq.refl _) hv | exact Eq.refl _
  by_cases ha : a = .none
  · rw [ha, h.2.2.1 ha]
  · rw [e _ ha, e _ (fun hb => ha (h.2.2.2 hb)), h.2.1]

theorem checkWitnesses_dcongr {f i i' a b : Val} (h : SameSeq a b) (hi : SameSeq i i') : checkWitnesses f i a = checkWitnesses f i' b := by
  have e : ∀ i v : Val, v ≠ .none → checkWitnesses f i v = (do
      let n ← v.len
      if n ≠ 0 then do
        match f with
        | .none => .error .valueError
        | _ => do
          let ni ← i.len
          check (n = ni) .valueError
          v.allInstances .witness
      else .ok ()) := by
    intro i v hv; cases v <;> first | exact absurd (Eq.refl _) hv | exact Eq.refl _
  by_cases ha : a = .none
  · rw [ha, h.2.2.1 ha]; exact Eq.refl _
  · rw [e _ _ ha, e _ _ (fun hb => ha (h.2.2.2 hb)), h.1, allInstances_dcongr h, hi.1]

theorem tx_dcongr (E : Env) {v f i i' o o' w w' l : Val} (hi : SameSeq i i') (ho : SameSeq o o') (hw : SameSeq w w') :
    tx E v f i o w l = tx E v f i' o' w' l := by
  unfold tx
  simp only [checkWitnesses_dcongr hw hi, hi.1, ho.1, allInstances_dcongr hi, allInstances_dcongr ho, hi.2.1, ho.2.1, addWitnesses_dcongr hw]

/-- C118: the classes of tx/tx.py. An object that was made of some values is copied with others in their place: that is making it of them. -/
theorem C118_args (E E' : Env) :
    (∀ a b x y v, outpoint a b = .ok v → copyOutpoint v x y = outpoint (argOr x a) (argOr y b)) ∧
    (∀ a b c d x1 x2 x3 x4 v, txIn a b c d = .ok v → copyTxIn v x1 x2 x3 x4 = txIn (argOr x1 a) (argOr x2 b) (argOr x3 c) (argOr x4 d)) ∧
    (∀ a b x y v, txOut a b = .ok v → copyTxOut v x y = txOut (argOr x a) (argOr y b)) ∧
    (∀ a x v, witness a = .ok v → copyWitness v x = witness (argOr x a)) ∧
    (∀ a b c d e f x1 x2 x3 x4 x5 x6 v, tx E' a b c d e f = .ok v →
      copyTx E v x1 x2 x3 x4 x5 x6 = tx E (argOr x1 a) (argOr x2 b) (argOr x3 c) (argOr x4 d) (argOr x5 e) (argOr x6 f)) := by
  simp only [← keep_eq]
  refine ⟨?_, ?_, ?_, ?_, ?_⟩
  · intro a b x y v h
    obtain ⟨_, _, _, _, _, _, rfl⟩ := ((C114_outpoint a b).1 v).1 h; rfl
  · intro a b c d x1 x2 x3 x4 v h
    obtain ⟨_, _, _, _, _, _, _, _, _, _, _, _, _, _, _, _, _, rfl⟩ := ((C114_txIn a b c d).1 v).1 h; rfl
  · intro a b x y v h
    obtain ⟨_, _, _, _, _, _, rfl⟩ := ((C114_txOut a b).1 v).1 h; rfl
  · intro a x v h
    unfold witness at h
    simp only [bind_ok_iff] at h
    obtain ⟨_, _, _, _, _, _, l, hl, _, _, h⟩ := h
    cases h
    exact witness_dcongr (SameSeq.keep (sameSeq_tuple hl) x)
  · intro a b c d e f x1 x2 x3 x4 x5 x6 v h
    have h0 := h
    unfold tx at h
    simp only [bind_ok_iff] at h
    obtain ⟨_, _, _, _, _, _, _, _, _, _, _, _, _, _, _, _, _, _, _, _, _, _, _, _, ins, hi, _, _, _, _, outs, ho, _, _, ⟨self, wits⟩, hw, _, _, h⟩ := h
    have hw' : SameSeq wits e := by
      unfold addWitnesses at hw
      cases e <;> simp only [bind_ok_iff] at hw
      case none => cases hw; exact .rfl
      all_goals
        obtain ⟨ws, h1, _, _, h2⟩ := hw
        cases h2
        exact sameSeq_tuple h1
    have key := tx_dcongr E (v := keep x1 a) (f := keep x2 b) (l := keep x6 f) (SameSeq.keep (sameSeq_tuple hi) x3) (SameSeq.keep (sameSeq_tuple ho) x4)
      (SameSeq.keep hw' x5)
    rw [← key]
    cases b <;> simp only [bind_ok_iff] at h
    case none => cases h; rfl
    all_goals
      obtain ⟨_, _, h⟩ := h
      cases h; rfl

/-- C118: the Decred classes. -/
theorem C118_args_decred (net net' : Network) :
    (∀ a b c x y z v, dcrOutpoint net' a b c = .ok v → copyDcrOutpoint net v x y z = dcrOutpoint net (argOr x a) (argOr y b) (argOr z c)) ∧
    (∀ a b x y v, dcrTxIn net' a b = .ok v → copyDcrTxIn net v x y = dcrTxIn net (argOr x a) (argOr y b)) ∧
    (∀ a b c x y z v, dcrTxOut net' a b c = .ok v → copyDcrTxOut net v x y z = dcrTxOut net (argOr x a) (argOr y b) (argOr z c)) ∧
    (∀ a b c d e x1 x2 x3 x4 x5 v, dcrWitness net' a b c d e = .ok v →
      copyDcrWitness net v x1 x2 x3 x4 x5 = dcrWitness net (argOr x1 a) (argOr x2 b) (argOr x3 c) (argOr x4 d) (argOr x5 e)) ∧
    (∀ a b c d e f x1 x2 x3 x4 x5 x6 v, dcrTx net' a b c d e f = .ok v →
      copyDcrTx net v x1 x2 x3 x4 x5 x6 = dcrTx net (argOr x1 a) (argOr x2 b) (argOr x3 c) (argOr x4 d) (argOr x5 e) (argOr x6 f)) := by
  simp only [← keep_eq]
  refine ⟨?_, ?_, ?_, ?_, ?_⟩
  · intro a b c x y z v h
    obtain ⟨_, _, _, rfl⟩ := ((C117_outpoint net' a b c).1 v).1 h; rfl
  · intro a b x y v h
    obtain ⟨_, _, _, rfl⟩ := ((C117_txIn net' a b).1 v).1 h; rfl
  · intro a b c x y z v h
    obtain ⟨_, _, _, _, _, _, _, rfl⟩ := ((C117_txOut net' a b c).1 v).1 h; rfl
  · intro a b c d e x1 x2 x3 x4 x5 v h
    obtain ⟨_, _, _, _, _, _, _, _, _, _, _, _, _, rfl⟩ := ((C117_witness net' a b c d e).1 v).1 h; rfl
  · intro a b c d e f x1 x2 x3 x4 x5 x6 v h
    obtain ⟨_, _, _, _, _, _, _, _, _, _, _, rfl⟩ := ((C117_tx net' a b c d e f).1 v).1 h; rfl

/-! ### Zcash -/

theorem addJs_dcongr {s : Bytes} {a b p q : Val} (h : SameSeq a b) : addJs s a p q = addJs s b p q := by
  unfold addJs; rw [h.1, h.2.1]

theorem jsAttrs_dcongr (E : Env) {a b p q : Val} (h : SameSeq a b) : jsAttrs E a p q = jsAttrs E b p q := by
  unfold jsAttrs; rw [h.1, h.2.1]

theorem overwinterTx_dcongr (E : Env) {a a' b b' c d e e' f g : Val} (ha : SameSeq a a') (hb : SameSeq b b') (he : SameSeq e e') :
    overwinterTx E a b c d e f g = overwinterTx E a' b' c d e' f g := by
  unfold overwinterTx
  simp only [ha.1, ha.2.1, hb.2.1, he.1, allInstances_dcongr ha, allInstances_dcongr hb, allInstances_dcongr he, addVector_dcongr ha, addVector_dcongr hb,
    addJs_dcongr he, jsAttrs_dcongr E he]

theorem checkV1_dcongr {v : Nat} {a a' e e' : Val} (ha : SameSeq a a') (he : SameSeq e e') : checkV1 v a e = checkV1 v a' e' := by
  have k : ∀ a e : Val, e ≠ .none → checkV1 v a e = if v = 1 then (do
      let n ← e.len
      check (¬ n ≠ 0) .valueError
      let ni ← a.len
      check (ni ≠ 0) .valueError) else .ok () := by
    intro a e h; cases e <;> first | exact absurd (Eq.refl _) h | (unfold checkV1; rfl)
  by_cases h : e = .none
  · rw [h, he.2.2.1 h]; unfold checkV1; rw [ha.1]
  · rw [k _ _ h, k _ _ (fun h' => h (he.2.2.2 h')), ha.1, he.1]

theorem sproutTx_dcongr (E : Env) {v a a' b b' c e e' f g : Val} (ha : SameSeq a a') (hb : SameSeq b b') (he : SameSeq e e') :
    sproutTx E v a b c e f g = sproutTx E v a' b' c e' f g := by
  unfold sproutTx checkV2 addSproutJs
  simp only [ha.2.1, hb.2.1, he.1, he.2.1, allInstances_dcongr ha, allInstances_dcongr hb, allInstances_dcongr he, addVector_dcongr ha, addVector_dcongr hb,
    addVector_dcongr he, checkV1_dcongr ha he]

theorem saplingTx_dcongr (E : Env) {a a' b b' c d v s s' o o' e e' f g k : Val} (ha : SameSeq a a') (hb : SameSeq b b') (hs : SameSeq s s')
    (ho : SameSeq o o') (he : SameSeq e e') : saplingTx E a b c d v s o e f g k = saplingTx E a' b' c d v s' o' e' f g k := by
  unfold saplingTx checkBalance addBinding
  simp only [ha.1, ha.2.1, hb.2.1, hs.1, hs.2.1, ho.1, ho.2.1, he.1, allInstances_dcongr ha, allInstances_dcongr hb, allInstances_dcongr hs, allInstances_dcongr ho,
    allInstances_dcongr he, addVector_dcongr ha, addVector_dcongr hb, addVector_dcongr hs, addVector_dcongr ho, addJs_dcongr he, jsAttrs_dcongr E he]

/-- `x`, or None if there is nothing it is for. -/
def unlessNil (l : List Val) (x : Val) : Val := if l = [] then .none else x

/-- The attributes about joinsplits: the key and the signature are forgotten if there are no joinsplits. -/
theorem jsAttrs_shape {E : Env} {e f g : Val} {r l : List Val} (h : jsAttrs E e f g = .ok r) (hl : e.iter = .ok l) :
    ∃ hs ps, r = [.tuple l, unlessNil l f, unlessNil l g, hs, ps] := by
  unfold jsAttrs at h
  rw [len_of_iter hl, hl] at h
  simp only [ok_bind] at h
  cases l with
  | nil =>
    cases h
    exact ⟨_, _, rfl⟩
  | cons x l =>
    rw [if_pos (by simp)] at h
    obtain ⟨⟨hs, ps⟩, -, h⟩ := bind_ok_iff.1 h
    cases h
    exact ⟨_, _, rfl⟩

/-- C118: the transactions of Zcash. Keys and signatures that the transaction had no use for are forgotten; everything else is as it was given. -/
theorem C118_args_zcash (E E' : Env) :
    (∀ a b c d e f g x1 x2 x3 x4 x5 x6 x7 v, sproutTx E' a b c d e f g = .ok v → ∃ ba, Byteslike a ba ∧ copySprout E v x1 x2 x3 x4 x5 x6 x7 =
      sproutTx E (argOr x1 a) (argOr x2 b) (argOr x3 c) (argOr x4 d) (argOr x5 e) (argOr x6 (if ba = [2, 0, 0, 0] then f else .none))
        (argOr x7 (if ba = [2, 0, 0, 0] then g else .none))) ∧
    (∀ a b c d e f g x1 x2 x3 x4 x5 x6 x7 v, overwinterTx E' a b c d e f g = .ok v → ∃ l, e.iter = .ok l ∧ copyOverwinter E v x1 x2 x3 x4 x5 x6 x7 =
      overwinterTx E (argOr x1 a) (argOr x2 b) (argOr x3 c) (argOr x4 d) (argOr x5 e) (argOr x6 (unlessNil l f)) (argOr x7 (unlessNil l g))) ∧
    (∀ a b c d w s o e f g k x1 x2 x3 x4 x5 x6 x7 x8 x9 x10 x11 v, saplingTx E' a b c d w s o e f g k = .ok v →
      ∃ ls lo l, s.iter = .ok ls ∧ o.iter = .ok lo ∧ e.iter = .ok l ∧ copySapling E v x1 x2 x3 x4 x5 x6 x7 x8 x9 x10 x11 =
      saplingTx E (argOr x1 a) (argOr x2 b) (argOr x3 c) (argOr x4 d) (argOr x5 w) (argOr x6 s) (argOr x7 o) (argOr x8 e) (argOr x9 (unlessNil l f))
        (argOr x10 (unlessNil l g)) (argOr x11 (unlessNil (ls ++ lo) k))) := by
  simp only [← keep_eq]
  refine ⟨?_, ?_, ?_⟩
  · intro a b c d e f g x1 x2 x3 x4 x5 x6 x7 v h
    unfold sproutTx at h
    simp only [bind_ok_iff] at h
    obtain ⟨_, _, _, _, _, hv, _, _, _, _, _, _, _, _, _, _, _, _, _, _, _, _, _, _, _, _, _, _, two, h2, _, _, ins, hi, outs, ho, l, hl, r, hr, _, _, h⟩ := h
    obtain ⟨ba, hba, _⟩ := validate_ok.1 hv
    have e2 : two = [2, 0, 0, 0] := by
      have : i2lePadded 2 4 = .ok [2, 0, 0, 0] := rfl
      rw [this] at h2; cases h2; rfl
    have hr' : ∃ hs ps, r = [if ba = [2, 0, 0, 0] then f else .none, if ba = [2, 0, 0, 0] then g else .none, hs, ps] := by
      unfold sproutJsAttrs at hr
      rw [neBytes_content hba, e2] at hr
      by_cases hb : ba = [2, 0, 0, 0]
      · rw [if_pos (by simp [hb])] at hr
        obtain ⟨⟨hs, ps⟩, -, h⟩ := bind_ok_iff.1 hr
        cases h
        exact ⟨_, _, by rw [if_pos hb, if_pos hb]⟩
      · rw [if_neg (by simp [hb])] at hr
        cases hr
        exact ⟨_, _, by rw [if_neg hb, if_neg hb]⟩
    obtain ⟨hs, ps, rfl⟩ := hr'
    refine ⟨ba, hba, ?_⟩
    cases h
    exact sproutTx_dcongr E (.keep (sameSeq_tuple hi) _) (.keep (sameSeq_tuple ho) _) (.keep (sameSeq_tuple hl) _)
  · intro a b c d e f g x1 x2 x3 x4 x5 x6 x7 v h
    unfold overwinterTx at h
    simp only [bind_ok_iff, allInstances_ok] at h
    obtain ⟨_, _, _, _, _, _, _, _, _, _, _, _, _, _, _, _, _, _, _, _, _, ⟨l, hl, _⟩, _, _, _, _, _, _, _, _, _, _, _, _, _, _, _, _, ins, hi, outs, ho, r, hr, _, _, h⟩ := h
    obtain ⟨hs, ps, rfl⟩ := jsAttrs_shape hr hl
    refine ⟨l, hl, ?_⟩
    cases h
    exact overwinterTx_dcongr E (.keep (sameSeq_tuple hi) _) (.keep (sameSeq_tuple ho) _) (.keep (sameSeq_tuple hl) _)
  · intro a b c d w s o e f g k x1 x2 x3 x4 x5 x6 x7 x8 x9 x10 x11 v h
    unfold saplingTx at h
    simp only [bind_ok_iff, allInstances_ok] at h
    obtain ⟨_, _, _, _, _, _, _, _, _, _, _, _, _, _, _, _, _, _, _, _, _, _, _, _, _, ⟨ls, hls, _⟩, _, ⟨lo, hlo, _⟩, _, ⟨l, hl, _⟩, _, _, _, _, _, _, _, _, _, _, _, _,
      _, _, _, _, _, _, _, _, _, _, _, _, ⟨_, bg⟩, hbg, ins, hi, outs, ho, ss, hss, so, hso, r, hr, _, _, h⟩ := h
    rw [hls] at hss; cases hss
    rw [hlo] at hso; cases hso
    have hbg' : bg = unlessNil (ls ++ lo) k := by
      unfold addBinding at hbg
      rw [len_of_iter hlo, len_of_iter hls] at hbg
      simp only [ok_bind] at hbg
      by_cases hn : ls ++ lo = []
      · obtain ⟨rfl, rfl⟩ := List.append_eq_nil_iff.1 hn
        cases hbg; rfl
      · have : lo.length + ls.length ≠ 0 := by
          intro h0
          apply hn
          rw [List.eq_nil_of_length_eq_zero (show lo.length = 0 by omega), List.eq_nil_of_length_eq_zero (show ls.length = 0 by omega)]
          rfl
        rw [if_pos this] at hbg
        obtain ⟨_, -, h⟩ := bind_ok_iff.1 hbg
        cases h
        unfold unlessNil; rw [if_neg hn]
    subst hbg'
    obtain ⟨hs, ps, rfl⟩ := jsAttrs_shape hr hl
    refine ⟨ls, lo, l, hls, hlo, hl, ?_⟩
    cases h
    exact saplingTx_dcongr E (.keep (sameSeq_tuple hi) _) (.keep (sameSeq_tuple ho) _) (.keep (sameSeq_tuple hls) _) (.keep (sameSeq_tuple hlo) _)
      (.keep (sameSeq_tuple hl) _)

theorem over_keys_dyn (E : Env) {a b c d e : Val} (f g f' g' : Val) (h : e.iter = .ok []) : overwinterTx E a b c d e f g = overwinterTx E a b c d e f' g' := by
  unfold overwinterTx checkJsSig addJs jsAttrs
  simp only [len_of_iter h, ok_bind, List.length_nil, ne_eq, not_true, if_false]

theorem sap_keys_dyn (E : Env) {a b c d w s o e k : Val} (f g f' g' : Val) (h : e.iter = .ok []) :
    saplingTx E a b c d w s o e f g k = saplingTx E a b c d w s o e f' g' k := by
  unfold saplingTx checkJsSig addJs jsAttrs
  simp only [len_of_iter h, ok_bind, List.length_nil, ne_eq, not_true, if_false]

theorem sap_binding_dyn (E : Env) {a b c d w s o e f g k v : Val} (hs : s.iter = .ok []) (ho : o.iter = .ok []) (h : saplingTx E a b c d w s o e f g k = .ok v) :
    saplingTx E a b c d w s o e f g .none = .ok v := by
  have hb : checkBalance w s o k = .ok () := by
    unfold saplingTx at h
    simp only [bind_ok_iff] at h
    obtain ⟨_, _, _, _, _, _, _, _, _, _, _, _, _, _, _, hb, _⟩ := h
    exact hb
  have hb' : checkBalance w s o .none = .ok () := by
    unfold checkBalance at hb ⊢
    simp only [len_of_iter hs, len_of_iter ho, ok_bind] at hb ⊢
    split at hb
    · cases hb
    · rename_i hc; rw [if_neg hc]
  rw [← h]
  unfold saplingTx addBinding
  rw [hb, hb']
  simp only [len_of_iter hs, len_of_iter ho, ok_bind, List.length_nil, Nat.add_zero, ne_eq, not_true, if_false]

theorem sprout_keys_dyn (E : Env) {a b c d e : Val} (f g f' g' : Val) {ba : Bytes} (ha : Byteslike a ba) (hl : ba ≠ [2, 0, 0, 0]) :
    sproutTx E a b c d e f g = sproutTx E a b c d e f' g' := by
  have two : i2lePadded 2 4 = .ok [2, 0, 0, 0] := rfl
  by_cases h4 : ba.length = 4
  · have hv : leValue ba ≠ 2 := fun h => hl ((le2i_eq_two h4).1 (by rw [le2i, leToNat_eq_leValue]; exact h))
    unfold sproutTx checkV2 addSproutJs sproutJsAttrs
    simp only [le2i_content ha, ok_bind, if_neg hv, two, neBytes_content ha, hl, decide_false, Bool.false_eq_true, if_false]
  · have : a.validate (some 4) = .error .valueError := by
      rcases validate_cases a (some 4) with ⟨x, hx, hl, _⟩ | ⟨_, e⟩
      · cases ha.symm.trans hx
        exact absurd (hl _ rfl) h4
      · exact e
    unfold sproutTx
    simp only [this, error_bind]

/-- C118: a copy without arguments of an object, of whatever values it was made, is the same object: class, attributes and bytes. It never raises. -/
theorem C118_same (E : Env) (v : Val) (h : Made E v) :
    (v.isInstance .outpoint = true → copyOutpoint v .none .none = .ok v) ∧
    (v.isInstance .txIn = true → copyTxIn v .none .none .none .none = .ok v) ∧
    (v.isInstance .txOut = true → copyTxOut v .none .none = .ok v) ∧
    (v.isInstance .witness = true → copyWitness v .none = .ok v) ∧
    (v.isInstance .tx = true → copyTx E v .none .none .none .none .none .none = .ok v) ∧
    (v.isInstance .dcrOutpoint = true → copyDcrOutpoint E.net v .none .none .none = .ok v) ∧
    (v.isInstance .dcrTxIn = true → copyDcrTxIn E.net v .none .none = .ok v) ∧
    (v.isInstance .dcrTxOut = true → copyDcrTxOut E.net v .none .none .none = .ok v) ∧
    (v.isInstance .dcrWitness = true → copyDcrWitness E.net v .none .none .none .none .none = .ok v) ∧
    (v.isInstance .dcrTx = true → copyDcrTx E.net v .none .none .none .none .none .none = .ok v) ∧
    (v.isInstance .sproutTx = true → copySprout E v .none .none .none .none .none .none .none = .ok v) ∧
    (v.isInstance .overwinterTx = true → copyOverwinter E v .none .none .none .none .none .none .none = .ok v) ∧
    (v.isInstance .saplingTx = true → copySapling E v .none .none .none .none .none .none .none .none .none .none .none = .ok v) := by
  have inv : ∀ c, v.isInstance c = true → MadeBy (Made E) E v c := by
    intro c hc
    cases v <;> simp [Val.isInstance] at hc
    subst hc
    exact made_inv h
  obtain ⟨k1, k2, k3, k4, k5⟩ := C118_args E E
  obtain ⟨d1, d2, d3, d4, d5⟩ := C118_args_decred E.net E.net
  obtain ⟨z1, z2, z3⟩ := C118_args_zcash E E
  refine ⟨?_, ?_, ?_, ?_, ?_, ?_, ?_, ?_, ?_, ?_, ?_, ?_, ?_⟩
  · intro hc
    obtain ⟨_, _, g⟩ := inv _ hc
    exact (k1 _ _ _ _ _ g).trans g
  · intro hc
    obtain ⟨_, _, _, _, g⟩ := inv _ hc
    exact (k2 _ _ _ _ _ _ _ _ _ g).trans g
  · intro hc
    obtain ⟨_, _, g⟩ := inv _ hc
    exact (k3 _ _ _ _ _ g).trans g
  · intro hc
    obtain ⟨_, _, g⟩ := inv _ hc
    exact (k4 _ _ _ g).trans g
  · intro hc
    obtain ⟨_, _, _, _, _, _, _, _, _, g⟩ := inv _ hc
    exact (k5 _ _ _ _ _ _ _ _ _ _ _ _ _ g).trans g
  · intro hc
    obtain ⟨_, _, _, g⟩ := inv _ hc
    exact (d1 _ _ _ _ _ _ _ g).trans g
  · intro hc
    obtain ⟨_, _, g⟩ := inv _ hc
    exact (d2 _ _ _ _ _ g).trans g
  · intro hc
    obtain ⟨_, _, _, g⟩ := inv _ hc
    exact (d3 _ _ _ _ _ _ _ g).trans g
  · intro hc
    obtain ⟨_, _, _, _, _, g⟩ := inv _ hc
    exact (d4 _ _ _ _ _ _ _ _ _ _ _ g).trans g
  · intro hc
    obtain ⟨_, _, _, _, _, _, _, _, _, g⟩ := inv _ hc
    exact (d5 _ _ _ _ _ _ _ _ _ _ _ _ _ g).trans g
  · intro hc
    obtain ⟨a, b, c, d, e, f, g, _, _, _, gg⟩ := inv _ hc
    obtain ⟨ba, hba, hz⟩ := z1 _ _ _ _ _ _ _ .none .none .none .none .none .none .none _ gg
    rw [hz]
    by_cases hb : ba = [2, 0, 0, 0]
    · rw [if_pos hb, if_pos hb]; exact gg
    · rw [if_neg hb, if_neg hb]; exact (sprout_keys_dyn E _ _ _ _ hba hb).trans gg
  · intro hc
    obtain ⟨a, b, c, d, e, f, g, _, _, _, gg⟩ := inv _ hc
    obtain ⟨l, hl, hz⟩ := z2 _ _ _ _ _ _ _ .none .none .none .none .none .none .none _ gg
    rw [hz]
    by_cases hb : l = []
    · subst hb; exact (over_keys_dyn E _ _ _ _ hl).trans gg
    · unfold unlessNil; rw [if_neg hb, if_neg hb]; exact gg
  · intro hc
    obtain ⟨a, b, c, d, w, s, o, e, f, g, k, _, _, _, _, _, gg⟩ := inv _ hc
    obtain ⟨ls, lo, l, hs, ho, hl, hz⟩ := z3 _ _ _ _ _ _ _ _ _ _ _ .none .none .none .none .none .none .none .none .none .none .none _ gg
    rw [hz]
    have e1 : saplingTx E a b c d w s o e (unlessNil l f) (unlessNil l g) k = .ok v := by
      by_cases hb : l = []
      · subst hb; exact (sap_keys_dyn E _ _ _ _ hl).trans gg
      · unfold unlessNil; rw [if_neg hb, if_neg hb]; exact gg
    by_cases hb : ls ++ lo = []
    · obtain ⟨rfl, rfl⟩ := List.append_eq_nil_iff.1 hb
      exact sap_binding_dyn E hs ho e1
    · show saplingTx E a b c d w s o e (unlessNil l f) (unlessNil l g) (unlessNil (ls ++ lo) k) = .ok v
      rw [show unlessNil (ls ++ lo) k = k by unfold unlessNil; rw [if_neg hb]]
      exact e1

end Verif.Props
