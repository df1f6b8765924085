import Verif.Props.DynParseMade
import Verif.Props.DynCopy2

/-! Property C125, lemmas: the attributes of an object that a program made are values that it can have. -/

namespace Verif.Props
open Verif Spec Dyn

/-- What the call returns, if it returns, is an object whose attributes satisfy `P`, or no object. -/
def AttrsAre (P : Val → Prop) (p : Py Val) : Prop := ∀ c t b, p = .ok (.obj c t b) → ∀ x ∈ t, P x

variable {P : Val → Prop}

theorem AttrsAre.bind {α : Type} {p : Py α} {k : α → Py Val} (h : ∀ a, p = .ok a → AttrsAre P (k a)) : AttrsAre P (p >>= k) := by
  intro c t b e
  obtain ⟨a, ha, hk⟩ := (bind_ok_iff ..).1 e
  exact h a ha c t b hk

theorem AttrsAre.ok {c : Cls} {t : List Val} {b : Bytes} (h : ∀ x ∈ t, P x) : AttrsAre P (.ok (.obj c t b)) := by
  intro c' t' b' e
  have e := Val.obj.inj (Except.ok.inj e)
  rw [← e.2.1]; exact h

theorem all_nil : ∀ x ∈ ([] : List Val), P x := fun _ h => nomatch h

theorem all_cons {a : Val} {l : List Val} (ha : P a) (hl : ∀ x ∈ l, P x) : ∀ x ∈ a :: l, P x := by
  intro x hx
  rcases List.mem_cons.1 hx with rfl | h
  · exact ha
  · exact hl x h

theorem all_append {l m : List Val} (hl : ∀ x ∈ l, P x) (hm : ∀ x ∈ m, P x) : ∀ x ∈ l ++ m, P x := by
  intro x hx
  rcases List.mem_append.1 hx with h | h
  · exact hl x h
  · exact hm x h

variable {S : Network → Prop} {E : Env}

theorem made_bs (l : List Bytes) : MadeOn S E (.tuple (l.map .bytes)) := by
  refine .tuple _ fun x hx => ?_
  obtain ⟨b, -, rfl⟩ := List.mem_map.1 hx
  exact .bytes b

theorem made_add {a b v : Val} (h : Val.add a b = .ok v) : MadeOn S E v := by
  unfold Val.add at h
  split at h <;> cases h
  · exact .bytes _
  · exact .bytes _
  · exact .bytearray _
  · exact .bytearray _

theorem attrs_outpoint {a b : Val} (ha : MadeOn S E a) (hb : MadeOn S E b) : AttrsAre (MadeOn S E) (Dyn.outpoint a b) :=
  .bind fun _ _ => .bind fun _ _ => .bind fun _ _ => .bind fun _ _ => .ok (all_cons ha (all_cons hb all_nil))

theorem attrs_txIn {a b c d : Val} (ha : MadeOn S E a) (hb : MadeOn S E b) (hc : MadeOn S E c) (hd : MadeOn S E d) : AttrsAre (MadeOn S E) (Dyn.txIn a b c d) := by
  unfold Dyn.txIn
  iterate 12 refine .bind fun _ _ => ?_
  refine .bind fun x hx => ?_
  exact .ok (all_cons ha (all_cons hb (all_cons hc (all_cons (made_add hx) (all_cons hd all_nil)))))

theorem attrs_txOut {a b : Val} (ha : MadeOn S E a) (hb : MadeOn S E b) : AttrsAre (MadeOn S E) (Dyn.txOut a b) := by
  unfold Dyn.txOut
  iterate 6 refine .bind fun _ _ => ?_
  exact .ok (all_cons ha (all_cons hb all_nil))

theorem attrs_item {a : Val} (ha : MadeOn S E a) : AttrsAre (MadeOn S E) (Dyn.item a) := by
  unfold Dyn.item
  iterate 4 refine .bind fun _ _ => ?_
  exact .ok (all_cons ha all_nil)

theorem attrs_witness {a : Val} (ha : MadeOn S E a) : AttrsAre (MadeOn S E) (Dyn.witness a) := by
  unfold Dyn.witness
  iterate 3 refine .bind fun _ _ => ?_
  refine .bind fun xs hx => .bind fun _ _ => ?_
  exact .ok (all_cons (.tuple _ (made_iter ha hx)) all_nil)

theorem made_addWitnesses {b b' : Bytes} {w v : Val} (hw : MadeOn S E w) (h : addWitnesses b w = .ok (b', v)) : MadeOn S E v := by
  unfold addWitnesses at h
  split at h
  · cases h; exact .none
  · obtain ⟨ws, hws, h⟩ := (bind_ok_iff ..).1 h
    obtain ⟨_, -, h⟩ := (bind_ok_iff ..).1 h
    cases h
    exact .tuple _ (made_iter hw hws)

theorem attrs_tx {E' : Env} {a b c d e f : Val} (ha : MadeOn S E a) (hb : MadeOn S E b) (hc : MadeOn S E c) (hd : MadeOn S E d) (he : MadeOn S E e) (hf : MadeOn S E f) :
    AttrsAre (MadeOn S E) (Dyn.tx E' a b c d e f) := by
  unfold Dyn.tx
  iterate 12 refine .bind fun _ _ => ?_
  refine .bind fun ins hi => .bind fun _ _ => .bind fun _ _ => .bind fun outs ho => .bind fun _ _ => .bind fun w hw => ?_
  obtain ⟨_, w⟩ := w
  refine .bind fun _ _ => ?_
  have mi := made_iter hc hi
  have mo := made_iter hd ho
  have mw := made_addWitnesses he hw
  split
  · exact .ok (all_cons ha (all_cons .none (all_cons (.tuple _ mi) (all_cons (.tuple _ mo) (all_cons mw (all_cons hf
      (all_cons (.bytes _) (all_cons .none (all_cons (.bytes _) (all_cons .none all_nil))))))))))
  · refine .bind fun _ _ => ?_
    exact .ok (all_cons ha (all_cons hb (all_cons (.tuple _ mi) (all_cons (.tuple _ mo) (all_cons mw (all_cons hf
      (all_cons (.bytes _) (all_cons (.bytes _) (all_cons (.bytes _) (all_cons (.bytes _) all_nil))))))))))

theorem made_hsigs {E' : Env} {js pk sg : Val} {t : List Val} (hj : MadeOn S E js) (hp : MadeOn S E pk) (hs : MadeOn S E sg) (h : jsAttrs E' js pk sg = .ok t) :
    ∀ x ∈ t, MadeOn S E x := by
  unfold jsAttrs at h
  obtain ⟨n, -, h⟩ := (bind_ok_iff ..).1 h
  split at h
  · obtain ⟨xs, hx, h⟩ := (bind_ok_iff ..).1 h
    obtain ⟨⟨hs', ps⟩, -, h⟩ := (bind_ok_iff ..).1 h
    cases h
    exact all_cons (.tuple _ (made_iter hj hx)) (all_cons hp (all_cons hs (all_cons (made_bs _) (all_cons (made_bs _) all_nil))))
  · cases h
    exact all_cons (.tuple _ all_nil) (all_cons .none (all_cons .none (all_cons (.tuple _ all_nil) (all_cons (.tuple _ all_nil) all_nil))))

theorem made_sproutAttrs {E' : Env} {isV2 : Bool} {js : List Val} {pk sg : Val} {t : List Val} (hp : MadeOn S E pk) (hs : MadeOn S E sg)
    (h : sproutJsAttrs E' isV2 js pk sg = .ok t) : ∀ x ∈ t, MadeOn S E x := by
  unfold sproutJsAttrs at h
  split at h
  · obtain ⟨⟨hs', ps⟩, -, h⟩ := (bind_ok_iff ..).1 h
    cases h
    exact all_cons hp (all_cons hs (all_cons (made_bs _) (all_cons (made_bs _) all_nil)))
  · cases h
    exact all_cons .none (all_cons .none (all_cons (.tuple _ all_nil) (all_cons (.tuple _ all_nil) all_nil)))

theorem made_binding {self self' : Bytes} {ss so bg v : Val} (hb : MadeOn S E bg) (h : addBinding self ss so bg = .ok (self', v)) : MadeOn S E v := by
  unfold addBinding at h
  obtain ⟨n, -, h⟩ := (bind_ok_iff ..).1 h
  obtain ⟨m, -, h⟩ := (bind_ok_iff ..).1 h
  split at h
  · obtain ⟨_, -, h⟩ := (bind_ok_iff ..).1 h
    cases h; exact hb
  · cases h; exact .none

theorem attrs_sproutProof {n : Network} {a b c d e f g h : Val} (ha : MadeOn S E a) (hb : MadeOn S E b) (hc : MadeOn S E c) (hd : MadeOn S E d) (he : MadeOn S E e)
    (hf : MadeOn S E f) (hg : MadeOn S E g) (hh : MadeOn S E h) : AttrsAre (MadeOn S E) (Dyn.sproutProof n a b c d e f g h) := by
  unfold Dyn.sproutProof
  iterate 3 refine .bind fun _ _ => ?_
  exact .ok (all_cons ha (all_cons hb (all_cons hc (all_cons hd (all_cons he (all_cons hf (all_cons hg (all_cons hh all_nil))))))))

theorem attrs_saplingProof {n : Network} {a b c : Val} (ha : MadeOn S E a) (hb : MadeOn S E b) (hc : MadeOn S E c) :
    AttrsAre (MadeOn S E) (Dyn.saplingProof n a b c) := by
  unfold Dyn.saplingProof
  iterate 3 refine .bind fun _ _ => ?_
  exact .ok (all_cons ha (all_cons hb (all_cons hc all_nil)))

theorem attrs_js {cls proof : Cls} {n : Network} {a b c d e f g h i j : Val} (ha : MadeOn S E a) (hb : MadeOn S E b) (hc : MadeOn S E c) (hd : MadeOn S E d)
    (he : MadeOn S E e) (hf : MadeOn S E f) (hg : MadeOn S E g) (hh : MadeOn S E h) (hi : MadeOn S E i) (hj : MadeOn S E j) :
    AttrsAre (MadeOn S E) (Dyn.joinsplit cls proof n a b c d e f g h i j) := by
  unfold Dyn.joinsplit
  iterate 5 refine .bind fun _ _ => ?_
  exact .ok (all_cons ha (all_cons hb (all_cons hc (all_cons hd (all_cons he (all_cons hf (all_cons hg (all_cons hh (all_cons hi (all_cons hj all_nil))))))))))

theorem attrs_spend {n : Network} {a b c d e f : Val} (ha : MadeOn S E a) (hb : MadeOn S E b) (hc : MadeOn S E c) (hd : MadeOn S E d) (he : MadeOn S E e) (hf : MadeOn S E f) :
    AttrsAre (MadeOn S E) (Dyn.saplingSpend n a b c d e f) := by
  unfold Dyn.saplingSpend
  iterate 4 refine .bind fun _ _ => ?_
  exact .ok (all_cons ha (all_cons hb (all_cons hc (all_cons hd (all_cons he (all_cons hf all_nil))))))

theorem attrs_output {n : Network} {a b c d e f : Val} (ha : MadeOn S E a) (hb : MadeOn S E b) (hc : MadeOn S E c) (hd : MadeOn S E d) (he : MadeOn S E e) (hf : MadeOn S E f) :
    AttrsAre (MadeOn S E) (Dyn.saplingOutput n a b c d e f) := by
  unfold Dyn.saplingOutput
  iterate 4 refine .bind fun _ _ => ?_
  exact .ok (all_cons ha (all_cons hb (all_cons hc (all_cons hd (all_cons he (all_cons hf all_nil))))))

theorem attrs_sproutTx {E' : Env} {a b c d e f g : Val} (ha : MadeOn S E a) (hb : MadeOn S E b) (hc : MadeOn S E c) (hd : MadeOn S E d) (he : MadeOn S E e) (hf : MadeOn S E f)
    (hg : MadeOn S E g) : AttrsAre (MadeOn S E) (Dyn.sproutTx E' a b c d e f g) := by
  unfold Dyn.sproutTx
  iterate 16 refine .bind fun _ _ => ?_
  refine .bind fun ins hi => .bind fun outs ho => .bind fun js hj => .bind fun rest hr => .bind fun _ _ => ?_
  exact .ok (all_append (all_append (all_cons ha (all_cons (.tuple _ (made_iter hb hi)) (all_cons (.tuple _ (made_iter hc ho)) (all_cons (.tuple _ (made_iter he hj))
    (all_cons hd all_nil))))) (made_sproutAttrs hf hg hr)) (all_cons (.bytes _) (all_cons (.bytes _) all_nil)))

theorem attrs_overwinterTx {E' : Env} {a b c d e f g : Val} (ha : MadeOn S E a) (hb : MadeOn S E b) (hc : MadeOn S E c) (hd : MadeOn S E d) (he : MadeOn S E e)
    (hf : MadeOn S E f) (hg : MadeOn S E g) : AttrsAre (MadeOn S E) (Dyn.overwinterTx E' a b c d e f g) := by
  unfold Dyn.overwinterTx
  iterate 19 refine .bind fun _ _ => ?_
  refine .bind fun ins hi => .bind fun outs ho => .bind fun js hj => .bind fun _ _ => ?_
  exact .ok (all_append (all_append (all_cons (.tuple _ (made_iter ha hi)) (all_cons (.tuple _ (made_iter hb ho)) (all_cons hc (all_cons hd all_nil)))) (made_hsigs he hf hg hj))
    (all_cons (.bytes _) (all_cons (.bytes _) all_nil)))

theorem attrs_saplingTx {E' : Env} {a b c d e f g h i j k : Val} (ha : MadeOn S E a) (hb : MadeOn S E b) (hc : MadeOn S E c) (hd : MadeOn S E d) (he : MadeOn S E e)
    (hf : MadeOn S E f) (hg : MadeOn S E g) (hh : MadeOn S E h) (hi : MadeOn S E i) (hj : MadeOn S E j) (hk : MadeOn S E k) :
    AttrsAre (MadeOn S E) (Dyn.saplingTx E' a b c d e f g h i j k) := by
  unfold Dyn.saplingTx
  iterate 27 refine .bind fun _ _ => ?_
  refine .bind fun bg hbg => ?_
  obtain ⟨_, bg⟩ := bg
  refine .bind fun ins h1 => .bind fun outs h2 => .bind fun ss h3 => .bind fun so h4 => .bind fun js h5 => .bind fun _ _ => ?_
  exact .ok (all_append (all_append (all_cons (made_binding hk hbg) (all_cons (.tuple _ (made_iter ha h1)) (all_cons (.tuple _ (made_iter hb h2)) (all_cons hc (all_cons hd (all_cons he
    (all_cons (.tuple _ (made_iter hf h3)) (all_cons (.tuple _ (made_iter hg h4)) all_nil)))))))) (made_hsigs hh hi hj h5))
    (all_cons (.bytes _) (all_cons (.bytes _) all_nil)))

theorem attrs_dcrOutpoint {n : Network} {a b c : Val} (ha : MadeOn S E a) (hb : MadeOn S E b) (hc : MadeOn S E c) : AttrsAre (MadeOn S E) (Dyn.dcrOutpoint n a b c) := by
  unfold Dyn.dcrOutpoint
  iterate 3 refine .bind fun _ _ => ?_
  exact .ok (all_cons ha (all_cons hb (all_cons hc all_nil)))

theorem attrs_dcrTxIn {n : Network} {a b : Val} (ha : MadeOn S E a) (hb : MadeOn S E b) : AttrsAre (MadeOn S E) (Dyn.dcrTxIn n a b) := by
  unfold Dyn.dcrTxIn
  iterate 3 refine .bind fun _ _ => ?_
  exact .ok (all_cons ha (all_cons hb all_nil))

theorem attrs_dcrTxOut {n : Network} {a b c : Val} (ha : MadeOn S E a) (hb : MadeOn S E b) (hc : MadeOn S E c) : AttrsAre (MadeOn S E) (Dyn.dcrTxOut n a b c) := by
  unfold Dyn.dcrTxOut
  iterate 7 refine .bind fun _ _ => ?_
  exact .ok (all_cons ha (all_cons hb (all_cons (.int _) (all_cons hc all_nil))))

theorem attrs_dcrWitness {n : Network} {a b c d e : Val} (ha : MadeOn S E a) (hb : MadeOn S E b) (hc : MadeOn S E c) (hd : MadeOn S E d) (he : MadeOn S E e) :
    AttrsAre (MadeOn S E) (Dyn.dcrWitness n a b c d e) := by
  unfold Dyn.dcrWitness
  iterate 10 refine .bind fun _ _ => ?_
  refine .bind fun s hs => .bind fun _ _ => ?_
  exact .ok (all_cons ha (all_cons hb (all_cons hc (all_cons (.int _) (all_cons hd (all_cons he (all_cons (made_add hs) all_nil)))))))

theorem attrs_dcrTx {n : Network} {a b c d e f : Val} (ha : MadeOn S E a) (hb : MadeOn S E b) (hc : MadeOn S E c) (hd : MadeOn S E d) (he : MadeOn S E e) (hf : MadeOn S E f) :
    AttrsAre (MadeOn S E) (Dyn.dcrTx n a b c d e f) := by
  unfold Dyn.dcrTx
  iterate 16 refine .bind fun _ _ => ?_
  exact .ok (all_cons ha (all_cons hb (all_cons hc (all_cons hd (all_cons he (all_cons hf (all_cons (.bytes _) (all_cons (.bytes _) all_nil))))))))

/-- The attributes of an object that a program made are values that it can have. -/
theorem made_attrs {c : Cls} {t : List Val} {b : Bytes} (h : MadeOn S E (.obj c t b)) : ∀ x ∈ t, MadeOn S E x := by
  generalize hv : Val.obj c t b = v at h
  cases h with
  | outpoint _ _ _ h0 h1 h => subst hv; exact attrs_outpoint h0 h1 _ _ _ h
  | txIn _ _ _ _ _ h0 h1 h2 h3 h => subst hv; exact attrs_txIn h0 h1 h2 h3 _ _ _ h
  | txOut _ _ _ h0 h1 h => subst hv; exact attrs_txOut h0 h1 _ _ _ h
  | item _ _ h0 h => subst hv; exact attrs_item h0 _ _ _ h
  | witness _ _ h0 h => subst hv; exact attrs_witness h0 _ _ _ h
  | txOn n _ _ _ _ _ _ _ hn h0 h1 h2 h3 h4 h5 h => subst hv; exact attrs_tx h0 h1 h2 h3 h4 h5 _ _ _ h
  | sproutProofOn n _ _ _ _ _ _ _ _ _ hn h0 h1 h2 h3 h4 h5 h6 h7 h => subst hv; exact attrs_sproutProof h0 h1 h2 h3 h4 h5 h6 h7 _ _ _ h
  | saplingProofOn n _ _ _ _ hn h0 h1 h2 h => subst hv; exact attrs_saplingProof h0 h1 h2 _ _ _ h
  | sproutJsOn n _ _ _ _ _ _ _ _ _ _ _ hn h0 h1 h2 h3 h4 h5 h6 h7 h8 h9 h => subst hv; exact attrs_js h0 h1 h2 h3 h4 h5 h6 h7 h8 h9 _ _ _ h
  | saplingJsOn n _ _ _ _ _ _ _ _ _ _ _ hn h0 h1 h2 h3 h4 h5 h6 h7 h8 h9 h => subst hv; exact attrs_js h0 h1 h2 h3 h4 h5 h6 h7 h8 h9 _ _ _ h
  | saplingSpendOn n _ _ _ _ _ _ _ hn h0 h1 h2 h3 h4 h5 h => subst hv; exact attrs_spend h0 h1 h2 h3 h4 h5 _ _ _ h
  | saplingOutputOn n _ _ _ _ _ _ _ hn h0 h1 h2 h3 h4 h5 h => subst hv; exact attrs_output h0 h1 h2 h3 h4 h5 _ _ _ h
  | sproutTxOn n _ _ _ _ _ _ _ _ hn h0 h1 h2 h3 h4 h5 h6 h => subst hv; exact attrs_sproutTx h0 h1 h2 h3 h4 h5 h6 _ _ _ h
  | overwinterTxOn n _ _ _ _ _ _ _ _ hn h0 h1 h2 h3 h4 h5 h6 h => subst hv; exact attrs_overwinterTx h0 h1 h2 h3 h4 h5 h6 _ _ _ h
  | saplingTxOn n _ _ _ _ _ _ _ _ _ _ _ _ hn h0 h1 h2 h3 h4 h5 h6 h7 h8 h9 h10 h => subst hv; exact attrs_saplingTx h0 h1 h2 h3 h4 h5 h6 h7 h8 h9 h10 _ _ _ h
  | dcrOutpointOn n _ _ _ _ hn h0 h1 h2 h => subst hv; exact attrs_dcrOutpoint h0 h1 h2 _ _ _ h
  | dcrTxInOn n _ _ _ hn h0 h1 h => subst hv; exact attrs_dcrTxIn h0 h1 _ _ _ h
  | dcrTxOutOn n _ _ _ _ hn h0 h1 h2 h => subst hv; exact attrs_dcrTxOut h0 h1 h2 _ _ _ h
  | dcrWitnessOn n _ _ _ _ _ _ hn h0 h1 h2 h3 h4 h => subst hv; exact attrs_dcrWitness h0 h1 h2 h3 h4 _ _ _ h
  | dcrTxOn n _ _ _ _ _ _ _ hn h0 h1 h2 h3 h4 h5 h => subst hv; exact attrs_dcrTx h0 h1 h2 h3 h4 h5 _ _ _ h
  | other b => cases hv; exact all_nil
  | _ => cases hv

end Verif.Props
