import Verif.Props.DynAttrs
import Verif.Props.DynZSafe

/-! Property C130, lemmas: objects whose attributes may have been changed since the constructor made them. -/

namespace Verif.Props
open Verif Spec Dyn

/-- Where the ids begin among the attributes of an object of the class; the classes that have none have at most ten attributes. -/
def idAt : Cls → Nat
  | .tx => 6
  | .overwinterTx => 9
  | .saplingTx => 13
  | .sproutTx => 9
  | .dcrTx => 6
  | _ => 10

/-- A value that cannot be changed, as ids are: `bytes`, or None. -/
def IsId : Val → Bool
  | .none => true
  | .bytes _ => true
  | _ => false

/-- The values of a program that changes lists and bytearrays. Of an object the bytes and the ids are those of an object that can be made; the other attributes are some such values. -/
inductive GoodOn (S : Network → Prop) (E : Env) : Val → Prop
  | none : GoodOn S E .none
  | int (n : Int) : GoodOn S E (.int n)
  | str (s : PyStr) : GoodOn S E (.str s)
  | bytes (b : Bytes) : GoodOn S E (.bytes b)
  | bytearray (b : Bytes) : GoodOn S E (.bytearray b)
  | list (l : List Val) : (∀ v ∈ l, GoodOn S E v) → GoodOn S E (.list l)
  | tuple (l : List Val) : (∀ v ∈ l, GoodOn S E v) → GoodOn S E (.tuple l)
  | obj (c : Cls) (t t0 : List Val) (b : Bytes) : (∀ v ∈ t, GoodOn S E v) → MadeOn S E (.obj c t0 b) → t.length = t0.length →
      t.drop (idAt c) = t0.drop (idAt c) → (t.drop (idAt c)).all IsId = true → GoodOn S E (.obj c t b)

variable {S : Network → Prop} {E : Env}

theorem GoodOn.other (b : Bytes) : GoodOn S E (.obj .other [] b) := .obj .other [] [] b all_nil (.other b) rfl rfl rfl

theorem good_seq {v : Val} {l : List Val} (h : GoodOn S E v) (hs : IsSeq v l) : ∀ x ∈ l, GoodOn S E x := by
  rcases hs with rfl | rfl
  · cases h with | list _ h => exact h
  · cases h with | tuple _ h => exact h

theorem good_attrs {c : Cls} {t : List Val} {b : Bytes} (h : GoodOn S E (.obj c t b)) : ∀ x ∈ t, GoodOn S E x := by
  cases h with | obj _ _ _ _ h => exact h

theorem good_iter {S : Network → Prop} {E : Env} {v : Val} {l : List Val} (hv : GoodOn S E v) (h : v.iter = .ok l) : ∀ x ∈ l, GoodOn S E x := by
  cases v with
  | none => cases h
  | int n => cases h
  | str s => cases h; intro x hx; obtain ⟨c, -, rfl⟩ := List.mem_map.1 hx; exact .str _
  | bytes b => cases h; intro x hx; obtain ⟨c, -, rfl⟩ := List.mem_map.1 hx; exact .int _
  | bytearray b => cases h; intro x hx; obtain ⟨c, -, rfl⟩ := List.mem_map.1 hx; exact .int _
  | obj c t b => cases h; intro x hx; obtain ⟨c, -, rfl⟩ := List.mem_map.1 hx; exact .int _
  | list l' => cases h; exact good_seq hv (.inl rfl)
  | tuple l' => cases h; exact good_seq hv (.inr rfl)

theorem good_bs (l : List Bytes) : GoodOn S E (.tuple (l.map .bytes)) := by
  refine .tuple _ fun x hx => ?_
  obtain ⟨b, -, rfl⟩ := List.mem_map.1 hx
  exact .bytes b

theorem good_add {a b v : Val} (h : Val.add a b = .ok v) : GoodOn S E v := by
  unfold Val.add at h
  split at h <;> cases h
  · exact .bytes _
  · exact .bytes _
  · exact .bytearray _
  · exact .bytearray _

theorem gattrs_outpoint {a b : Val} (ha : GoodOn S E a) (hb : GoodOn S E b) : AttrsAre (GoodOn S E) (Dyn.outpoint a b) :=
  .bind fun _ _ => .bind fun _ _ => .bind fun _ _ => .bind fun _ _ => .ok (all_cons ha (all_cons hb all_nil))

theorem gattrs_txIn {a b c d : Val} (ha : GoodOn S E a) (hb : GoodOn S E b) (hc : GoodOn S E c) (hd : GoodOn S E d) : AttrsAre (GoodOn S E) (Dyn.txIn a b c d) := by
  unfold Dyn.txIn
  iterate 12 refine .bind fun _ _ => ?_
  refine .bind fun x hx => ?_
  exact .ok (all_cons ha (all_cons hb (all_cons hc (all_cons (good_add hx) (all_cons hd all_nil)))))

theorem gattrs_txOut {a b : Val} (ha : GoodOn S E a) (hb : GoodOn S E b) : AttrsAre (GoodOn S E) (Dyn.txOut a b) := by
  unfold Dyn.txOut
  iterate 6 refine .bind fun _ _ => ?_
  exact .ok (all_cons ha (all_cons hb all_nil))

theorem gattrs_item {a : Val} (ha : GoodOn S E a) : AttrsAre (GoodOn S E) (Dyn.item a) := by
  unfold Dyn.item
  iterate 4 refine .bind fun _ _ => ?_
  exact .ok (all_cons ha all_nil)

theorem gattrs_witness {a : Val} (ha : GoodOn S E a) : AttrsAre (GoodOn S E) (Dyn.witness a) := by
  unfold Dyn.witness
  iterate 3 refine .bind fun _ _ => ?_
  refine .bind fun xs hx => .bind fun _ _ => ?_
  exact .ok (all_cons (.tuple _ (good_iter ha hx)) all_nil)

theorem good_addWitnesses {b b' : Bytes} {w v : Val} (hw : GoodOn S E w) (h : addWitnesses b w = .ok (b', v)) : GoodOn S E v := by
  unfold addWitnesses at h
  split at h
  · cases h; exact .none
  · obtain ⟨ws, hws, h⟩ := (bind_ok_iff ..).1 h
    obtain ⟨_, -, h⟩ := (bind_ok_iff ..).1 h
    cases h
    exact .tuple _ (good_iter hw hws)

theorem gattrs_tx {E' : Env} {a b c d e f : Val} (ha : GoodOn S E a) (hb : GoodOn S E b) (hc : GoodOn S E c) (hd : GoodOn S E d) (he : GoodOn S E e) (hf : GoodOn S E f) :
    AttrsAre (GoodOn S E) (Dyn.tx E' a b c d e f) := by
  unfold Dyn.tx
  iterate 12 refine .bind fun _ _ => ?_
  refine .bind fun ins hi => .bind fun _ _ => .bind fun _ _ => .bind fun outs ho => .bind fun _ _ => .bind fun w hw => ?_
  obtain ⟨_, w⟩ := w
  refine .bind fun _ _ => ?_
  have mi := good_iter hc hi
  have mo := good_iter hd ho
  have mw := good_addWitnesses he hw
  split
  · exact .ok (all_cons ha (all_cons .none (all_cons (.tuple _ mi) (all_cons (.tuple _ mo) (all_cons mw (all_cons hf
      (all_cons (.bytes _) (all_cons .none (all_cons (.bytes _) (all_cons .none all_nil))))))))))
  · refine .bind fun _ _ => ?_
    exact .ok (all_cons ha (all_cons hb (all_cons (.tuple _ mi) (all_cons (.tuple _ mo) (all_cons mw (all_cons hf
      (all_cons (.bytes _) (all_cons (.bytes _) (all_cons (.bytes _) (all_cons (.bytes _) all_nil))))))))))

theorem good_hsigs {E' : Env} {js pk sg : Val} {t : List Val} (hj : GoodOn S E js) (hp : GoodOn S E pk) (hs : GoodOn S E sg) (h : jsAttrs E' js pk sg = .ok t) :
    ∀ x ∈ t, GoodOn S E x := by
  unfold jsAttrs at h
  obtain ⟨n, -, h⟩ := (bind_ok_iff ..).1 h
  split at h
  · obtain ⟨xs, hx, h⟩ := (bind_ok_iff ..).1 h
    obtain ⟨⟨hs', ps⟩, -, h⟩ := (bind_ok_iff ..).1 h
    cases h
    exact all_cons (.tuple _ (good_iter hj hx)) (all_cons hp (all_cons hs (all_cons (good_bs _) (all_cons (good_bs _) all_nil))))
  · cases h
    exact all_cons (.tuple _ all_nil) (all_cons .none (all_cons .none (all_cons (.tuple _ all_nil) (all_cons (.tuple _ all_nil) all_nil))))

theorem good_sproutAttrs {E' : Env} {isV2 : Bool} {js : List Val} {pk sg : Val} {t : List Val} (hp : GoodOn S E pk) (hs : GoodOn S E sg)
    (h : sproutJsAttrs E' isV2 js pk sg = .ok t) : ∀ x ∈ t, GoodOn S E x := by
  unfold sproutJsAttrs at h
  split at h
  · obtain ⟨⟨hs', ps⟩, -, h⟩ := (bind_ok_iff ..).1 h
    cases h
    exact all_cons hp (all_cons hs (all_cons (good_bs _) (all_cons (good_bs _) all_nil)))
  · cases h
    exact all_cons .none (all_cons .none (all_cons (.tuple _ all_nil) (all_cons (.tuple _ all_nil) all_nil)))

theorem good_binding {self self' : Bytes} {ss so bg v : Val} (hb : GoodOn S E bg) (h : addBinding self ss so bg = .ok (self', v)) : GoodOn S E v := by
  unfold addBinding at h
  obtain ⟨n, -, h⟩ := (bind_ok_iff ..).1 h
  obtain ⟨m, -, h⟩ := (bind_ok_iff ..).1 h
  split at h
  · obtain ⟨_, -, h⟩ := (bind_ok_iff ..).1 h
    cases h; exact hb
  · cases h; exact .none

theorem gattrs_sproutProof {n : Network} {a b c d e f g h : Val} (ha : GoodOn S E a) (hb : GoodOn S E b) (hc : GoodOn S E c) (hd : GoodOn S E d) (he : GoodOn S E e)
    (hf : GoodOn S E f) (hg : GoodOn S E g) (hh : GoodOn S E h) : AttrsAre (GoodOn S E) (Dyn.sproutProof n a b c d e f g h) := by
  unfold Dyn.sproutProof
  iterate 3 refine .bind fun _ _ => ?_
  exact .ok (all_cons ha (all_cons hb (all_cons hc (all_cons hd (all_cons he (all_cons hf (all_cons hg (all_cons hh all_nil))))))))

theorem gattrs_saplingProof {n : Network} {a b c : Val} (ha : GoodOn S E a) (hb : GoodOn S E b) (hc : GoodOn S E c) :
    AttrsAre (GoodOn S E) (Dyn.saplingProof n a b c) := by
  unfold Dyn.saplingProof
  iterate 3 refine .bind fun _ _ => ?_
  exact .ok (all_cons ha (all_cons hb (all_cons hc all_nil)))

theorem gattrs_js {cls proof : Cls} {n : Network} {a b c d e f g h i j : Val} (ha : GoodOn S E a) (hb : GoodOn S E b) (hc : GoodOn S E c) (hd : GoodOn S E d)
    (he : GoodOn S E e) (hf : GoodOn S E f) (hg : GoodOn S E g) (hh : GoodOn S E h) (hi : GoodOn S E i) (hj : GoodOn S E j) :
    AttrsAre (GoodOn S E) (Dyn.joinsplit cls proof n a b c d e f g h i j) := by
  unfold Dyn.joinsplit
  iterate 5 refine .bind fun _ _ => ?_
  exact .ok (all_cons ha (all_cons hb (all_cons hc (all_cons hd (all_cons he (all_cons hf (all_cons hg (all_cons hh (all_cons hi (all_cons hj all_nil))))))))))

theorem gattrs_spend {n : Network} {a b c d e f : Val} (ha : GoodOn S E a) (hb : GoodOn S E b) (hc : GoodOn S E c) (hd : GoodOn S E d) (he : GoodOn S E e) (hf : GoodOn S E f) :
    AttrsAre (GoodOn S E) (Dyn.saplingSpend n a b c d e f) := by
  unfold Dyn.saplingSpend
  iterate 4 refine .bind fun _ _ => ?_
  exact .ok (all_cons ha (all_cons hb (all_cons hc (all_cons hd (all_cons he (all_cons hf all_nil))))))

theorem gattrs_output {n : Network} {a b c d e f : Val} (ha : GoodOn S E a) (hb : GoodOn S E b) (hc : GoodOn S E c) (hd : GoodOn S E d) (he : GoodOn S E e) (hf : GoodOn S E f) :
    AttrsAre (GoodOn S E) (Dyn.saplingOutput n a b c d e f) := by
  unfold Dyn.saplingOutput
  iterate 4 refine .bind fun _ _ => ?_
  exact .ok (all_cons ha (all_cons hb (all_cons hc (all_cons hd (all_cons he (all_cons hf all_nil))))))

theorem gattrs_sproutTx {E' : Env} {a b c d e f g : Val} (ha : GoodOn S E a) (hb : GoodOn S E b) (hc : GoodOn S E c) (hd : GoodOn S E d) (he : GoodOn S E e) (hf : GoodOn S E f)
    (hg : GoodOn S E g) : AttrsAre (GoodOn S E) (Dyn.sproutTx E' a b c d e f g) := by
  unfold Dyn.sproutTx
  iterate 16 refine .bind fun _ _ => ?_
  refine .bind fun ins hi => .bind fun outs ho => .bind fun js hj => .bind fun rest hr => .bind fun _ _ => ?_
  exact .ok (all_append (all_append (all_cons ha (all_cons (.tuple _ (good_iter hb hi)) (all_cons (.tuple _ (good_iter hc ho)) (all_cons (.tuple _ (good_iter he hj))
    (all_cons hd all_nil))))) (good_sproutAttrs hf hg hr)) (all_cons (.bytes _) (all_cons (.bytes _) all_nil)))

theorem gattrs_overwinterTx {E' : Env} {a b c d e f g : Val} (ha : GoodOn S E a) (hb : GoodOn S E b) (hc : GoodOn S E c) (hd : GoodOn S E d) (he : GoodOn S E e)
    (hf : GoodOn S E f) (hg : GoodOn S E g) : AttrsAre (GoodOn S E) (Dyn.overwinterTx E' a b c d e f g) := by
  unfold Dyn.overwinterTx
  iterate 19 refine .bind fun _ _ => ?_
  refine .bind fun ins hi => .bind fun outs ho => .bind fun js hj => .bind fun _ _ => ?_
  exact .ok (all_append (all_append (all_cons (.tuple _ (good_iter ha hi)) (all_cons (.tuple _ (good_iter hb ho)) (all_cons hc (all_cons hd all_nil)))) (good_hsigs he hf hg hj))
    (all_cons (.bytes _) (all_cons (.bytes _) all_nil)))

theorem gattrs_saplingTx {E' : Env} {a b c d e f g h i j k : Val} (ha : GoodOn S E a) (hb : GoodOn S E b) (hc : GoodOn S E c) (hd : GoodOn S E d) (he : GoodOn S E e)
    (hf : GoodOn S E f) (hg : GoodOn S E g) (hh : GoodOn S E h) (hi : GoodOn S E i) (hj : GoodOn S E j) (hk : GoodOn S E k) :
    AttrsAre (GoodOn S E) (Dyn.saplingTx E' a b c d e f g h i j k) := by
  unfold Dyn.saplingTx
  iterate 27 refine .bind fun _ _ => ?_
  refine .bind fun bg hbg => ?_
  obtain ⟨_, bg⟩ := bg
  refine .bind fun ins h1 => .bind fun outs h2 => .bind fun ss h3 => .bind fun so h4 => .bind fun js h5 => .bind fun _ _ => ?_
  exact .ok (all_append (all_append (all_cons (good_binding hk hbg) (all_cons (.tuple _ (good_iter ha h1)) (all_cons (.tuple _ (good_iter hb h2)) (all_cons hc (all_cons hd (all_cons he
    (all_cons (.tuple _ (good_iter hf h3)) (all_cons (.tuple _ (good_iter hg h4)) all_nil)))))))) (good_hsigs hh hi hj h5))
    (all_cons (.bytes _) (all_cons (.bytes _) all_nil)))

theorem gattrs_dcrOutpoint {n : Network} {a b c : Val} (ha : GoodOn S E a) (hb : GoodOn S E b) (hc : GoodOn S E c) : AttrsAre (GoodOn S E) (Dyn.dcrOutpoint n a b c) := by
  unfold Dyn.dcrOutpoint
  iterate 3 refine .bind fun _ _ => ?_
  exact .ok (all_cons ha (all_cons hb (all_cons hc all_nil)))

theorem gattrs_dcrTxIn {n : Network} {a b : Val} (ha : GoodOn S E a) (hb : GoodOn S E b) : AttrsAre (GoodOn S E) (Dyn.dcrTxIn n a b) := by
  unfold Dyn.dcrTxIn
  iterate 3 refine .bind fun _ _ => ?_
  exact .ok (all_cons ha (all_cons hb all_nil))

theorem gattrs_dcrTxOut {n : Network} {a b c : Val} (ha : GoodOn S E a) (hb : GoodOn S E b) (hc : GoodOn S E c) : AttrsAre (GoodOn S E) (Dyn.dcrTxOut n a b c) := by
  unfold Dyn.dcrTxOut
  iterate 7 refine .bind fun _ _ => ?_
  exact .ok (all_cons ha (all_cons hb (all_cons (.int _) (all_cons hc all_nil))))

theorem gattrs_dcrWitness {n : Network} {a b c d e : Val} (ha : GoodOn S E a) (hb : GoodOn S E b) (hc : GoodOn S E c) (hd : GoodOn S E d) (he : GoodOn S E e) :
    AttrsAre (GoodOn S E) (Dyn.dcrWitness n a b c d e) := by
  unfold Dyn.dcrWitness
  iterate 10 refine .bind fun _ _ => ?_
  refine .bind fun s hs => .bind fun _ _ => ?_
  exact .ok (all_cons ha (all_cons hb (all_cons hc (all_cons (.int _) (all_cons hd (all_cons he (all_cons (good_add hs) all_nil)))))))

theorem gattrs_dcrTx {n : Network} {a b c d e f : Val} (ha : GoodOn S E a) (hb : GoodOn S E b) (hc : GoodOn S E c) (hd : GoodOn S E d) (he : GoodOn S E e) (hf : GoodOn S E f) :
    AttrsAre (GoodOn S E) (Dyn.dcrTx n a b c d e f) := by
  unfold Dyn.dcrTx
  iterate 16 refine .bind fun _ _ => ?_
  exact .ok (all_cons ha (all_cons hb (all_cons hc (all_cons hd (all_cons he (all_cons hf (all_cons (.bytes _) (all_cons (.bytes _) all_nil))))))))

/-! ### every constructor makes such objects of such values -/

theorem GoodOn.mk {p : Py Val} {c : Cls} {t t0 : List Val} {b : Bytes} (h : p = .ok (.obj c t b)) (ha : AttrsAre (GoodOn S E) p) (hm : MadeOn S E (.obj c t0 b))
    (hd : t.drop (idAt c) = t0.drop (idAt c)) (hi : (t.drop (idAt c)).all IsId = true)
    (hl : t.length = t0.length := by rfl) : GoodOn S E (.obj c t b) :=
  .obj c t t0 b (ha c t b h) hm hl hd hi

/-- Objects in place of which the constructor's could be. -/
theorem back_list {c : Cls} {l : List Val} {bs : List Bytes} (hg : ∀ x ∈ l, GoodOn S E x) (hc : l.all (Val.isInstance c) = true) (hb : Contents l bs) :
    ∃ l0, (∀ x ∈ l0, MadeOn S E x) ∧ l0.all (Val.isInstance c) = true ∧ Contents l0 bs ∧ l0.length = l.length := by
  induction l generalizing bs with
  | nil => exact ⟨[], all_nil, rfl, hb, rfl⟩
  | cons v l ih =>
    cases bs with
    | nil => simp [Contents] at hb
    | cons b bs =>
      simp only [Contents, List.map_cons, List.cons.injEq] at hb
      rw [List.all_cons, Bool.and_eq_true] at hc
      obtain ⟨l0, h1, h2, h3, h4⟩ := ih (fun x hx => hg x (.tail _ hx)) hc.2 hb.2
      have hv := hg v (.head _)
      cases v <;> simp [Val.isInstance] at hc
      next c' t x =>
      have hb1 := hb.1
      cases hv with
      | obj _ _ t0 _ _ hm =>
        refine ⟨.obj c' t0 x :: l0, all_cons hm h1, ?_, contents_cons hb1 h3, by simp [h4]⟩
        rw [List.all_cons, h2, Bool.and_true]
        simp [Val.isInstance, hc.1]

theorem back_seq {c : Cls} {v : Val} {l : List Val} {bs : List Bytes} (h : SeqOf c v l bs) (hv : GoodOn S E v) :
    ∃ l0, MadeOn S E (.list l0) ∧ SeqOf c (.list l0) l0 bs ∧ l0.length = l.length := by
  obtain ⟨l0, h1, h2, h3, h4⟩ := back_list (good_iter hv h.iter.1) h.cls h.bytes
  exact ⟨l0, .list _ h1, ⟨.inl (.inl rfl), h2, h3⟩, h4⟩

theorem back_obj {c : Cls} {v : Val} {b : Bytes} (hv : GoodOn S E v) (hc : v.isInstance c = true) (hb : Byteslike v b) : ∃ t0, MadeOn S E (.obj c t0 b) := by
  cases v <;> simp [Val.isInstance] at hc
  next c' t x =>
  subst hc
  cases hb
  cases hv with
  | obj _ _ t0 _ _ hm => exact ⟨t0, hm⟩

/-- The bytes in place of the values. -/
theorem fields_back {l : List (Val × Nat)} {bs : List Bytes} (h : Fields l bs) : Fields (bs.zipWith (fun b p => (.bytes b, p.2)) l) bs := by
  induction l generalizing bs with
  | nil => rw [Fields.nil.1 h]; exact Fields.nil.2 rfl
  | cons p l ih =>
    obtain ⟨v, n⟩ := p
    obtain ⟨b, bs, rfl, h1, h2, h3⟩ := Fields.cons.1 h
    exact Fields.cons.2 ⟨b, bs, rfl, rfl, h2, ih h3⟩

theorem GoodOn.outpoint (a b v : Val) (ha : GoodOn S E a) (hb : GoodOn S E b) (h : Dyn.outpoint a b = .ok v) : GoodOn S E v := by
  obtain ⟨x, y, h1, h2, l1, l2, rfl⟩ := ((C114_outpoint a b).1 v).1 h
  exact .mk h (gattrs_outpoint ha hb) (.outpoint (.bytes x) (.bytes y) _ (.bytes x) (.bytes y) (((C114_outpoint _ _).1 _).2 ⟨x, y, rfl, rfl, l1, l2, rfl⟩)) rfl rfl

theorem GoodOn.txIn (a b c d v : Val) (ha : GoodOn S E a) (hb : GoodOn S E b) (hc : GoodOn S E c) (hd : GoodOn S E d) (h : Dyn.txIn a b c d = .ok v) : GoodOn S E v := by
  obtain ⟨bo, bs, br, bq, sig, h1, h2, h3, h4, -, -, l1, l2, l3, -, -, -, rfl⟩ := ((C114_txIn a b c d).1 v).1 h
  exact .mk h (gattrs_txIn ha hb hc hd) (.txIn (.bytes bo) (.bytes bs) (.bytes br) (.bytes bq) _ (.bytes bo) (.bytes bs) (.bytes br) (.bytes bq)
    (((C114_txIn _ _ _ _).1 _).2 ⟨bo, bs, br, bq, .bytes (bs ++ br), rfl, rfl, rfl, rfl, ⟨bs, .inl rfl⟩, ⟨br, .inl rfl⟩, l1, l2, l3, ⟨_, .inl rfl⟩, rfl, rfl, rfl⟩)) rfl rfl

theorem GoodOn.txOut (a b v : Val) (ha : GoodOn S E a) (hb : GoodOn S E b) (h : Dyn.txOut a b = .ok v) : GoodOn S E v := by
  obtain ⟨x, y, h1, h2, l1, l2, rfl⟩ := ((C114_txOut a b).1 v).1 h
  exact .mk h (gattrs_txOut ha hb) (.txOut (.bytes x) (.bytes y) _ (.bytes x) (.bytes y) (((C114_txOut _ _).1 _).2 ⟨x, y, rfl, rfl, l1, l2, rfl⟩)) rfl rfl

theorem GoodOn.item (a v : Val) (ha : GoodOn S E a) (h : Dyn.item a = .ok v) : GoodOn S E v := by
  obtain ⟨x, h1, l1, rfl⟩ := ((C114_item a).1 v).1 h
  exact .mk h (gattrs_item ha) (.item (.bytes x) _ (.bytes x) (((C114_item _).1 _).2 ⟨x, rfl, l1, rfl⟩)) rfl rfl

theorem GoodOn.witness (a v : Val) (ha : GoodOn S E a) (h : Dyn.witness a = .ok v) : GoodOn S E v := by
  obtain ⟨l, bs, h1, h2, h3, h4, rfl⟩ := ((C114_witness a).1 v).1 h
  obtain ⟨l0, m, hs, hl⟩ := back_seq (⟨h1, h2, h4⟩ : SeqOf .item a l bs) ha
  exact .mk h (gattrs_witness ha) (.witness (.list l0) _ m (((C114_witness _).1 _).2 ⟨l0, bs, hs.seq, hs.cls, by rw [hl]; exact h3, hs.bytes, rfl⟩)) rfl rfl

/-- A flag, and bytes with the same content. -/
theorem back_flag {flag : Val} {x : Bytes} (h : flag = .none ∨ flag.content = some x) :
    ∃ f0 fb, MadeOn S E f0 ∧ (f0 = .none ∨ f0.content = some x) ∧ (flag = .none ∧ f0 = .none ∧ fb = [] ∨ flag ≠ .none ∧ f0 = .bytes x ∧ flag.content = some fb ∧ fb = x) := by
  by_cases hn : flag = .none
  · exact ⟨.none, [], .none, .inl rfl, .inl ⟨hn, rfl, rfl⟩⟩
  · exact ⟨.bytes x, x, .bytes x, .inr rfl, .inr ⟨hn, rfl, h.resolve_left hn, rfl⟩⟩

theorem GoodOn.tx (a b c d e f v : Val) (ha : GoodOn S E a) (hb : GoodOn S E b) (hc : GoodOn S E c) (hd : GoodOn S E d) (he : GoodOn S E e) (hf : GoodOn S E f)
    (h : Dyn.tx E a b c d e f = .ok v) : GoodOn S E v := by
  have at' := gattrs_tx (E' := E) ha hb hc hd he hf
  have h' := h
  obtain ⟨bv, bl, ins, outs, bi, bo, stored, bw, xa, xw, xf⟩ := tx_tests h
  obtain ⟨i0, mi, si, li⟩ := back_seq (⟨.inl xa.ins_seq, xa.ins_cls, xa.ins_bytes⟩ : SeqOf .txIn c ins bi) hc
  obtain ⟨o0, mo, so, lo⟩ := back_seq (⟨.inl xa.outs_seq, xa.outs_cls, xa.outs_bytes⟩ : SeqOf .txOut d outs bo) hd
  have ya : TxArgs (.bytes bv) (.list i0) (.list o0) (.bytes bl) bv bl i0 o0 bi bo := ⟨rfl, xa.version_len, rfl, xa.lock_len, .inl rfl, ne_nil_of_length li xa.ins_ne,
    by rw [li]; exact xa.ins_lt, si.cls, si.bytes, .inl rfl, ne_nil_of_length lo xa.outs_ne, by rw [lo]; exact xa.outs_lt, so.cls, so.bytes⟩
  obtain ⟨f0, fb, mf, yf, hff⟩ := back_flag (S := S) (E := E) xf
  obtain ⟨w0, st0, mw, yw⟩ : ∃ w0 st0, MadeOn S E w0 ∧ WitsOK f0 w0 i0.length st0 bw := by
    rcases xw with ⟨-, -, h⟩ | ⟨-, -, h⟩ | ⟨l, h1, h2, h3, h4, h5, -⟩
    · exact ⟨.none, .none, .none, .inl ⟨rfl, rfl, h⟩⟩
    · exact ⟨.none, .none, .none, .inl ⟨rfl, rfl, h⟩⟩
    · obtain ⟨l0, ml, sl, ll⟩ := back_seq (⟨.inl h2, h4, h5⟩ : SeqOf .witness e l bw) he
      refine ⟨.list l0, _, ml, .inr (.inr ⟨l0, ?_, .inl rfl, by rw [ll, li, h3], sl.cls, sl.bytes, rfl⟩)⟩
      rcases hff with ⟨h, -⟩ | ⟨-, h, -⟩
      · exact absurd h h1
      · rw [h]; exact nofun
  rcases hff with ⟨rfl, rfl, rfl⟩ | ⟨hn, rfl, hfb, rfl⟩
  · have e0 := tx_ok_of ya yw yf (.inl ⟨rfl, rfl⟩)
    rw [tx_ok_of xa xw xf (.inl ⟨rfl, rfl⟩)] at h
    have h := Except.ok.inj h
    rw [← h] at h' ⊢
    exact .mk h' at' (.tx _ _ _ _ _ _ _ (.bytes bv) .none mi mo mw (.bytes bl) e0) rfl rfl
  · have e0 := tx_ok_of ya yw yf (.inr rfl)
    rw [tx_ok_of xa xw xf (.inr hfb), finish_flag hn] at h
    obtain ⟨nw, hnw, h⟩ := bind_ok_iff.1 h
    obtain ⟨r1, r2⟩ := noWitness_raw hnw
    rw [noWitness_ok xa r1 r2] at hnw
    rw [finish_flag (by exact nofun), noWitness_ok ya ⟨_, .inl rfl⟩ ⟨_, .inl rfl⟩, ok_bind] at e0
    cases hnw
    have h := Except.ok.inj h
    rw [← h] at h' ⊢
    exact .mk h' at' (.tx _ _ _ _ _ _ _ (.bytes bv) (.bytes _) mi mo mw (.bytes bl) e0) rfl rfl

theorem GoodOn.sproutProof (a b c d e f g i v : Val) (ha : GoodOn S E a) (hb : GoodOn S E b) (hc : GoodOn S E c) (hd : GoodOn S E d) (he : GoodOn S E e) (hf : GoodOn S E f)
    (hg : GoodOn S E g) (hi : GoodOn S E i) (h : Dyn.sproutProof E.net a b c d e f g i = .ok v) : GoodOn S E v := by
  obtain ⟨hz, bs, hfs, rfl⟩ := ((C116_sproutProof _ _ _ _ _ _ _ _ _).1 v).1 h
  have h0 := fields_back hfs
  simp only [Fields.cons, Fields.nil] at hfs
  obtain ⟨x1, _, rfl, -, -, x2, _, rfl, -, -, x3, _, rfl, -, -, x4, _, rfl, -, -, x5, _, rfl, -, -, x6, _, rfl, -, -, x7, _, rfl, -, -, x8, _, rfl, -, -, rfl⟩ := hfs
  exact .mk h (gattrs_sproutProof ha hb hc hd he hf hg hi) (.sproutProof _ _ _ _ _ _ _ _ _ (.bytes x1) (.bytes x2) (.bytes x3) (.bytes x4) (.bytes x5) (.bytes x6) (.bytes x7) (.bytes x8)
    (((C116_sproutProof _ _ _ _ _ _ _ _ _).1 _).2 ⟨hz, _, h0, rfl⟩)) rfl rfl

theorem GoodOn.saplingProof (a b c v : Val) (ha : GoodOn S E a) (hb : GoodOn S E b) (hc : GoodOn S E c) (h : Dyn.saplingProof E.net a b c = .ok v) : GoodOn S E v := by
  obtain ⟨hz, bs, hfs, rfl⟩ := ((C116_saplingProof _ _ _ _).1 v).1 h
  have h0 := fields_back hfs
  simp only [Fields.cons, Fields.nil] at hfs
  obtain ⟨x1, _, rfl, -, -, x2, _, rfl, -, -, x3, _, rfl, -, -, rfl⟩ := hfs
  exact .mk h (gattrs_saplingProof ha hb hc) (.saplingProof _ _ _ _ (.bytes x1) (.bytes x2) (.bytes x3) (((C116_saplingProof _ _ _ _).1 _).2 ⟨hz, _, h0, rfl⟩)) rfl rfl

theorem back_js {cls proof : Cls} {n : Network} {a b c d e f g i z k v : Val} (hz : GoodOn S E z) (h : Dyn.joinsplit cls proof n a b c d e f g i z k = .ok v) :
    ∃ x1 x2 x3 x4 x5 x6 x7 x8 x9 z0 w, MadeOn S E z0 ∧
      Dyn.joinsplit cls proof n (.bytes x1) (.bytes x2) (.bytes x3) (.bytes x4) (.bytes x5) (.bytes x6) (.bytes x7) (.bytes x8) z0 (.bytes x9) =
        .ok (.obj cls [.bytes x1, .bytes x2, .bytes x3, .bytes x4, .bytes x5, .bytes x6, .bytes x7, .bytes x8, z0, .bytes x9] w) ∧
      v = .obj cls [a, b, c, d, e, f, g, i, z, k] w := by
  obtain ⟨hn, hc, x1, x2, x3, x4, x5, x6, x7, x8, x9, y, hfs, hy, hv, rfl⟩ := ((C116_joinsplit _ _ _ _ _ _ _ _ _ _ _ _ _).1 v).1 h
  obtain ⟨t0, m⟩ := back_obj hz hc hy
  exact ⟨x1, x2, x3, x4, x5, x6, x7, x8, x9, _, _, m, ((C116_joinsplit _ _ _ _ _ _ _ _ _ _ _ _ _).1 _).2 ⟨hn, by simp [Val.isInstance], x1, x2, x3, x4, x5, x6, x7, x8, x9, y, fields_back hfs, rfl, hv, rfl⟩, rfl⟩

theorem GoodOn.sproutJs (a b c d e f g i z k v : Val) (ha : GoodOn S E a) (hb : GoodOn S E b) (hc : GoodOn S E c) (hd : GoodOn S E d) (he : GoodOn S E e) (hf : GoodOn S E f)
    (hg : GoodOn S E g) (hi : GoodOn S E i) (hz : GoodOn S E z) (hk : GoodOn S E k) (h : Dyn.sproutJs E.net a b c d e f g i z k = .ok v) : GoodOn S E v := by
  obtain ⟨x1, x2, x3, x4, x5, x6, x7, x8, x9, z0, w, m, h0, rfl⟩ := back_js (cls := .sproutJs) hz h
  exact .mk h (gattrs_js ha hb hc hd he hf hg hi hz hk) (.sproutJs _ _ _ _ _ _ _ _ _ _ _ (.bytes x1) (.bytes x2) (.bytes x3) (.bytes x4) (.bytes x5) (.bytes x6) (.bytes x7) (.bytes x8)
    m (.bytes x9) h0) rfl rfl

theorem GoodOn.saplingJs (a b c d e f g i z k v : Val) (ha : GoodOn S E a) (hb : GoodOn S E b) (hc : GoodOn S E c) (hd : GoodOn S E d) (he : GoodOn S E e) (hf : GoodOn S E f)
    (hg : GoodOn S E g) (hi : GoodOn S E i) (hz : GoodOn S E z) (hk : GoodOn S E k) (h : Dyn.saplingJs E.net a b c d e f g i z k = .ok v) : GoodOn S E v := by
  obtain ⟨x1, x2, x3, x4, x5, x6, x7, x8, x9, z0, w, m, h0, rfl⟩ := back_js (cls := .saplingJs) hz h
  exact .mk h (gattrs_js ha hb hc hd he hf hg hi hz hk) (.saplingJs _ _ _ _ _ _ _ _ _ _ _ (.bytes x1) (.bytes x2) (.bytes x3) (.bytes x4) (.bytes x5) (.bytes x6) (.bytes x7) (.bytes x8)
    m (.bytes x9) h0) rfl rfl

theorem GoodOn.saplingSpend (a b c d e f v : Val) (ha : GoodOn S E a) (hb : GoodOn S E b) (hc : GoodOn S E c) (hd : GoodOn S E d) (he : GoodOn S E e) (hf : GoodOn S E f)
    (h : Dyn.saplingSpend E.net a b c d e f = .ok v) : GoodOn S E v := by
  obtain ⟨hn, x1, x2, x3, x4, x5, z, hfs, hzc, hz, rfl⟩ := ((C116_spend _ _ _ _ _ _ _).1 v).1 h
  obtain ⟨t0, m⟩ := back_obj he hzc hz
  exact .mk h (gattrs_spend ha hb hc hd he hf) (.saplingSpend _ _ _ _ _ _ _ (.bytes x1) (.bytes x2) (.bytes x3) (.bytes x4) m (.bytes x5)
    (((C116_spend _ _ _ _ _ _ _).1 _).2 ⟨hn, x1, x2, x3, x4, x5, z, fields_back hfs, by simp [Val.isInstance], rfl, rfl⟩)) rfl rfl

theorem GoodOn.saplingOutput (a b c d e f v : Val) (ha : GoodOn S E a) (hb : GoodOn S E b) (hc : GoodOn S E c) (hd : GoodOn S E d) (he : GoodOn S E e) (hf : GoodOn S E f)
    (h : Dyn.saplingOutput E.net a b c d e f = .ok v) : GoodOn S E v := by
  obtain ⟨hn, x1, x2, x3, x4, x5, z, hfs, hzc, hz, rfl⟩ := ((C116_output _ _ _ _ _ _ _).1 v).1 h
  obtain ⟨t0, m⟩ := back_obj hf hzc hz
  exact .mk h (gattrs_output ha hb hc hd he hf) (.saplingOutput _ _ _ _ _ _ _ (.bytes x1) (.bytes x2) (.bytes x3) (.bytes x4) (.bytes x5) m
    (((C116_output _ _ _ _ _ _ _).1 _).2 ⟨hn, x1, x2, x3, x4, x5, z, fields_back hfs, by simp [Val.isInstance], rfl, rfl⟩)) rfl rfl

theorem GoodOn.dcrOutpoint (a b c v : Val) (ha : GoodOn S E a) (hb : GoodOn S E b) (hc : GoodOn S E c) (h : Dyn.dcrOutpoint E.net a b c = .ok v) : GoodOn S E v := by
  obtain ⟨hz, bs, hfs, rfl⟩ := ((C117_outpoint _ _ _ _).1 v).1 h
  have h0 := fields_back hfs
  simp only [Fields.cons, Fields.nil] at hfs
  obtain ⟨x1, _, rfl, -, -, x2, _, rfl, -, -, x3, _, rfl, -, -, rfl⟩ := hfs
  exact .mk h (gattrs_dcrOutpoint ha hb hc) (.dcrOutpoint _ _ _ _ (.bytes x1) (.bytes x2) (.bytes x3) (((C117_outpoint _ _ _ _).1 _).2 ⟨hz, _, h0, rfl⟩)) rfl rfl

theorem GoodOn.dcrTxIn (a b v : Val) (ha : GoodOn S E a) (hb : GoodOn S E b) (h : Dyn.dcrTxIn E.net a b = .ok v) : GoodOn S E v := by
  obtain ⟨hz, bs, hfs, rfl⟩ := ((C117_txIn _ _ _).1 v).1 h
  have h0 := fields_back hfs
  simp only [Fields.cons, Fields.nil] at hfs
  obtain ⟨x1, _, rfl, -, -, x2, _, rfl, -, -, rfl⟩ := hfs
  exact .mk h (gattrs_dcrTxIn ha hb) (.dcrTxIn _ _ _ (.bytes x1) (.bytes x2) (((C117_txIn _ _ _).1 _).2 ⟨hz, _, h0, rfl⟩)) rfl rfl

theorem GoodOn.dcrTxOut (a b c v : Val) (ha : GoodOn S E a) (hb : GoodOn S E b) (hc : GoodOn S E c) (h : Dyn.dcrTxOut E.net a b c = .ok v) : GoodOn S E v := by
  obtain ⟨hz, x, y, z, hfs, -, hl, rfl⟩ := ((C117_txOut _ _ _ _).1 v).1 h
  exact .mk h (gattrs_dcrTxOut ha hb hc) (.dcrTxOut _ _ _ _ (.bytes x) (.bytes y) (.bytes z)
    (((C117_txOut _ _ _ _).1 _).2 ⟨hz, x, y, z, fields_back hfs, rfl, hl, rfl⟩)) rfl rfl

theorem GoodOn.dcrWitness (a b c d e v : Val) (ha : GoodOn S E a) (hb : GoodOn S E b) (hc : GoodOn S E c) (hd : GoodOn S E d) (he : GoodOn S E e)
    (h : Dyn.dcrWitness E.net a b c d e = .ok v) : GoodOn S E v := by
  obtain ⟨hz, x, y, z, s, r, sig, hfs, -, -, hl, -, -, rfl⟩ := ((C117_witness _ _ _ _ _ _).1 v).1 h
  exact .mk h (gattrs_dcrWitness ha hb hc hd he) (.dcrWitness _ _ _ _ _ _ (.bytes x) (.bytes y) (.bytes z) (.bytes s) (.bytes r)
    (((C117_witness _ _ _ _ _ _).1 _).2 ⟨hz, x, y, z, s, r, .bytes (s ++ r), fields_back hfs, rfl, rfl, hl, rfl, rfl, rfl⟩)) rfl rfl

theorem GoodOn.dcrTx (a b c d e f v : Val) (ha : GoodOn S E a) (hb : GoodOn S E b) (hc : GoodOn S E c) (hd : GoodOn S E d) (he : GoodOn S E e) (hf : GoodOn S E f)
    (h : Dyn.dcrTx E.net a b c d e f = .ok v) : GoodOn S E v := by
  obtain ⟨bv, bl, be, ins, outs, wits, bi, bo, bw, xa, hs, rfl⟩ := ((C117_tx _ _ _ _ _ _ _).1 v).1 h
  obtain ⟨i0, mi, si, li⟩ := back_seq xa.ins_ok hb
  obtain ⟨o0, mo, so, lo⟩ := back_seq xa.outs_ok hc
  obtain ⟨w0, mw, sw, lw⟩ := back_seq xa.wits_ok hf
  have ya : DcrArgs E.net (.bytes bv) (.list i0) (.list o0) (.bytes bl) (.bytes be) (.list w0) bv bl be i0 o0 w0 bi bo bw := ⟨xa.decred, rfl, xa.ver_len, rfl, xa.lock_len, rfl,
    xa.exp_len, si, ne_nil_of_length li xa.ins_ne, by rw [li]; exact xa.ins_lt, so, ne_nil_of_length lo xa.outs_ne, by rw [lo]; exact xa.outs_lt, sw, by rw [lw]; exact xa.wits_lt⟩
  exact .mk h (gattrs_dcrTx ha hb hc hd he hf) (.dcrTx _ _ _ _ _ _ _ (.bytes bv) mi mo (.bytes bl) (.bytes be) mw
    (((C117_tx _ _ _ _ _ _ _).1 _).2 ⟨bv, bl, be, i0, o0, w0, bi, bo, bw, ya, hs, rfl⟩)) rfl rfl

theorem back_jsArgs {c : Cls} {v pk sig : Val} {js : List Val} {bj : List Bytes} {k s : Bytes} (h : JsArgs c v pk sig js bj k s) (hv : GoodOn S E v) :
    ∃ j0, MadeOn S E (.list j0) ∧ JsArgs c (.list j0) (.bytes k) (.bytes s) j0 bj k s ∧ j0.length = js.length := by
  obtain ⟨j0, m, hs, hl⟩ := back_seq h.seq hv
  refine ⟨j0, m, ⟨hs, by rw [hl]; exact h.five, fun hn => ?_⟩, hl⟩
  have := h.keys (by rw [← hl]; exact hn)
  exact ⟨rfl, this.2.1, rfl, this.2.2.2⟩

theorem jsAttrs_length {E' : Env} {v pk sig : Val} {q : List Val} (h : jsAttrs E' v pk sig = .ok q) : q.length = 5 := by
  unfold jsAttrs at h
  obtain ⟨n, -, h⟩ := (bind_ok_iff ..).1 h
  split at h
  · obtain ⟨xs, hx, h⟩ := (bind_ok_iff ..).1 h
    obtain ⟨⟨hs', ps⟩, -, h⟩ := (bind_ok_iff ..).1 h
    cases h; rfl
  · cases h; rfl

theorem jsObjs_length (E' : Env) (pk sig : Val) (js : List Val) (bj : List Bytes) (k : Bytes) : (jsObjs E' pk sig js bj k).length = 5 := by
  unfold jsObjs; split <;> rfl

theorem made_sproutJsMade {l : List Val} (h : MadeOn S E (.list l)) (hc : l.all (Val.isInstance .sproutJs) = true) : ∀ v ∈ l, JsMade .sproutJs .sproutProof v := by
  intro v hv
  obtain ⟨_, _, _, _, hj⟩ := C116_safe_sproutJs E v (made_seq h (.inl rfl) v hv) (List.all_eq_true.1 hc v hv)
  exact hj

theorem made_saplingJsMade {l : List Val} (h : MadeOn S E (.list l)) (hc : l.all (Val.isInstance .saplingJs) = true) : ∀ v ∈ l, JsMade .saplingJs .saplingProof v := by
  intro v hv
  obtain ⟨_, _, _, _, hj⟩ := C116_safe_saplingJs E v (made_seq h (.inl rfl) v hv) (List.all_eq_true.1 hc v hv)
  exact hj

theorem GoodOn.overwinterTx (a b c d e f g v : Val) (ha : GoodOn S E a) (hb : GoodOn S E b) (hc : GoodOn S E c) (hd : GoodOn S E d) (he : GoodOn S E e) (hf : GoodOn S E f)
    (hg : GoodOn S E g) (h : Dyn.overwinterTx E a b c d e f g = .ok v) : GoodOn S E v := by
  have at' := gattrs_overwinterTx (E' := E) ha hb hc hd he hf hg
  have h' := h
  rcases over_tests E a b c d e f g with ⟨bl, be, ins, outs, js, bi, bo, bj, k, s, xa⟩ | x | ⟨x, -⟩
  case inr.inl => rw [x] at h; cases h
  case inr.inr => rw [x] at h; cases h
  rw [over_eq_of xa] at h
  obtain ⟨q, hq, h⟩ := bind_ok_iff.1 h
  obtain ⟨_, hs, h⟩ := bind_ok_iff.1 h
  obtain ⟨i0, mi, si, li⟩ := back_seq xa.ins_ok ha
  obtain ⟨o0, mo, so, lo⟩ := back_seq xa.outs_ok hb
  obtain ⟨j0, mj, sj, lj⟩ := back_jsArgs xa.js_ok he
  have ya : OverArgs E.net (.list i0) (.list o0) (.bytes bl) (.bytes be) (.list j0) (.bytes k) (.bytes s) bl be i0 o0 j0 bi bo bj k s := ⟨xa.zcash, xa.over, rfl, xa.lock_len, rfl,
    xa.exp_len, xa.exp_le, si, by rw [li]; exact xa.ins_lt, so, by rw [lo]; exact xa.outs_lt, sj, xa.some.imp (ne_nil_of_length li) (ne_nil_of_length lj)⟩
  have e0 := over_ok_of (E := E) ya (made_sproutJsMade mj sj.seq.cls)
  rw [check_bind, if_pos (check_ok.1 hs)] at e0
  have hd1 : ([Val.tuple ins, .tuple outs, c, d] ++ q).length = 9 := by rw [List.length_append, jsAttrs_length hq]; rfl
  have hd2 : ([Val.tuple i0, .tuple o0, .bytes bl, .bytes be] ++ jsObjs E (.bytes k) (.bytes s) j0 bj k).length = 9 := by rw [List.length_append, jsObjs_length]; rfl
  have h := Except.ok.inj h
  rw [← h] at h' ⊢
  refine .mk h' at' (.overwinterTx _ _ _ _ _ _ _ _ mi mo (.bytes bl) (.bytes be) mj (.bytes k) (.bytes s) e0) ?_ ?_ (by rw [List.length_append, hd1, List.length_append, hd2])
  · exact (List.drop_left' hd1).trans (List.drop_left' hd2).symm
  · exact (congrArg (List.all · IsId) (List.drop_left' hd1)).trans rfl

theorem GoodOn.saplingTx (a b c d e f g i j k' l' v : Val) (ha : GoodOn S E a) (hb : GoodOn S E b) (hc : GoodOn S E c) (hd : GoodOn S E d) (he : GoodOn S E e) (hf : GoodOn S E f)
    (hg : GoodOn S E g) (hi : GoodOn S E i) (hj : GoodOn S E j) (hk : GoodOn S E k') (hl : GoodOn S E l') (h : Dyn.saplingTx E a b c d e f g i j k' l' = .ok v) : GoodOn S E v := by
  have at' := gattrs_saplingTx (E' := E) ha hb hc hd he hf hg hi hj hk hl
  have h' := h
  rcases sap_tests E a b c d e f g i j k' l' with ⟨bl, be, bb, ins, outs, ss, so, js, bi, bo, bs, bt, bj, k, s, bg, xa, xb⟩ | x | ⟨x, -⟩
  case inr.inl => rw [x] at h; cases h
  case inr.inr => rw [x] at h; cases h
  rw [sap_eq_of xa xb] at h
  split at h
  · cases h
  next hbn =>
  obtain ⟨q, hq, h⟩ := bind_ok_iff.1 h
  obtain ⟨_, hs, h⟩ := bind_ok_iff.1 h
  obtain ⟨i0, mi, si, li⟩ := back_seq xa.ins_ok ha
  obtain ⟨o0, mo, so', lo⟩ := back_seq xa.outs_ok hb
  obtain ⟨s0, ms, ss', ls⟩ := back_seq xa.spends_ok hf
  obtain ⟨t0, mt, st, lt⟩ := back_seq xa.outputs_ok hg
  obtain ⟨j0, mj, sj, lj⟩ := back_jsArgs xa.js_ok hi
  have ns : s0 = [] → ss = [] := fun e => List.length_eq_zero_iff.1 (by rw [← ls, e]; rfl)
  have nt : t0 = [] → so = [] := fun e => List.length_eq_zero_iff.1 (by rw [← lt, e]; rfl)
  have ns' : ss = [] → s0 = [] := fun e => List.length_eq_zero_iff.1 (by rw [ls, e]; rfl)
  have nt' : so = [] → t0 = [] := fun e => List.length_eq_zero_iff.1 (by rw [lt, e]; rfl)
  have ya : SapArgs E.net (.list i0) (.list o0) (.bytes bl) (.bytes be) (.bytes bb) (.list s0) (.list t0) (.list j0) (.bytes k) (.bytes s) bl be bb i0 o0 s0 t0 j0 bi bo bs bt bj k s :=
    ⟨xa.zcash, xa.sap, rfl, xa.lock_len, rfl, xa.exp_len, xa.exp_le, rfl, xa.bal_len, fun e1 e2 => xa.bal_zero (ns e1) (nt e2), si, by rw [li]; exact xa.ins_lt, so',
      by rw [lo]; exact xa.outs_lt, ss', by rw [ls]; exact xa.spends_lt, st, by rw [lt]; exact xa.outputs_lt, sj,
      xa.some.imp (ne_nil_of_length li) (Or.imp (ne_nil_of_length lj) (ne_nil_of_length ls))⟩
  obtain ⟨g0, mg, yb, yn⟩ : ∃ g0, MadeOn S E g0 ∧ BindingArg g0 bg ∧ (g0.content = Option.none → l'.content = Option.none) := by
    rcases xb with ⟨rfl, rfl⟩ | ⟨h1, h2⟩
    · exact ⟨.none, .none, .inl ⟨rfl, rfl⟩, fun _ => rfl⟩
    · exact ⟨.bytes bg, .bytes bg, .inr ⟨rfl, h2⟩, nofun⟩
  have e0 := sap_ok_of (E := E) ya yb (made_saplingJsMade mj sj.seq.cls)
  rw [if_neg (fun h => hbn ⟨fun e => h.1 ⟨ns' e.1, nt' e.2⟩, yn h.2⟩), check_bind, if_pos (check_ok.1 hs)] at e0
  have hd1 : ([if ss = [] ∧ so = [] then Val.none else l', .tuple ins, .tuple outs, c, d, e, .tuple ss, .tuple so] ++ q).length = 13 := by
    rw [List.length_append, jsAttrs_length hq]; rfl
  have hd2 : ([if s0 = [] ∧ t0 = [] then Val.none else g0, .tuple i0, .tuple o0, .bytes bl, .bytes be, .bytes bb, .tuple s0, .tuple t0] ++
      jsObjs E (.bytes k) (.bytes s) j0 bj k).length = 13 := by rw [List.length_append, jsObjs_length]; rfl
  have h := Except.ok.inj h
  rw [← h] at h' ⊢
  refine .mk h' at' (.saplingTx _ _ _ _ _ _ _ _ _ _ _ _ mi mo (.bytes bl) (.bytes be) (.bytes bb) ms mt mj (.bytes k) (.bytes s) mg e0) ?_ ?_ (by rw [List.length_append, hd1, List.length_append, hd2])
  · exact (List.drop_left' hd1).trans (List.drop_left' hd2).symm
  · exact (congrArg (List.all · IsId) (List.drop_left' hd1)).trans rfl

theorem sproutAttrs_length {E' : Env} {isV2 : Bool} {js : List Val} {pk sg : Val} {q : List Val} (h : sproutJsAttrs E' isV2 js pk sg = .ok q) : q.length = 4 := by
  unfold sproutJsAttrs at h
  split at h
  · obtain ⟨⟨hs', ps⟩, -, h⟩ := (bind_ok_iff ..).1 h
    cases h; rfl
  · cases h; rfl

theorem GoodOn.sproutTx (a b c d e f g v : Val) (ha : GoodOn S E a) (hb : GoodOn S E b) (hc : GoodOn S E c) (hd : GoodOn S E d) (he : GoodOn S E e) (hf : GoodOn S E f)
    (hg : GoodOn S E g) (h : Dyn.sproutTx E a b c d e f g = .ok v) : GoodOn S E v := by
  have at' := gattrs_sproutTx (E' := E) ha hb hc hd he hf hg
  have h' := h
  rcases sprout_tests E a b c d e f g with ⟨bv, bl, ins, outs, bi, bo, xa⟩ | ⟨x, -⟩
  case inr => exact absurd h (x v)
  obtain ⟨i0, mi, si, li⟩ := back_seq xa.ins_ok hb
  obtain ⟨o0, mo, so, lo⟩ := back_seq xa.outs_ok hc
  have ya : SproutArgs E.net (.bytes bv) (.list i0) (.list o0) (.bytes bl) bv bl i0 o0 bi bo := ⟨xa.zcash, xa.sprout, rfl, xa.ver_len, rfl, xa.lock_len, si,
    by rw [li]; exact xa.ins_lt, so, by rw [lo]; exact xa.outs_lt⟩
  by_cases h1 : bv = [1, 0, 0, 0]
  · subst h1
    obtain ⟨-, hi, hs, rfl⟩ := ((sprout_v1 xa).1 v).1 h
    refine .mk h' at' (.sproutTx _ _ _ _ _ _ _ _ (.bytes _) mi mo (.bytes bl) (.list _ all_nil) .none .none
      (((sprout_v1 ya).1 _).2 ⟨rfl, ne_nil_of_length li hi, hs, rfl⟩)) rfl rfl
  rw [sprout_eq xa] at h
  obtain ⟨_, -, h⟩ := bind_ok_iff.1 h
  obtain ⟨_, hv2, h⟩ := bind_ok_iff.1 h
  obtain ⟨_, h12, h⟩ := bind_ok_iff.1 h
  have h2 : leValue bv = 2 := (check_ok.1 h12).resolve_left fun e => h1 ((version_eq xa.ver_len 1 _ rfl).1 e)
  have h2' : bv = [2, 0, 0, 0] := (version_eq xa.ver_len 2 _ rfl).1 h2
  subst h2'
  rw [h2] at hv2
  rw [show (decide (([2, 0, 0, 0] : Bytes) = [2, 0, 0, 0])) = true from rfl] at h
  have hn : g ≠ .none := by
    rintro rfl
    unfold sproutTail Dyn.addSproutJs at h
    simp only [if_true, bind_ok_iff] at h
    obtain ⟨_, ⟨_, _, _, _, h⟩, _⟩ := h
    cases h
  obtain ⟨js, bj, k, s, x2⟩ := checkV2_inv hv2 hn
  rw [sproutTail_v2 x2] at h
  obtain ⟨q, hq, h⟩ := bind_ok_iff.1 h
  obtain ⟨_, hs, h⟩ := bind_ok_iff.1 h
  obtain ⟨j0, mj, sj, lj⟩ := back_seq x2.seq he
  have y2 : V2Args (.list j0) (.bytes k) (.bytes s) j0 bj k s := ⟨sj, by rw [lj]; exact x2.five, rfl, x2.key_len, rfl, x2.sig_len⟩
  have hm : ∀ l, IsSeq (.list j0) l → ∀ v ∈ l, v.isInstance .sproutJs = true → JsMade .sproutJs .sproutProof v := by
    rintro l (e | e) v hv -
    · cases e; exact made_sproutJsMade mj sj.cls v hv
    · cases e
  have hs := check_ok.1 hs
  have e0 := ((sprout_v2 ya hm).1 _).2 ⟨j0, bj, k, s, y2, by omega, rfl⟩
  have hd1 : ([a, .tuple ins, .tuple outs, .tuple js, d] ++ q).length = 9 := by rw [List.length_append, sproutAttrs_length hq]; rfl
  have h := Except.ok.inj h
  rw [← h] at h' ⊢
  refine .mk h' at' (.sproutTx _ _ _ _ _ _ _ _ (.bytes _) mi mo (.bytes bl) mj (.bytes k) (.bytes s) e0) ?_ ?_ (by rw [List.length_append, hd1]; rfl)
  · exact (List.drop_left' hd1).trans rfl
  · exact (congrArg (List.all · IsId) (List.drop_left' hd1)).trans rfl

end Verif.Props
