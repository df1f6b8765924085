import Verif.Lemmas.ZcashSig
import Verif.Model.DynZSighash
import Verif.Props.DynBuilder2
import Verif.Props.DynTwin
import Verif.Props.DynZSafe
import Verif.Props.WireZcash

/-! Lemmas for C124: what the attributes of an `OverwinterTx` or `SaplingTx` made from arguments of any type are, and what the parts of the sighash are. -/

namespace Verif.Props
open Verif Spec

/-- The value is an input with these fields, as far as signatures cover them. -/
def InOf (x : Val) (i : WireIn) : Prop :=
  ∃ o s r g q b, x = .obj .txIn [o, s, r, g, q] b ∧ o.content = some (i.txId ++ i.index) ∧ q.content = some i.sequence

/-- The attributes that both classes have. -/
structure ZView (v : Val) (w : ZTx) : Prop where
  ins : ∃ l, v.zInsOf = .ok l ∧ Twins InOf l w.ins
  outs : ∃ l, v.zOutsOf = .ok l ∧ Contents l (w.outs.map WireOut.bytes)
  lock : ∃ x, v.zLockOf = .ok x ∧ x.content = some w.lockTime
  expiry : ∃ x, v.zExpiryOf = .ok x ∧ x.content = some w.expiry
  js : ∃ l, v.zJsOf = .ok l ∧ Contents l w.js
  key : w.js ≠ [] → ∃ x, v.zJsKeyOf = .ok x ∧ x.content = some w.jsPubkey

/-- The attributes that `SaplingTx` has besides. -/
structure SapView (v : Val) (w : ZTx) : Prop extends ZView v w where
  balance : ∃ x, v.balanceOf = .ok x ∧ x.content = some w.balance
  spends : ∃ l, v.spendsOf = .ok l ∧ Twins (fun x s => ∃ c a b, x = Val.obj c a b ∧ b.take 320 = s) l (w.spends.map (·.1))
  outputs : ∃ l, v.outputsOf = .ok l ∧ Contents l w.outputs

theorem inOf_twin {x : Val} {i : TxIn} (h : InTwin x i) : InOf x (wireOf i) := by
  obtain ⟨o, s, r, g, q, rfl, ho, hs, hr, hq, rs, rr, hb⟩ := h
  obtain ⟨O, _, _, _, hO, e⟩ := hb
  obtain ⟨-, -, -, rfl⟩ := TxIn.make_iff.1 e
  refine ⟨o, s, r, g, q, _, rfl, ?_, hq⟩
  obtain ⟨_, _, h⟩ := hO
  obtain ⟨-, -, rfl⟩ := Outpoint.make_iff.1 h
  exact ho

theorem Twins.map_right {α β γ : Type} {R : α → β → Prop} {S : α → γ → Prop} {f : β → γ} {l : List α} {m : List β} (h : Twins R l m) (hf : ∀ x y, R x y → S x (f y)) :
    Twins S l (m.map f) := by
  induction h with
  | nil => exact .nil
  | cons hr _ ih => exact .cons (hf _ _ hr) ih

theorem zins_of {S : Network → Prop} {E : Env} {v : Val} {l : List Val} {bs : List Bytes} (h : SeqOf .txIn v l bs) (hv : MadeOn S E v) :
    ∃ ws : List WireIn, Twins InOf l ws ∧ bs = ws.map WireIn.bytes ∧ ∀ w ∈ ws, w.WF := by
  obtain ⟨ti, hti⟩ := twins_of l fun x hx => in_twin (h.made hv x hx).1 (h.made hv x hx).2
  have hb : ∀ i ∈ ti, i.Built := hti.right fun _ _ h => h.built
  refine ⟨ti.map wireOf, hti.map_right fun _ _ => inOf_twin, ?_, ins_wf hb⟩
  rw [ins_fields hb]
  exact h.bytes.unique (hti.contents fun _ _ h => h.inst.2)

theorem over_view {S : Network → Prop} {E : Env} {v : Val} (h : MadeOn S E v) (hc : v.isInstance .overwinterTx = true) {w : ZTx} (hw : w.WF) (hver : w.version = 3)
    (hcon : v.content = some w.bytes) : ZView v w := by
  cases v <;> simp [Val.isInstance] at hc
  next c t x =>
  subst hc
  obtain ⟨_, -, a, b, c, d, e, f, g, ma, mb, me, h⟩ := made_on h
  have hm : ∀ l, IsSeq e l → ∀ v ∈ l, v.isInstance .sproutJs = true → JsMade .sproutJs .sproutProof v := by
    intro l hl v hv hc
    obtain ⟨_, _, _, _, hj⟩ := C116_safe_sproutJs E v (made_seq me hl v hv) hc
    exact hj
  obtain ⟨bl, be, ins, outs, js, bi, bo, bj, k, s, ha, hs, e⟩ := ((C116_overwinter ⟨_, E.H⟩ _ _ _ _ _ _ _ hm).1 _).1 h
  obtain ⟨wi, i1, rfl, i3⟩ := zins_of ha.ins_ok ma
  obtain ⟨wo, o1, rfl, o3⟩ := safe_outs ha.outs_ok mb
  have hj : ∀ b ∈ bj, b.length = 1802 := safe_bytes ha.js_ok.seq me fun x hx hc => by
    obtain ⟨b, h1, -, h2, -⟩ := C116_safe_sproutJs E x hx hc; exact ⟨b, h1, h2⟩
  have lj := ha.js_ok.seq.length
  have h5 := ha.js_ok.five
  have keys : bj ≠ [] → Byteslike f k ∧ k.length = 32 ∧ Byteslike g s ∧ s.length = 64 := fun hne =>
    ha.js_ok.keys (fun e0 => hne (List.length_eq_zero_iff.1 (by rw [← lj]; exact e0)))
  have wf : ZTx.WF ⟨3, wi, wo, bl, be, [], [], [], bj, k, s, []⟩ := by
    refine ⟨⟨by simp, by simp⟩, ha.lock_len, ⟨by rw [← i1.length]; exact ha.ins_lt, i3⟩,
      ⟨by rw [o1]; exact ha.outs_lt, o3⟩, fun _ => ha.exp_len, ?_, fun hne => ⟨(keys hne).2.1, (keys hne).2.2.2⟩, (fun h => by cases h), rfl, rfl, ?_⟩
    · rw [if_neg (by simp)]; exact ⟨by simp only; omega, hj⟩
    · rintro (h | h) <;> exact absurd rfl h
  have hx : ZTx.bytes ⟨3, wi, wo, bl, be, [], [], [], bj, k, s, []⟩ = w.bytes := by
    have hx : x = wireOverwinter (wi.map WireIn.bytes) (wo.map WireOut.bytes) bl be bj k s := by
      rw [overObj] at e; exact (Val.obj.inj e).2.2
    exact hx.symm.trans (Option.some.inj hcon)
  obtain ⟨e1, e2, e3, e4, e5, e6⟩ := ztx3_fields wf rfl hw hver hx
  simp only at e1 e2 e3 e4 e5 e6
  subst e1 e2 e3 e4
  rw [e, overObj, jsObjs]
  by_cases hj0 : js = []
  · rw [if_pos hj0]
    have hb0 : bj = [] := ha.js_ok.seq.nil_iff.1 hj0
    rw [hb0] at e5
    exact ⟨⟨_, rfl, i1⟩, ⟨_, rfl, ha.outs_ok.bytes⟩, ⟨_, rfl, ha.lock⟩, ⟨_, rfl, ha.exp⟩, ⟨_, rfl, by rw [← e5]; rfl⟩, fun h => absurd e5.symm h⟩
  · rw [if_neg hj0]
    have hb0 : bj ≠ [] := fun h => hj0 (ha.js_ok.seq.nil_iff.2 h)
    refine ⟨⟨_, rfl, i1⟩, ⟨_, rfl, ha.outs_ok.bytes⟩, ⟨_, rfl, ha.lock⟩, ⟨_, rfl, ha.exp⟩, ⟨_, rfl, by rw [← e5]; exact ha.js_ok.seq.bytes⟩, fun _ => ⟨_, rfl, ?_⟩⟩
    rw [← (e6 hb0).1]; exact (keys hb0).1

theorem sap_view {S : Network → Prop} {E : Env} {v : Val} (h : MadeOn S E v) (hc : v.isInstance .saplingTx = true) {w : ZTx} (hw : w.WF) (hver : w.version = 4)
    (hcon : v.content = some w.bytes) : SapView v w := by
  cases v <;> simp [Val.isInstance] at hc
  next c t x =>
  subst hc
  obtain ⟨_, -, a, b, c, d, e, f, g, i, j, k', l', ma, mb, mf, mg, mi, h⟩ := made_on h
  have hm : ∀ l, IsSeq i l → ∀ v ∈ l, v.isInstance .saplingJs = true → JsMade .saplingJs .saplingProof v := by
    intro l hl v hv hc
    obtain ⟨_, _, _, _, hj⟩ := C116_safe_saplingJs E v (made_seq mi hl v hv) hc
    exact hj
  obtain ⟨bl, be, bb, ins, outs, ss, so, js, bi, bo, bs, bt, bj, k, s, bg, ha, hb, hbn, hs, e⟩ := ((C116_sapling ⟨_, E.H⟩ _ _ _ _ _ _ _ _ _ _ _ hm).1 _).1 h
  obtain ⟨wi, i1, rfl, i3⟩ := zins_of ha.ins_ok ma
  obtain ⟨wo, o1, rfl, o3⟩ := safe_outs ha.outs_ok mb
  obtain ⟨ws, hws⟩ := twins_of (R := fun x (s : Bytes × Bytes) => (∃ c a, x = Val.obj c a (s.1 ++ s.2)) ∧ s.1.length = 320 ∧ s.2.length = 64) ss fun x hx => by
    obtain ⟨s, hl, hcx⟩ := C116_safe_spend E x (ha.spends_ok.made mf x hx).1 (ha.spends_ok.made mf x hx).2
    have hi := (ha.spends_ok.made mf x hx).2
    cases x <;> simp [Val.isInstance] at hi
    next c a b => exact ⟨s, ⟨c, a, by rw [Option.some.inj hcx]⟩, hl⟩
  have hbs : bs = ws.map fun s => s.1 ++ s.2 := ha.spends_ok.bytes.unique (hws.contents fun x y h => by obtain ⟨⟨_, _, rfl⟩, _⟩ := h; rfl)
  subst hbs
  have s3 : ∀ s ∈ ws, s.1.length = 320 ∧ s.2.length = 64 := hws.right fun _ _ h => h.2
  have hj : ∀ b ∈ bj, b.length = 1698 := safe_bytes ha.js_ok.seq mi fun x hx hc => by
    obtain ⟨b, h1, -, h2, -⟩ := C116_safe_saplingJs E x hx hc; exact ⟨b, h1, h2⟩
  have ht : ∀ b ∈ bt, b.length = 948 := safe_bytes ha.outputs_ok mg fun x hx hc => C116_safe_output E x hx hc
  have lj := ha.js_ok.seq.length
  have lt := ha.outputs_ok.length
  have ls := hws.length
  have h5 := ha.js_ok.five
  have keys : bj ≠ [] → Byteslike j k ∧ k.length = 32 ∧ Byteslike k' s ∧ s.length = 64 := fun hne =>
    ha.js_ok.keys (fun e0 => hne (List.length_eq_zero_iff.1 (by rw [← lj]; exact e0)))
  have wf : ZTx.WF ⟨4, wi, wo, bl, be, bb, ws, bt, bj, k, s, bg⟩ := by
    refine ⟨⟨by simp, by simp⟩, ha.lock_len, ⟨by rw [← i1.length]; exact ha.ins_lt, i3⟩,
      ⟨by rw [o1]; exact ha.outs_lt, o3⟩, fun _ => ha.exp_len, ?_, fun hne => ⟨(keys hne).2.1, (keys hne).2.2.2⟩, fun _ => ha.bal_len, ?_, ?_, ?_⟩
    · rw [if_neg (by simp)]; exact ⟨by simp only; omega, hj⟩
    · exact ⟨by rw [← ls]; exact ha.spends_lt, s3⟩
    · exact ⟨by rw [← lt]; exact ha.outputs_lt, ht⟩
    · intro hne
      rcases hb with ⟨e0, -⟩ | ⟨-, hb⟩
      · obtain ⟨h1, h2⟩ := hbn e0
        rw [h1] at ls; rw [h2] at lt
        rcases hne with h | h
        · exact absurd (List.length_eq_zero_iff.1 ls.symm) h
        · exact absurd (List.length_eq_zero_iff.1 lt.symm) h
      · exact hb
  have hx : ZTx.bytes ⟨4, wi, wo, bl, be, bb, ws, bt, bj, k, s, bg⟩ = w.bytes := by
    have hx : x = wireSapling (wi.map WireIn.bytes) (wo.map WireOut.bytes) bl be bb (ws.map fun s => s.1 ++ s.2) bt bj k s bg := by
      rw [sapObj] at e; exact (Val.obj.inj e).2.2
    exact hx.symm.trans (Option.some.inj hcon)
  obtain ⟨e1, e2, e3, e4, e5, e6, e7, e8, e9, -⟩ := ztx4_fields wf rfl hw hver hx
  simp only at e1 e2 e3 e4 e5 e6 e7 e8 e9
  subst e1 e2 e3 e4 e5 e7
  have hsp := hw.spends
  rw [if_pos hver] at hsp
  have cut : ws.map (·.1) = w.spends.map (·.1) := by
    have := congrArg (List.map fun b : Bytes => b.take 320) e6
    rw [List.map_map, List.map_map] at this
    have go : ∀ l : List (Bytes × Bytes), (∀ s ∈ l, s.1.length = 320 ∧ s.2.length = 64) → l.map ((fun b : Bytes => b.take 320) ∘ fun s => s.1 ++ s.2) = l.map (·.1) :=
      fun l hl => List.map_congr_left fun s hs => by simp [(hl s hs).1]
    rwa [go _ s3, go _ hsp.2] at this
  have hsw : Twins (fun x s => ∃ c a b, x = Val.obj c a b ∧ b.take 320 = s) ss (w.spends.map (·.1)) := by
    rw [← cut]
    refine hws.map_right fun x y h => ?_
    obtain ⟨⟨c, a, rfl⟩, hl, -⟩ := h
    exact ⟨c, a, _, rfl, List.take_left' hl⟩
  rw [e, sapObj, jsObjs]
  by_cases hj0 : js = []
  · rw [if_pos hj0]
    have hb0 : bj = [] := ha.js_ok.seq.nil_iff.1 hj0
    rw [hb0] at e8
    exact ⟨⟨⟨_, rfl, i1⟩, ⟨_, rfl, ha.outs_ok.bytes⟩, ⟨_, rfl, ha.lock⟩, ⟨_, rfl, ha.exp⟩, ⟨_, rfl, by rw [← e8]; rfl⟩, fun h => absurd e8.symm h⟩,
      ⟨_, rfl, ha.bal⟩, ⟨_, rfl, hsw⟩, ⟨_, rfl, ha.outputs_ok.bytes⟩⟩
  · rw [if_neg hj0]
    have hb0 : bj ≠ [] := fun h => hj0 (ha.js_ok.seq.nil_iff.2 h)
    refine ⟨⟨⟨_, rfl, i1⟩, ⟨_, rfl, ha.outs_ok.bytes⟩, ⟨_, rfl, ha.lock⟩, ⟨_, rfl, ha.exp⟩, ⟨_, rfl, by rw [← e8]; exact ha.js_ok.seq.bytes⟩, fun _ => ⟨_, rfl, ?_⟩⟩,
      ⟨_, rfl, ha.bal⟩, ⟨_, rfl, hsw⟩, ⟨_, rfl, ha.outputs_ok.bytes⟩⟩
    rw [← (e9 hb0).1]; exact (keys hb0).1

/-! ### indices -/

/-- `index` is an integer that, from the front or from the back, points to the element `x` at `k`. -/
def At {α : Type} (l : List α) (index : Val) (k : Nat) (x : α) : Prop :=
  ∃ n : Int, index = .int n ∧ (n = k ∨ n = (k : Int) - l.length) ∧ l[k]? = some x

theorem At.unique {α : Type} {l : List α} {index : Val} {k k' : Nat} {x x' : α} (h : At l index k x) (h' : At l index k' x') : k = k' ∧ x = x' := by
  obtain ⟨n, rfl, hn, hx⟩ := h
  obtain ⟨n', e, hn', hx'⟩ := h'
  cases e
  have h1 := (List.getElem?_eq_some_iff.1 hx).1
  have h2 := (List.getElem?_eq_some_iff.1 hx').1
  have hk : k = k' := by omega
  subst hk
  rw [hx] at hx'
  exact ⟨rfl, Option.some.inj hx'⟩

theorem pyIndex_at {α : Type} {l : List α} {n : Int} {k : Nat} (h : pyIndex n l.length = some k) : ∃ x, At l (.int n) k x := by
  have hk := pyIndex_lt h
  refine ⟨l[k], n, rfl, ?_, List.getElem?_eq_getElem hk⟩
  unfold pyIndex at h
  split at h
  · split at h
    · left; have := Option.some.inj h; omega
    · cases h
  · split at h
    · right; have := Option.some.inj h; omega
    · cases h

theorem at_pyIndex {α : Type} {l : List α} {index : Val} {k : Nat} {x : α} (h : At l index k x) : ∃ n, index = .int n ∧ pyIndex n l.length = some k := by
  obtain ⟨n, rfl, hn, hx⟩ := h
  exact ⟨n, rfl, index_py hn (List.getElem?_eq_some_iff.1 hx).1⟩

/-- An element of a list whose elements correspond to those of another. -/
theorem item_iff {β : Type} {R : Val → β → Prop} {l : List Val} {m : List β} (h : Twins R l m) (index : Val) :
    (∃ k x y, At m index k x ∧ Val.itemOf l index = .ok y ∧ R y x) ∨
    (¬ ∃ k x, At m index k x) ∧ ((∃ n, index = .int n ∧ pyIndex n m.length = none ∧ Val.itemOf l index = .error .indexError) ∨
      (∀ n, index ≠ .int n) ∧ Val.itemOf l index = .error .typeError) := by
  cases index with
  | int n =>
    cases hp : pyIndex n m.length with
    | some k =>
      obtain ⟨x, hx⟩ := pyIndex_at hp
      have hk := pyIndex_lt hp
      have hl : k < l.length := by rw [h.length]; exact hk
      refine .inl ⟨k, x, l[k], hx, ?_, ?_⟩
      · exact getItem_ok (by rw [h.length]; exact hp)
      · obtain ⟨_, _, _, hx⟩ := hx
        have := h.get k hl hk
        rw [List.getElem?_eq_getElem hk] at hx
        rwa [Option.some.inj hx] at this
    | none =>
      refine .inr ⟨?_, .inl ⟨n, rfl, hp, getItem_none (by rw [h.length]; exact hp)⟩⟩
      rintro ⟨k, x, hx⟩
      obtain ⟨n', e, hp'⟩ := at_pyIndex hx
      cases e
      rw [hp] at hp'; cases hp'
  | _ => exact .inr ⟨fun ⟨_, _, _, e, _⟩ => (nomatch e), .inr ⟨fun _ e => (nomatch e), rfl⟩⟩

/-! ### the parts of the message -/

theorem mapPy_contents {R : Val → Bytes → Prop} {f : Val → Py Val} {l : List Val} {m : List Bytes} (h : Twins R l m)
    (hf : ∀ x b, R x b → ∃ y, f x = .ok y ∧ y.content = some b) : ∃ ys, mapPy f l = .ok ys ∧ Contents ys m := by
  induction h with
  | nil => exact ⟨[], rfl, rfl⟩
  | cons hr _ ih =>
    obtain ⟨ys, e, hc⟩ := ih
    obtain ⟨y, e1, h1⟩ := hf _ _ hr
    exact ⟨y :: ys, by simp only [mapPy, e1, e, ok_bind], contents_cons h1 hc⟩

theorem zPrevouts_eq {E : Env} {v : Val} {w : ZTx} (h : ZView v w) (acp : Val) : Dyn.zHashPrevouts E v acp =
    .ok (if acp.truthy then zeros32 else E.H.blake2b persPrevouts (w.zsig.ins.map (·.1)).flatten) := by
  unfold Dyn.zHashPrevouts
  split
  · rfl
  · obtain ⟨l, e, hl⟩ := h.ins
    obtain ⟨ys, e1, hc⟩ := mapPy_contents (f := Val.outpointOf) (hl.map_right (S := fun x b => ∃ i, InOf x i ∧ b = i.txId ++ i.index) (f := fun i => i.txId ++ i.index) fun x i h => ⟨i, h, rfl⟩)
      fun x b hx => by obtain ⟨i, ⟨o, s, r, g, q, b, rfl, ho, hq⟩, rfl⟩ := hx; exact ⟨o, rfl, ho⟩
    rw [e, ok_bind, e1, ok_bind, iaddAll_ok hc, ok_bind, ascii_prevouts]
    simp [ZTx.zsig, Function.comp_def]

theorem zSequence_eq {E : Env} {v : Val} {w : ZTx} (h : ZView v w) (n : Int) (acp : Val) : Dyn.zHashSequence E v (.int n) acp =
    .ok (if acp.truthy ∨ n = 3 then zeros32 else E.H.blake2b persSequence (w.zsig.ins.map (·.2)).flatten) := by
  unfold Dyn.zHashSequence
  by_cases ha : acp.truthy = true
  · rw [if_pos ha, if_pos (.inl ha)]; rfl
  · rw [if_neg ha]
    show (if decide (n = 3) = true then _ else _) = _
    by_cases hn : n = 3
    · rw [if_pos (by simpa using hn), if_pos (.inr hn)]; rfl
    · rw [if_neg (by simpa using hn), if_neg (by simp [ha, hn])]
      obtain ⟨l, e, hl⟩ := h.ins
      obtain ⟨ys, e1, hc⟩ := mapPy_contents (f := Val.sequenceOf) (hl.map_right (S := fun x b => ∃ i, InOf x i ∧ b = i.sequence) (f := fun i => i.sequence) fun x i h => ⟨i, h, rfl⟩)
        fun x b hx => by obtain ⟨i, ⟨o, s, r, g, q, b, rfl, ho, hq⟩, rfl⟩ := hx; exact ⟨q, rfl, hq⟩
      rw [e, ok_bind, e1, ok_bind, iaddAll_ok hc, ok_bind, ascii_sequence]
      simp [ZTx.zsig, Function.comp_def]

theorem contents_twins {l : List Val} {bs : List Bytes} (h : Contents l bs) : Twins (fun x b => x.content = some b) l bs := by
  induction l generalizing bs with
  | nil => cases bs with
    | nil => exact .nil
    | cons _ _ => simp [Contents] at h
  | cons x l ih => cases bs with
    | nil => simp [Contents] at h
    | cons b bs =>
      simp only [Contents, List.map_cons, List.cons.injEq] at h
      exact .cons h.1 (ih h.2)

theorem zOutputs_all {E : Env} {v : Val} {w : ZTx} (h : ZView v w) (index : Val) : Dyn.zHashOutputs E v (.int 1) index =
    .ok (E.H.blake2b persOutputs w.zsig.outs.flatten) := by
  obtain ⟨l, e, hl⟩ := h.outs
  show (do let outs ← v.zOutsOf; let data ← Val.iaddAll [] outs; .ok (E.H.blake2b (ascii (pystr "ZcashOutputsHash")) data) : Py Bytes) = _
  rw [e, ok_bind, iaddAll_ok hl, ok_bind, ascii_outputs]
  rfl

theorem zOutputs_other {E : Env} {v : Val} {n : Int} (h1 : n ≠ 1) (h3 : n ≠ 3) (index : Val) : Dyn.zHashOutputs E v (.int n) index = .ok zeros32 := by
  show (if ¬ (decide (n = 1) = true ∨ decide (n = 3) = true) then _ else _) = _
  rw [if_pos (by simp [h1, h3])]; rfl

theorem zOutputs_single {E : Env} {v : Val} {w : ZTx} (h : ZView v w) (index : Val) :
    (∃ j o, At w.outs index j o ∧ Dyn.zHashOutputs E v (.int 3) index = .ok (E.H.blake2b persOutputs o.bytes)) ∨
    (¬ ∃ j o, At w.outs index j o) ∧ ((∃ n : Int, index = .int n ∧ n > w.outs.length ∧ Dyn.zHashOutputs E v (.int 3) index = .error .notImplementedError) ∨
      (∃ n : Int, index = .int n ∧ ¬ n > w.outs.length ∧ pyIndex n w.outs.length = none ∧ Dyn.zHashOutputs E v (.int 3) index = .error .indexError) ∨
      (∀ n, index ≠ .int n) ∧ Dyn.zHashOutputs E v (.int 3) index = .error .typeError) := by
  obtain ⟨l, e, hl⟩ := h.outs
  have hll : l.length = w.outs.length := by have := congrArg List.length hl; simpa using this
  have hT : Twins (fun x (o : WireOut) => x.content = some o.bytes) l w.outs := by
    have : ∀ {m : List WireOut} {l : List Val}, Twins (fun x b => x.content = some b) l (m.map WireOut.bytes) → Twins (fun x (o : WireOut) => x.content = some o.bytes) l m := by
      intro m
      induction m with
      | nil => intro l h; cases h; exact .nil
      | cons o m ih => intro l h; cases h with
        | cons h1 h2 => exact .cons h1 (ih h2)
    exact this (contents_twins hl)
  have hd : Dyn.zHashOutputs E v (.int 3) index = (do
      let gt ← index.gtInt l.length
      if gt then .error .notImplementedError
      else do
        let o ← Val.itemOf l index
        let data ← Val.iadd [] o
        .ok (E.H.blake2b (ascii (pystr "ZcashOutputsHash")) data)) := by
    show (do let outs ← v.zOutsOf; _ : Py Bytes) = _
    rw [e, ok_bind]; rfl
  rw [hd]
  cases index with
  | int n =>
    show (∃ j o, At w.outs (.int n) j o ∧ (if decide (n > (l.length : Int)) = true then _ else _) = _) ∨ _ ∧ ((∃ m : Int, Val.int n = .int m ∧ m > w.outs.length ∧ (if decide (n > (l.length : Int)) = true then _ else _) = _) ∨
      (∃ m : Int, Val.int n = .int m ∧ ¬ m > w.outs.length ∧ _ ∧ (if decide (n > (l.length : Int)) = true then _ else _) = _) ∨ _)
    rw [hll]
    by_cases hg : n > (w.outs.length : Int)
    · refine .inr ⟨?_, .inl ⟨n, rfl, hg, if_pos (by simpa using hg)⟩⟩
      rintro ⟨j, o, n', e, hj, ho⟩
      cases e
      have := (List.getElem?_eq_some_iff.1 ho).1
      omega
    · rw [if_neg (by simpa using hg)]
      rcases item_iff hT (.int n) with ⟨k, o, y, hk, e1, e2⟩ | ⟨hno, ⟨m, e0, hp, e1⟩ | ⟨h0, -⟩⟩
      · refine .inl ⟨k, o, hk, ?_⟩
        rw [e1, ok_bind, iadd_ok.2 ⟨_, e2, rfl⟩, ok_bind, ascii_outputs]; rfl
      · cases e0
        refine .inr ⟨hno, .inr (.inl ⟨n, rfl, hg, hp, ?_⟩)⟩
        rw [e1]; rfl
      · exact absurd rfl (h0 n)
  | _ => exact .inr ⟨fun ⟨_, _, _, e, _⟩ => (nomatch e), .inr (.inr ⟨fun _ e => (nomatch e), rfl⟩)⟩

theorem zJs_eq {E : Env} {v : Val} {w : ZTx} (h : ZView v w) : Dyn.zHashJoinsplits E v = .ok (zHashJoinsplits E.H.blake2b w.zsig) := by
  obtain ⟨l, e, hl⟩ := h.js
  have hll : l.length = w.js.length := by have := congrArg List.length hl; simpa using this
  unfold Dyn.zHashJoinsplits zHashJoinsplits
  rw [e, ok_bind, hll]
  by_cases h0 : w.js = []
  · rw [if_pos (by simp [h0]), if_pos (show w.zsig.js = [] from h0)]; rfl
  · obtain ⟨x, e1, hx⟩ := h.key h0
    rw [if_neg (by simpa using h0), if_neg (show ¬ w.zsig.js = [] from h0), iaddAll_ok hl, ok_bind, e1, ok_bind, iadd_ok.2 ⟨_, hx, rfl⟩, ok_bind, ascii_joinsplits]
    rfl

theorem zSpends_eq {E : Env} {v : Val} {w : ZTx} (h : SapView v w) : Dyn.zHashSpends E v = .ok (zHashSpends E.H.blake2b w.zsig) := by
  obtain ⟨l, e, hl⟩ := h.spends
  have hll := hl.length
  unfold Dyn.zHashSpends zHashSpends
  rw [e, ok_bind, hll, List.length_map]
  by_cases h0 : w.spends = []
  · rw [if_pos (by simp [h0]), if_pos (by simp [ZTx.zsig, h0])]; rfl
  · obtain ⟨ys, e1, hc⟩ := mapPy_contents (f := Val.upTo 320) hl fun x b hx => by obtain ⟨c, a, y, rfl, rfl⟩ := hx; exact ⟨_, rfl, rfl⟩
    rw [if_neg (by simpa using h0), if_neg (by simp [ZTx.zsig, h0]), e1, ok_bind, iaddAll_ok hc, ok_bind, ascii_spends]
    rfl

theorem zShielded_eq {E : Env} {v : Val} {w : ZTx} (h : SapView v w) : Dyn.zHashShieldedOutputs E v = .ok (zHashShieldedOutputs E.H.blake2b w.zsig) := by
  obtain ⟨l, e, hl⟩ := h.outputs
  have hll : l.length = w.outputs.length := by have := congrArg List.length hl; simpa using this
  unfold Dyn.zHashShieldedOutputs zHashShieldedOutputs
  rw [e, ok_bind, hll]
  by_cases h0 : w.outputs = []
  · rw [if_pos (by simp [h0]), if_pos (show w.zsig.outputs = [] from h0)]; rfl
  · rw [if_neg (by simpa using h0), if_neg (show ¬ w.zsig.outputs = [] from h0), iaddAll_ok hl, ok_bind, ascii_shielded]
    rfl

theorem or_lt {n : Nat} (h : n < 2 ^ 32) : n ||| 128 < 2 ^ 32 := Nat.or_lt_two_pow h (by decide)

theorem zType_ok {ty acp t : Val} : Dyn.zTypeBytes ty acp = .ok t ↔
    ∃ n : Nat, ty = .int n ∧ n < 2 ^ 32 ∧ t = .bytes (leBytes 4 (if acp.truthy then n ||| 128 else n)) := by
  have key : ∀ k : Nat, (Val.int k).toLe 4 = .ok t ↔ k < 2 ^ 32 ∧ t = .bytes (leBytes 4 k) := by
    intro k
    by_cases hk : k < 2 ^ 32
    · rw [toLe_int, i2lePadded4 hk]
      simp only [Except.map]
      exact ⟨fun h => ⟨hk, (Except.ok.inj h).symm⟩, fun h => by rw [h.2]⟩
    · rw [toLe_int]
      have : i2lePadded k 4 = .error .overflowError := by
        unfold i2lePadded toBytesLE
        rw [if_neg (by omega)]
      rw [this]
      exact ⟨fun h => (nomatch h), fun h => absurd h.1 hk⟩
  have neg : ∀ k : Nat, (Val.int (.negSucc k)).toLe 4 ≠ .ok t := by
    intro k h
    obtain ⟨b, ⟨-, e⟩, -⟩ := toLe_ok.1 h
    have := Val.int.inj e
    omega
  unfold Dyn.zTypeBytes
  by_cases ha : acp.truthy = true
  · simp only [if_pos ha]
    cases ty with
    | int z =>
      cases z with
      | ofNat n =>
        have e : (Val.int (.ofNat n)).orInt SIGHASH_ANYONECANPAY = .ok (.int ((n ||| 128 : Nat) : Int)) := rfl
        rw [e, ok_bind, key]
        constructor
        · rintro ⟨h1, h2⟩; exact ⟨n, rfl, Nat.lt_of_le_of_lt Nat.left_le_or h1, h2⟩
        · rintro ⟨m, e, h1, h2⟩
          have : (n : Int) = m := Val.int.inj e
          have : n = m := by omega
          subst this
          exact ⟨or_lt h1, h2⟩
      | negSucc n =>
        constructor
        · intro h; exact absurd h (neg (n ^^^ (n &&& 128)))
        · rintro ⟨m, e, -⟩; cases e
    | _ => exact ⟨fun h => (nomatch h), fun ⟨m, e, _⟩ => (nomatch e)⟩
  · simp only [if_neg ha]
    rw [ok_bind]
    cases ty with
    | int z =>
      cases z with
      | ofNat n =>
        show (Val.int (n : Int)).toLe 4 = .ok t ↔ _
        rw [key]
        constructor
        · rintro ⟨h1, h2⟩; exact ⟨n, rfl, h1, h2⟩
        · rintro ⟨m, e, h1, h2⟩
          have : (n : Int) = m := Val.int.inj e
          have : n = m := by omega
          subst this
          exact ⟨h1, h2⟩
      | negSucc n =>
        constructor
        · intro h; exact absurd h (neg _)
        · rintro ⟨m, e, -⟩; cases e
    | _ => exact ⟨fun h => (nomatch h), fun ⟨m, e, _⟩ => (nomatch e)⟩

/-- The input that is signed: none if `joinsplit` is true; otherwise `index` points to it, and script code and amount are bytes-like, of any length. -/
def Signed (w : ZTx) (value script index js : Val) (inp : Option ZInput) : Prop :=
  ¬ IsFalse js ∧ inp = none ∨
  IsFalse js ∧ ∃ i x s a, At w.ins index i x ∧ Byteslike script s ∧ Byteslike value a ∧ inp = some ⟨x.txId ++ x.index, s, a, x.sequence⟩

theorem truthy_false (v : Val) : ¬ v.truthy = true ↔ IsFalse v := by rw [truthy_iff, Classical.not_not]

theorem zInput_cases {v : Val} {w : ZTx} (h : ZView v w) (value script index js : Val) :
    (∃ inp, Signed w value script index js inp ∧ ∀ data, Dyn.zInputPart v value script index js data = .ok (data ++ zInputPart inp)) ∨
    (¬ ∃ inp, Signed w value script index js inp) ∧ IsFalse js ∧ ((∃ n, index = .int n ∧ pyIndex n w.ins.length = none ∧ ∀ data, Dyn.zInputPart v value script index js data = .error .indexError) ∨
      ((∀ n, index ≠ .int n) ∨ script.content = none ∨ value.content = none) ∧ ∀ data, Dyn.zInputPart v value script index js data = .error .typeError) := by
  unfold Dyn.zInputPart
  by_cases hj : js.truthy = true
  · refine .inl ⟨none, .inl ⟨(truthy_iff _).1 hj, rfl⟩, fun data => ?_⟩
    rw [if_pos hj]; simp [zInputPart]
  · have hf := (truthy_false _).1 hj
    obtain ⟨l, e, hl⟩ := h.ins
    simp only [if_neg hj, e, ok_bind]
    rcases item_iff hl index with ⟨k, x, y, hk, e1, hr⟩ | ⟨hno, ⟨n, e0, hp, e1⟩ | ⟨h0, e1⟩⟩
    · obtain ⟨o, s, r, g, q, b, rfl, ho, hq⟩ := hr
      have hout : ∀ data, (do
          let data ← Val.iadd data o
          let data ← Val.iadd data script
          let data ← Val.iadd data value
          Val.iadd data q) = (do
          let data ← Val.iadd (data ++ (x.txId ++ x.index)) script
          let data ← Val.iadd data value
          Val.iadd data q) := by
        intro data; rw [iadd_ok.2 ⟨_, ho, rfl⟩, ok_bind]
      simp only [e1, ok_bind, Val.outpointOf, Val.sequenceOf, hout]
      cases hs : script.content with
      | none =>
        refine .inr ⟨?_, hf, .inr ⟨.inr (.inl rfl), fun data => ?_⟩⟩
        · rintro ⟨_, ⟨h, -⟩ | ⟨-, _, _, _, _, -, h, -⟩⟩
          · exact h hf
          · rw [Byteslike, hs] at h; cases h
        · simp [Val.iadd, hs, error_bind]
      | some sb =>
        cases hv : value.content with
        | none =>
          refine .inr ⟨?_, hf, .inr ⟨.inr (.inr rfl), fun data => ?_⟩⟩
          · rintro ⟨_, ⟨h, -⟩ | ⟨-, _, _, _, _, -, -, h, -⟩⟩
            · exact h hf
            · rw [Byteslike, hv] at h; cases h
          · simp [Val.iadd, hs, hv, ok_bind, error_bind]
        | some vb =>
          refine .inl ⟨_, .inr ⟨hf, k, x, sb, vb, hk, hs, hv, rfl⟩, fun data => ?_⟩
          simp [Val.iadd, hs, hv, hq, ok_bind, zInputPart]
    · refine .inr ⟨?_, hf, .inl ⟨n, e0, hp, fun data => ?_⟩⟩
      · rintro ⟨_, ⟨h, -⟩ | ⟨-, i, x, _, _, h, -⟩⟩
        · exact h hf
        · exact hno ⟨i, x, h⟩
      · rw [e1]; rfl
    · refine .inr ⟨?_, hf, .inr ⟨.inl h0, fun data => ?_⟩⟩
      · rintro ⟨_, ⟨h, -⟩ | ⟨-, i, x, _, _, h, -⟩⟩
        · exact h hf
        · exact hno ⟨i, x, h⟩
      · rw [e1]; rfl

end Verif.Props
