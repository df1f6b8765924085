import Verif.Model.DynSighash2
import Verif.Props.DynSighash
import Verif.Props.DynZSighash

/-! Property C126: what `sighash_all` and `sighash_single` of a `SproutTx` do with arguments of any type. -/

namespace Verif.Props
open Verif Spec

attribute [local irreducible] Env.hash256

/-- A Sprout transaction on the wire, of version 2 or 1. The signature may be missing. -/
structure SproutWire where
  two : Bool
  ins : List WireIn
  outs : List WireOut
  lock : Bytes
  js : List Bytes
  key : Bytes
  sig : Bytes

/-- The bytes before the signature, with these inputs. -/
def SproutWire.unsigned (w : SproutWire) (ins : List Bytes) : Bytes :=
  wireLegacy (leBytes 4 (if w.two then 2 else 1)) ins (w.outs.map WireOut.bytes) w.lock ++ (if w.two then vector w.js ++ w.key else [])

def SproutWire.bytes (w : SproutWire) : Bytes := w.unsigned (w.ins.map WireIn.bytes) ++ (if w.two then w.sig else [])

structure SproutWire.WF (w : SproutWire) : Prop where
  lock : w.lock.length = 4
  ins : w.ins.length < 2 ^ 64 ∧ ∀ i ∈ w.ins, i.WF
  outs : w.outs.length < 2 ^ 64 ∧ ∀ o ∈ w.outs, o.WF
  one : w.two = false → w.ins ≠ [] ∧ w.js = [] ∧ w.key = [] ∧ w.sig = []
  two : w.two = true → w.js.length ≤ 5 ∧ (∀ j ∈ w.js, j.length = 1802) ∧ w.key.length = 32 ∧ (w.sig = [] ∨ w.sig.length = 64)
  size : w.bytes.length ≤ 100000

/-- The inputs of the copy that is signed: all scripts are empty, but the one of input `i` is `s`. -/
def SproutWire.blanked (w : SproutWire) (i : Nat) (s : Bytes) : List Bytes := (w.ins.map fun x => (x.txId ++ x.index, x.sequence)).mapIdx (legacyIn i 1 s)

theorem SproutWire.bytes_eq (w : SproutWire) : w.bytes = leBytes 4 (if w.two then 2 else 1) ++ (vector (w.ins.map WireIn.bytes) ++ (vector (w.outs.map WireOut.bytes) ++
    (w.lock ++ (if w.two then vector w.js ++ (w.key ++ w.sig) else [])))) := by
  unfold SproutWire.bytes SproutWire.unsigned wireLegacy
  cases w.two <;> simp

/-- The bytes determine the fields. -/
theorem SproutWire.bytes_inj {w w' : SproutWire} (h : w.WF) (h' : w'.WF) (e : w.bytes = w'.bytes) : w = w' := by
  rw [SproutWire.bytes_eq, SproutWire.bytes_eq] at e
  obtain ⟨e0, ea⟩ := List.append_inj e (by rw [leBytes_length, leBytes_length])
  obtain ⟨e1, e2, eb⟩ := body_inj h.ins h'.ins h.outs h'.outs ea
  obtain ⟨e3, ec⟩ := List.append_inj eb (by rw [h.lock, h'.lock])
  clear e ea eb
  have one := h.one
  have one' := h'.one
  have two := h.two
  have two' := h'.two
  obtain ⟨t, ins, outs, lock, js, key, sig⟩ := w
  obtain ⟨t', ins', outs', lock', js', key', sig'⟩ := w'
  simp only at e0 e1 e2 e3 ec one one' two two'
  subst e1 e2 e3
  cases t <;> cases t'
  · obtain ⟨-, rfl, rfl, rfl⟩ := one rfl
    obtain ⟨-, rfl, rfl, rfl⟩ := one' rfl
    rfl
  · exact absurd (show leBytes 4 1 = leBytes 4 2 from e0) (by decide)
  · exact absurd (show leBytes 4 2 = leBytes 4 1 from e0) (by decide)
  · obtain ⟨a1, a2, a3, a4⟩ := two rfl
    obtain ⟨b1, b2, b3, b4⟩ := two' rfl
    simp only [if_true] at ec
    obtain ⟨rfl, e⟩ := vector_inj (fixed_selfDelim 1802) a2 b2 (by omega) (by omega) ec
    obtain ⟨rfl, rfl⟩ := List.append_inj e (by rw [a3, b3])
    rfl

/-- An object and its fields. -/
structure SprView (v : Val) (w : SproutWire) (ver lock pk sg : Val) (ins outs js : List Val) (ti : List TxIn) : Prop where
  obj : ∃ E hs ps, v = sproutObj E ver lock pk sg ins outs js hs ps w.bytes
  ver : Byteslike ver (leBytes 4 (if w.two then 2 else 1))
  lock : Byteslike lock w.lock
  twins : Twins InTwin ins ti
  wins : w.ins = ti.map wireOf
  outs : SeqOf .txOut (.tuple outs) outs (w.outs.map WireOut.bytes)
  one : w.two = false → js = []
  two : w.two = true → V2Args (.tuple js) pk sg js w.js w.key w.sig
  made : ∀ x ∈ js, x.isInstance .sproutJs = true → JsMade .sproutJs .sproutProof x
  wf : w.WF

theorem seqOf_tuple {c : Cls} {v : Val} {l : List Val} {bs : List Bytes} (h : SeqOf c v l bs) : SeqOf c (.tuple l) l bs := ⟨.inl (.inr rfl), h.cls, h.bytes⟩

theorem spr_view {S : Network → Prop} {E : Env} {v : Val} (h : MadeOn S E v) (hc : v.isInstance .sproutTx = true) : ∃ w ver lock pk sg ins outs js ti, SprView v w ver lock pk sg ins outs js ti := by
  cases v <;> simp [Val.isInstance] at hc
  next c t x =>
  subst hc
  obtain ⟨m, -, a, b, c, d, e, f, g, mb, mc, me, h⟩ := made_on h
  have hm : ∀ l, IsSeq e l → ∀ v ∈ l, v.isInstance .sproutJs = true → JsMade .sproutJs .sproutProof v := by
    intro l hl v hv hc
    obtain ⟨_, _, _, _, hj⟩ := C116_safe_sproutJs E v (made_seq me hl v hv) hc
    exact hj
  obtain ⟨bv, bl, ins, outs, bi, bo, ha, hh⟩ := ((C116_sprout ⟨m, E.H⟩ _ _ _ _ _ _ _ hm).1 _).1 h
  obtain ⟨ti, hti⟩ := twins_of ins fun x hx => in_twin (ha.ins_ok.made mb x hx).1 (ha.ins_ok.made mb x hx).2
  have hb : ∀ i ∈ ti, i.Built := hti.right fun _ _ h => h.built
  have hbi : bi = (ti.map wireOf).map WireIn.bytes := by
    rw [ins_fields hb]
    exact ha.ins_ok.bytes.unique (hti.contents fun _ _ h => h.inst.2)
  obtain ⟨wo, o1, rfl, o3⟩ := safe_outs ha.outs_ok mc
  have li : (ti.map wireOf).length < 2 ^ 64 := by rw [List.length_map, ← hti.length]; exact ha.ins_lt
  have lo : wo.length < 2 ^ 64 := by rw [o1]; exact ha.outs_lt
  rcases hh with ⟨rfl, hj, hi, hs, e⟩ | ⟨rfl, js, bj, k, s, h2, hs, e⟩
  · refine ⟨⟨false, ti.map wireOf, wo, bl, [], [], []⟩, a, d, .none, .none, ins, outs, [], ti, ?_⟩
    have hbytes : (⟨false, ti.map wireOf, wo, bl, [], [], []⟩ : SproutWire).bytes = wireLegacy [1, 0, 0, 0] bi (wo.map WireOut.bytes) bl := by
      simp only [SproutWire.bytes, SproutWire.unsigned, Bool.false_eq_true, if_false, List.append_nil, hbi, show leBytes 4 1 = [1, 0, 0, 0] by decide]
    refine ⟨⟨_, _, _, by rw [hbytes]; exact e⟩, (show Byteslike a (leBytes 4 1) by rw [show leBytes 4 1 = [1, 0, 0, 0] by decide]; exact ha.ver), ha.lock, hti, rfl, seqOf_tuple ha.outs_ok, fun _ => rfl, (fun h => by cases h), (fun x hx => by cases hx),
      ha.lock_len, ⟨li, ins_wf hb⟩, ⟨lo, o3⟩, fun _ => ⟨fun h0 => hi ?_, rfl, rfl, rfl⟩, (fun h => by cases h), by rw [hbytes]; exact hs⟩
    have : ti = [] := by simpa using h0
    subst this
    cases hti; rfl
  · have hj : ∀ b ∈ bj, b.length = 1802 := safe_bytes h2.seq me fun x hx hc => by
      obtain ⟨b, h1, -, h2, -⟩ := C116_safe_sproutJs E x hx hc; exact ⟨b, h1, h2⟩
    have h5 := h2.five
    rw [h2.seq.length] at h5
    refine ⟨⟨true, ti.map wireOf, wo, bl, bj, k, s⟩, a, d, f, g, ins, outs, js, ti, ?_⟩
    have hbytes : (⟨true, ti.map wireOf, wo, bl, bj, k, s⟩ : SproutWire).bytes = wireLegacy [2, 0, 0, 0] bi (wo.map WireOut.bytes) bl ++ vector bj ++ k ++ s := by
      simp only [SproutWire.bytes, SproutWire.unsigned, if_true, hbi, show leBytes 4 2 = [2, 0, 0, 0] by decide, List.append_assoc]
    exact ⟨⟨_, _, _, by rw [hbytes]; exact e⟩, (show Byteslike a (leBytes 4 2) by rw [show leBytes 4 2 = [2, 0, 0, 0] by decide]; exact ha.ver), ha.lock, hti, rfl, seqOf_tuple ha.outs_ok, (fun h => by cases h),
      fun _ => ⟨seqOf_tuple h2.seq, h2.five, h2.key, h2.key_len, h2.sig, h2.sig_len⟩, fun x hx => h2.seq.seq.elim (fun hq => hm js hq x hx) (fun hq => by rw [hq.2] at hx; cases hx),
      ha.lock_len, ⟨li, ins_wf hb⟩, ⟨lo, o3⟩, (fun h => by cases h), fun _ => ⟨h5, hj, h2.key_len, h2.sig_len⟩, by rw [hbytes]; exact hs⟩

theorem spr_view_of {S : Network → Prop} {E : Env} {v : Val} (h : MadeOn S E v) (hc : v.isInstance .sproutTx = true) {w : SproutWire} (hw : w.WF) (hcon : v.content = some w.bytes) :
    ∃ ver lock pk sg ins outs js ti, SprView v w ver lock pk sg ins outs js ti := by
  obtain ⟨w', ver, lock, pk, sg, ins, outs, js, ti, V⟩ := spr_view h hc
  have e : w'.bytes = w.bytes := by
    obtain ⟨E', hs, ps, rfl⟩ := V.obj
    exact Option.some.inj hcon
  rw [SproutWire.bytes_inj V.wf hw e] at V
  exact ⟨ver, lock, pk, sg, ins, outs, js, ti, V⟩

/-- The copy without signature, with other inputs or the same. -/
theorem spr_copy {E : Env} (hg : E.net.isZcash = true ∧ E.net.isSprout = true) {v : Val} {w : SproutWire} {ver lock pk sg : Val} {ins outs js : List Val} {ti : List TxIn}
    (h : SprView v w ver lock pk sg ins outs js ti)
    (a : Val) {c : List Val} {bs : List Bytes} (hc : SeqOf .txIn (Dyn.keep a (.tuple ins)) c bs) (hl : c.length < 2 ^ 64) (hne : w.two = false → c ≠ []) :
    ((w.unsigned bs).length ≤ 100000 ∧ ∃ x, Dyn.copySprout E v .none a .none .none .none .none (.bytes []) = .ok x ∧ x.content = some (w.unsigned bs)) ∨
    (¬ (w.unsigned bs).length ≤ 100000) ∧ Dyn.copySprout E v .none a .none .none .none .none (.bytes []) = .error .valueError := by
  obtain ⟨E', hs, ps, rfl⟩ := h.obj
  have e : Dyn.copySprout E (sproutObj E' ver lock pk sg ins outs js hs ps w.bytes) .none a .none .none .none .none (.bytes []) =
      Dyn.sproutTx E ver (Dyn.keep a (.tuple ins)) (.tuple outs) lock (.tuple js) pk (.bytes []) := rfl
  rw [e]
  have hm : ∀ l, IsSeq (.tuple js) l → ∀ v ∈ l, v.isInstance .sproutJs = true → JsMade .sproutJs .sproutProof v := by
    rintro l (h1 | h1)
    · cases h1
    · cases h1; exact h.made
  obtain ⟨h1, h2⟩ := C116_sprout E ver (Dyn.keep a (.tuple ins)) (.tuple outs) lock (.tuple js) pk (.bytes []) hm
  have ha : SproutArgs E.net ver (Dyn.keep a (.tuple ins)) (.tuple outs) lock (leBytes 4 (if w.two then 2 else 1)) w.lock c outs bs (w.outs.map WireOut.bytes) :=
    ⟨hg.1, hg.2, h.ver, leBytes_length _ _, h.lock, h.wf.lock, hc, hl, h.outs, by rw [h.outs.length, List.length_map]; exact h.wf.outs.1⟩
  by_cases hsz : (w.unsigned bs).length ≤ 100000
  · refine .inl ⟨hsz, ?_⟩
    cases h2w : w.two with
    | false =>
      have hj := h.one h2w
      subst hj
      have hu : w.unsigned bs = wireLegacy [1, 0, 0, 0] bs (w.outs.map WireOut.bytes) w.lock := by
        simp only [SproutWire.unsigned, h2w, Bool.false_eq_true, if_false, List.append_nil, show leBytes 4 1 = [1, 0, 0, 0] by decide]
      rw [hu] at hsz ⊢
      rw [h2w] at ha
      exact ⟨_, (h1 _).2 ⟨[1, 0, 0, 0], w.lock, c, outs, bs, _, ha, .inl ⟨rfl, rfl, hne h2w, hsz, rfl⟩⟩, rfl⟩
    | true =>
      have hv := h.two h2w
      have hu : w.unsigned bs = wireLegacy [2, 0, 0, 0] bs (w.outs.map WireOut.bytes) w.lock ++ vector w.js ++ w.key ++ [] := by
        simp only [SproutWire.unsigned, h2w, if_true, List.append_nil, show leBytes 4 2 = [2, 0, 0, 0] by decide, List.append_assoc]
      rw [hu] at hsz ⊢
      rw [h2w] at ha
      exact ⟨_, (h1 _).2 ⟨[2, 0, 0, 0], w.lock, c, outs, bs, _, ha, .inr ⟨rfl, js, w.js, w.key, [], ⟨hv.seq, hv.five, hv.key, hv.key_len, rfl, .inl rfl⟩, hsz, rfl⟩⟩, rfl⟩
  · refine .inr ⟨hsz, ?_⟩
    cases hr : Dyn.sproutTx E ver (Dyn.keep a (.tuple ins)) (.tuple outs) lock (.tuple js) pk (.bytes []) with
    | error e =>
      rcases h2 e hr with rfl | ⟨-, h3 | h3 | h3 | h3⟩
      · rfl
      · rw [hc.iter.2] at h3; cases h3
      · cases h3
      · cases h3
      · cases h3
    | ok x =>
      exfalso
      apply hsz
      obtain ⟨bv, bl, ins', outs', bi, bo, ha', hh⟩ := (h1 x).1 hr
      have e1 : bv = leBytes 4 (if w.two then 2 else 1) := Option.some.inj (ha'.ver.symm.trans h.ver)
      have e2 : bl = w.lock := Option.some.inj (ha'.lock.symm.trans h.lock)
      have e3 : ins' = c := by
        have := ha'.ins_ok.iter.1.symm.trans hc.iter.1
        exact Except.ok.inj this
      have e4 : outs' = outs := by
        have := ha'.outs_ok.iter.1.symm.trans h.outs.iter.1
        exact Except.ok.inj this
      subst e3 e4
      have e5 : bi = bs := ha'.ins_ok.bytes.unique hc.bytes
      have e6 : bo = w.outs.map WireOut.bytes := ha'.outs_ok.bytes.unique h.outs.bytes
      subst e5 e6 e2
      rcases hh with ⟨hv, -, -, hs, -⟩ | ⟨hv, js', bj, k, s, hv2, hs, -⟩
      · have h2w : w.two = false := by
          cases h2w : w.two
          · rfl
          · rw [e1, h2w] at hv; exact absurd hv (by decide)
        rw [e1] at hs
        simp only [SproutWire.unsigned, h2w, Bool.false_eq_true, if_false, List.append_nil] at hs ⊢
        exact hs
      · have h2w : w.two = true := by
          cases h2w : w.two
          · rw [e1, h2w] at hv; exact absurd hv (by decide)
          · rfl
        have hvw := h.two h2w
        have e7 : js' = js := Except.ok.inj (hv2.seq.iter.1.symm.trans hvw.seq.iter.1)
        subst e7
        have e8 : bj = w.js := hv2.seq.bytes.unique hvw.seq.bytes
        have e9 : k = w.key := Option.some.inj (hv2.key.symm.trans hvw.key)
        rw [e1, e8, e9] at hs
        simp only [SproutWire.unsigned, h2w, if_true, List.length_append] at hs ⊢
        omega

/-! ### the copy that is signed -/

theorem varInt_read {net : Network} {s : Bytes} {x : VarInt} : VarInt.fromBytes net s = .ok x ↔ ∃ first tl, s = first :: tl ∧
    readVarInt (net.isOverwinter || net.isSapling) first tl = some (x.bytes, x.number) := by
  rw [C09_exact]
  cases s with
  | nil => simp
  | cons first tl =>
    cases hv : readVarInt (net.isOverwinter || net.isSapling) first tl with
    | none => simp [hv]
    | some r =>
      obtain ⟨p, k⟩ := r
      obtain ⟨bytes, number⟩ := x
      simp [hv]

theorem setOf_ok {l : List Val} {n : Int} {i : Nat} (h : pyIndex n l.length = some i) (x : Val) : Val.setOf l x (.int n) = .ok (l.set i x) := by
  show setItem l n x = _
  unfold setItem; rw [h]

theorem prepIns_set {ti : List TxIn} {i : Nat} (hi : i < ti.length) (s : Bytes) :
    (ti.map fun x => inWith [] x.sequence x).set i (inWith s ti[i].sequence ti[i]) = prepIns ti i s := by
  apply List.ext_getElem
  · simp [prepIns]
  · intro k h1 h2
    simp only [prepIns, List.getElem_set, List.getElem_map, List.getElem_mapIdx]
    by_cases c : i = k
    · subst c; simp
    · rw [if_neg c, if_neg (fun h => c h.symm)]

theorem blank_ins {ti : List TxIn} {ins : List Val} (h : Twins InTwin ins ti) :
    ∃ l, mapPy (fun i => Dyn.copyTxIn i .none (.bytes []) (.bytes []) .none) ins = .ok l ∧ Twins InTwin l (ti.map fun x => inWith [] x.sequence x) := by
  have hb : ∀ i ∈ ti, i.Built := h.right fun _ _ h => h.built
  have hm := mapPy_ok (f := fun i : TxIn => i.copy (stackScript := some []) (redeemScript := some [])) (g := fun i => inWith [] i.sequence i)
      (l := ti) (fun x hx => inWith_make ((hb x hx).eq).1 (by simp) ((hb x hx).eq).2.1)
  have := same_mapPy (S := InTwin) (f := fun i => Dyn.copyTxIn i .none (.bytes []) (.bytes []) .none) (g := fun i : TxIn => i.copy (stackScript := some []) (redeemScript := some [])) h
    fun x i hx => same_copyIn hx (.inr ⟨[], rfl, rfl, _, .inl rfl⟩) (.inr ⟨[], rfl, rfl, _, .inl rfl⟩) (.inl ⟨rfl, rfl⟩)
  rw [hm] at this
  generalize mapPy (fun i => Dyn.copyTxIn i .none (.bytes []) (.bytes []) .none) ins = p at this
  cases this with
  | ok hr => exact ⟨_, rfl, hr⟩

/-- One input with another script. -/
theorem redeem_in {i : TxIn} (hb : i.Built) {x : Val} (h : InTwin x (inWith [] i.sequence i)) {r : Val} {b : Bytes} (hr : r.content = some b) (rr : RawBytes r) :
    (b.length ≤ 1650 ∧ ∃ y, Dyn.copyTxIn x .none .none r .none = .ok y ∧ InTwin y (inWith b i.sequence i)) ∨
    (¬ b.length ≤ 1650) ∧ Dyn.copyTxIn x .none .none r .none = .error .valueError := by
  have hs := same_copyIn h (s := .none) (r := r) (q := .none) (S := none) (R := some b) (Q := none) (.inl ⟨rfl, rfl⟩) (.inr ⟨b, hr, rfl, rr⟩) (.inl ⟨rfl, rfl⟩)
  by_cases hl : b.length ≤ 1650
  · have e : (inWith [] i.sequence i).copy none none (some b) none = .ok (inWith b i.sequence i) := inWith_make hb.eq.1 hl hb.eq.2.1
    rw [e] at hs
    generalize Dyn.copyTxIn x .none .none r .none = p at hs
    cases hs with
    | ok h => exact .inl ⟨hl, _, rfl, h⟩
  · have e : (inWith [] i.sequence i).copy none none (some b) none = .error .valueError := copy_long (by simp [inWith]) hl
    rw [e] at hs
    generalize Dyn.copyTxIn x .none .none r .none = p at hs
    cases hs with
    | error => exact .inr ⟨hl, rfl⟩

section
variable {E : Env} {v : Val} {w : SproutWire} {ver lock pk sg : Val} {ins outs js : List Val} {ti : List TxIn}

theorem spr_ins (h : SprView v w ver lock pk sg ins outs js ti) : v.sproutInsOf = .ok ins := by
  obtain ⟨E', hs, ps, rfl⟩ := h.obj; rfl

theorem spr_js (h : SprView v w ver lock pk sg ins outs js ti) : v.sproutJsOf = .ok (.tuple js) := by
  obtain ⟨E', hs, ps, rfl⟩ := h.obj; rfl

theorem spr_len (h : SprView v w ver lock pk sg ins outs js ti) : ins.length = w.ins.length := by
  rw [h.wins, List.length_map, h.twins.length]

theorem blanked_eq (h : SprView v w ver lock pk sg ins outs js ti) (i : Nat) (s : Bytes) : (prepIns ti i s).map (·.bytes) = w.blanked i s := by
  rw [prepIns_bytes' (h.twins.right fun _ _ h => h.built) i s (T := 1) rfl, SproutWire.blanked, h.wins, List.map_map]
  rfl

/-- Without inputs. -/
theorem spr_prep_nil (hg : E.net.isZcash = true ∧ E.net.isSprout = true) (h : SprView v w ver lock pk sg ins outs js ti) (h0 : w.ins = []) (index script : Val) :
    ∃ x, Dyn.sproutPrep E v index script = .ok x ∧ x.content = some (w.unsigned []) := by
  have hl := spr_len h
  rw [h0] at hl
  have hi : ins = [] := List.length_eq_zero_iff.1 hl
  have hti := h.twins
  rw [hi] at hti
  unfold Dyn.sproutPrep
  rw [spr_ins h, ok_bind, if_pos (show ins.length = 0 from hl)]
  rcases spr_copy hg h .none (c := ins) (bs := []) ⟨.inl (.inr rfl), by rw [hi]; simp, by rw [hi]; rfl⟩ (by rw [hi]; decide) (fun h1 => absurd h0 (h.wf.one h1).1) with ⟨-, hx⟩ | ⟨hn, -⟩
  · exact hx
  · exfalso
    apply hn
    have := h.wf.size
    rw [SproutWire.bytes, h0, List.length_append] at this
    exact Nat.le_trans (Nat.le_add_right _ _) this

/-- With inputs: the arguments are good, then the copy is made unless the script or the copy is too long. -/
theorem spr_prep_cons (hg : E.net.isZcash = true ∧ E.net.isSprout = true) (h : SprView v w ver lock pk sg ins outs js ti) {index script : Val} {i : Nat} {inp : WireIn} (hi : At w.ins index i inp) {s : Bytes}
    (hs : script.content = some s) {x : VarInt} (hx : VarInt.fromBytes E.net s = .ok x) :
    ((s.drop x.bytes.length).length ≤ 1650 ∧ (w.unsigned (w.blanked i (s.drop x.bytes.length))).length ≤ 100000 ∧
      ∃ c, Dyn.sproutPrep E v index script = .ok c ∧ c.content = some (w.unsigned (w.blanked i (s.drop x.bytes.length)))) ∨
    (¬ ((s.drop x.bytes.length).length ≤ 1650 ∧ (w.unsigned (w.blanked i (s.drop x.bytes.length))).length ≤ 100000)) ∧ Dyn.sproutPrep E v index script = .error .valueError := by
  obtain ⟨n, rfl, hp⟩ := at_pyIndex hi
  have hlen := spr_len h
  have hti : ti.length = w.ins.length := by rw [← h.twins.length]; exact hlen
  have hpos := pyIndex_lt hp
  obtain ⟨l, e1, hl⟩ := blank_ins h.twins
  have hll : l.length = w.ins.length := by rw [hl.length, List.length_map, hti]
  have e2 : Val.itemOf l (.int n) = .ok (l[i]'(by omega)) := getItem_ok (by rw [hll]; exact hp)
  obtain ⟨r, e3, hr, rr⟩ := twin_from hs x.bytes.length
  have hb : ti[i].Built := (h.twins.right fun _ _ h => h.built) _ (List.getElem_mem (by omega))
  have hin : InTwin (l[i]'(by omega)) (inWith [] ti[i].sequence ti[i]) := by
    have := hl.get i (by omega) (by rw [List.length_map]; omega)
    rwa [List.getElem_map] at this
  unfold Dyn.sproutPrep
  rw [spr_ins h, ok_bind, if_neg (by omega), e1, ok_bind, readVarInt_content hs, hx, ok_bind, e2, ok_bind, e3, ok_bind]
  rcases redeem_in hb hin hr rr with ⟨h1, y, e4, hy⟩ | ⟨h1, e4⟩
  · rw [e4, ok_bind, setOf_ok (by rw [hll]; exact hp), ok_bind]
    have hset := hl.set i hy
    rw [prepIns_set (by omega)] at hset
    have hsl : (l.set i y).length = w.ins.length := by rw [List.length_set, hll]
    have hcb : Contents (l.set i y) (w.blanked i (s.drop x.bytes.length)) := by
      rw [← blanked_eq h]; exact hset.contents fun _ _ h => h.inst.2
    rcases spr_copy hg h (.list (l.set i y)) (c := l.set i y) ⟨.inl (.inl rfl), List.all_eq_true.2 (hset.left fun _ _ h => h.inst.1), hcb⟩ (by rw [hsl]; exact h.wf.ins.1)
      (fun _ h0 => by rw [h0] at hsl; simp at hsl; omega) with ⟨h2, hc⟩ | ⟨h2, e5⟩
    · exact .inl ⟨h1, h2, hc⟩
    · exact .inr ⟨fun hh => h2 hh.2, e5⟩
  · rw [e4, error_bind]
    exact .inr ⟨fun hh => h1 hh.1, rfl⟩

theorem spr_need (h : SprView v w ver lock pk sg ins outs js ti) (h0 : w.ins ≠ []) {index script c : Val} (hc : Dyn.sproutPrep E v index script = .ok c) :
    ∃ i inp s x, At w.ins index i inp ∧ script.content = some s ∧ VarInt.fromBytes E.net s = .ok x := by
  have hlen := spr_len h
  have hne : ¬ ins.length = 0 := by rw [hlen]; exact fun h => h0 (List.length_eq_zero_iff.1 h)
  obtain ⟨l, e1, hl⟩ := blank_ins h.twins
  unfold Dyn.sproutPrep at hc
  rw [spr_ins h, ok_bind, if_neg hne, e1, ok_bind] at hc
  simp only [bind_ok_iff] at hc
  obtain ⟨x, hx, cur, hcur, rest, hr, cur', hc', _⟩ := hc
  have hw : Twins (fun _ _ => True) l w.ins := by
    have : ∀ {α β : Type} {l : List α} {m : List β}, l.length = m.length → Twins (fun _ _ => True) l m := by
      intro α β l
      induction l with
      | nil => intro m h; cases m with
        | nil => exact .nil
        | cons _ _ => cases h
      | cons a l ih => intro m h; cases m with
        | nil => cases h
        | cons b m => exact .cons trivial (ih (by simpa using h))
    exact this (by rw [hl.length, List.length_map, ← h.twins.length, hlen])
  rcases item_iff hw index with ⟨k, y, _, hk, -⟩ | ⟨-, ⟨_, _, _, e⟩ | ⟨_, e⟩⟩
  · cases hs : script.content with
    | some s =>
      rw [readVarInt_content hs] at hx
      exact ⟨k, y, s, x, hk, rfl, hx⟩
    | none =>
      obtain ⟨h1, h2⟩ := from_none hs hr
      unfold Dyn.copyTxIn at hc'
      split at hc'
      · have e : ∀ c, Dyn.keep rest c = rest := by intro c; cases rest <;> first | rfl | exact absurd rfl h2
        rw [e] at hc'
        obtain ⟨_, _, br, _, _, _, _, hb, _⟩ := ((C114_txIn _ _ _ _).1 _).1 hc'
        rw [Byteslike, h1] at hb; cases hb
      · cases hc'
  · rw [e] at hcur; cases hcur
  · rw [e] at hcur; cases hcur

theorem copySprout_gate {v a b c d e f g x : Val} (h : Dyn.copySprout E v a b c d e f g = .ok x) : E.net.isZcash = true ∧ E.net.isSprout = true := by
  unfold Dyn.copySprout at h
  split at h
  · unfold Dyn.sproutTx at h
    obtain ⟨_, h1, h⟩ := (bind_ok_iff ..).1 h
    obtain ⟨_, h2, h⟩ := (bind_ok_iff ..).1 h
    exact ⟨zcashGate_ok.1 h1, check_eq_ok.1 h2⟩
  · cases h

/-- The copy is made on a network of Sprout only. -/
theorem spr_gate {v index script c : Val} (h : Dyn.sproutPrep E v index script = .ok c) : E.net.isZcash = true ∧ E.net.isSprout = true := by
  unfold Dyn.sproutPrep at h
  obtain ⟨ins, _, h⟩ := (bind_ok_iff ..).1 h
  split at h
  · exact copySprout_gate h
  · simp only [bind_ok_iff] at h
    obtain ⟨_, _, _, _, _, _, _, _, _, _, _, _, h⟩ := h
    exact copySprout_gate h

theorem spr_final (hz : E.net.isZcash = true) {c : Val} {b : Bytes} (hc : c.content = some b) : Dyn.sproutFinal E c SIGHASH_ALL = .ok (.bytes (E.hash256 (b ++ leBytes 4 1))) := by
  unfold Dyn.sproutFinal
  rw [(zcashGate_ok (u := ())).2 hz, ok_bind, iadd_ok.2 ⟨_, hc, rfl⟩, ok_bind, i2lePadded4 (by decide), ok_bind]
  rfl

end

/-! ### C126 -/

/-- C126: what `sighash_all` of a `SproutTx` is, for arguments of any type. It returns something exactly if the network selected now is one of Sprout (whatever it was when the
object was made), `anyone_can_pay` is false in Python's sense and either there are no inputs, when neither index nor script are looked at, or the index is an integer that points to an input (from the front or from the back), the script is bytes-like and begins
with something that reads as a number, at most 1650 bytes follow, and the copy has at most 100000 bytes. Then it is the double hash of the copy, with the joinsplits and their key
but no signature, and the number 1. -/
theorem C126_all {S : Network → Prop} (E : Env) (v : Val) (h : MadeOn S E v) (hc : v.isInstance .sproutTx = true) (w : SproutWire) (hw : w.WF) (hcon : v.content = some w.bytes)
    (index script acp d : Val) : Dyn.sproutSighashAll E v index script acp = .ok d ↔ (E.net.isZcash = true ∧ E.net.isSprout = true) ∧ IsFalse acp ∧
      (w.ins = [] ∧ d = .bytes (E.hash256 (w.unsigned [] ++ leBytes 4 1)) ∨
        ∃ i inp first tl p k, At w.ins index i inp ∧ Byteslike script (first :: tl) ∧ readVarInt (E.net.isOverwinter || E.net.isSapling) first tl = some (p, k) ∧
          ((first :: tl).drop p.length).length ≤ 1650 ∧ (w.unsigned (w.blanked i ((first :: tl).drop p.length))).length ≤ 100000 ∧
          d = .bytes (E.hash256 (w.unsigned (w.blanked i ((first :: tl).drop p.length)) ++ leBytes 4 1))) := by
  obtain ⟨ver, lock, pk, sg, ins, outs, js, ti, V⟩ := spr_view_of h hc hw hcon
  rw [← truthy_false]
  unfold Dyn.sproutSighashAll
  by_cases ht : acp.truthy = true
  · refine ⟨fun hd => ?_, fun hd => absurd ht hd.2.1⟩
    obtain ⟨c, _, hd⟩ := (bind_ok_iff ..).1 hd
    rw [if_pos ht] at hd
    unfold Dyn.sproutAnyoneCanPay at hd
    rw [spr_js V, ok_bind, if_pos (show (Val.tuple js).given = true from rfl)] at hd
    cases hd
  · simp only [if_neg ht, bind_ok_iff]
    have fin : (E.net.isZcash = true ∧ E.net.isSprout = true) → ∀ {c b}, c.content = some b → (Dyn.sproutFinal E c SIGHASH_ALL = .ok d ↔ d = .bytes (E.hash256 (b ++ leBytes 4 1))) := by
      intro hg c b hcb
      rw [spr_final hg.1 hcb]
      exact ⟨fun h => (Except.ok.inj h).symm, fun h => by rw [h]⟩
    constructor
    · rintro ⟨c, hp, hd⟩
      have hg := spr_gate hp
      refine ⟨hg, ht, ?_⟩
      by_cases h0 : w.ins = []
      · obtain ⟨x, e, hx⟩ := spr_prep_nil hg V h0 index script
        rw [e] at hp
        rw [← Except.ok.inj hp] at hd
        exact .inl ⟨h0, (fin hg hx).1 hd⟩
      · obtain ⟨i, inp, s, x, hi, hs, hx⟩ := spr_need V h0 hp
        obtain ⟨first, tl, rfl, hr⟩ := varInt_read.1 hx
        rcases spr_prep_cons hg V hi hs hx with ⟨h1, h2, c', e, hc'⟩ | ⟨_, e⟩
        · rw [e] at hp
          rw [← Except.ok.inj hp] at hd
          exact .inr ⟨i, inp, first, tl, _, _, hi, hs, hr, h1, h2, (fin hg hc').1 hd⟩
        · rw [e] at hp; cases hp
    · rintro ⟨hg, -, ⟨h0, rfl⟩ | ⟨i, inp, first, tl, p, k, hi, hs, hr, h1, h2, rfl⟩⟩
      · obtain ⟨x, e, hx⟩ := spr_prep_nil hg V h0 index script
        exact ⟨x, e, spr_final hg.1 hx⟩
      · have hx : VarInt.fromBytes E.net (first :: tl) = .ok ⟨p, k⟩ := varInt_read.2 ⟨first, tl, rfl, hr⟩
        rcases spr_prep_cons hg V hi hs hx with ⟨_, _, c', e, hc'⟩ | ⟨hn, e⟩
        · exact ⟨c', e, spr_final hg.1 hc'⟩
        · exact absurd ⟨h1, h2⟩ hn

/-- C126, where the index cannot be used: there are inputs, and the script reads as a number; then no integer is a TypeError, and an integer that points nowhere an
IndexError. -/
theorem C126_index {S : Network → Prop} (E : Env) (v : Val) (h : MadeOn S E v) (hc : v.isInstance .sproutTx = true) (w : SproutWire) (hw : w.WF) (hcon : v.content = some w.bytes)
    (index script acp : Val) (h0 : w.ins ≠ []) (first : UInt8) (tl : Bytes) (r : Bytes × Nat) (hs : Byteslike script (first :: tl))
    (hr : readVarInt (E.net.isOverwinter || E.net.isSapling) first tl = some r) :
      ((∀ n, index ≠ .int n) → Dyn.sproutSighashAll E v index script acp = .error .typeError) ∧
      (∀ n : Int, index = .int n → ¬ (-(w.ins.length : Int) ≤ n ∧ n < w.ins.length) → Dyn.sproutSighashAll E v index script acp = .error .indexError) := by
  obtain ⟨ver, lock, pk, sg, ins, outs, js, ti, V⟩ := spr_view_of h hc hw hcon
  have hlen := spr_len V
  have hne : ¬ ins.length = 0 := by rw [hlen]; exact fun h => h0 (List.length_eq_zero_iff.1 h)
  obtain ⟨l, e1, hl⟩ := blank_ins V.twins
  have hll : l.length = w.ins.length := by rw [hl.length, List.length_map, ← V.twins.length, hlen]
  have hx : VarInt.fromBytes E.net (first :: tl) = .ok ⟨r.1, r.2⟩ := varInt_read.2 ⟨first, tl, rfl, hr⟩
  have go : ∀ e, Val.itemOf l index = .error e → Dyn.sproutSighashAll E v index script acp = .error e := by
    intro e he
    unfold Dyn.sproutSighashAll Dyn.sproutPrep
    rw [spr_ins V, ok_bind, if_neg hne, e1, ok_bind, readVarInt_content hs, hx, ok_bind, he]
    rfl
  refine ⟨fun hn => go _ ?_, fun n hn hr => go _ ?_⟩
  · cases index <;> first | rfl | exact absurd rfl (hn _)
  · subst hn
    refine getItem_none ?_
    rw [hll]
    unfold pyIndex
    split
    · rw [if_neg (by omega)]
    · rw [if_neg (by omega)]

/-- C126 is false as far as SINGLE and ANYONECANPAY go, whatever the arguments: `sighash_single` is a ValueError, and `sighash_all` with a true `anyone_can_pay` returns nothing;
if it would without, it is a ValueError. -/
theorem C126_false {S : Network → Prop} (E : Env) (v : Val) (h : MadeOn S E v) (hc : v.isInstance .sproutTx = true) (index script : Val) :
    (∀ acp, Dyn.sproutSighashSingle E v index script acp = .error .valueError) ∧
    ∀ acp, ¬ IsFalse acp → (∀ d, Dyn.sproutSighashAll E v index script acp ≠ .ok d) ∧
      ∀ f d, IsFalse f → Dyn.sproutSighashAll E v index script f = .ok d → Dyn.sproutSighashAll E v index script acp = .error .valueError := by
  obtain ⟨w, ver, lock, pk, sg, ins, outs, js, ti, V⟩ := spr_view h hc
  refine ⟨fun acp => ?_, fun acp ha => ?_⟩
  · unfold Dyn.sproutSighashSingle
    rw [spr_js V, ok_bind, if_pos (show (Val.tuple js).given = true from rfl)]
  · have ht : acp.truthy = true := (truthy_iff _).2 ha
    have hv : ∀ c, Dyn.sproutPrep E v index script = .ok c → Dyn.sproutSighashAll E v index script acp = .error .valueError := by
      intro c e
      unfold Dyn.sproutSighashAll Dyn.sproutAnyoneCanPay
      rw [e, ok_bind, if_pos ht, spr_js V, ok_bind, if_pos (show (Val.tuple js).given = true from rfl)]
    refine ⟨fun d hd => ?_, fun f d _ hd => ?_⟩
    · have hd' := hd
      unfold Dyn.sproutSighashAll at hd
      obtain ⟨c, e, _⟩ := (bind_ok_iff ..).1 hd
      rw [hv c e] at hd'; cases hd'
    · unfold Dyn.sproutSighashAll at hd
      obtain ⟨c, e, _⟩ := (bind_ok_iff ..).1 hd
      exact hv c e

/-- C126: every `SproutTx` that a program can make has such fields, and only one choice of them. -/
theorem C126_fields {S : Network → Prop} (E : Env) (v : Val) (h : MadeOn S E v) (hc : v.isInstance .sproutTx = true) : ∃ w : SproutWire, (w.WF ∧ v.content = some w.bytes) ∧
    ∀ w' : SproutWire, w'.WF → v.content = some w'.bytes → w' = w := by
  obtain ⟨w, ver, lock, pk, sg, ins, outs, js, ti, V⟩ := spr_view h hc
  have e : v.content = some w.bytes := by obtain ⟨E', hs, ps, rfl⟩ := V.obj; rfl
  exact ⟨w, ⟨V.wf, e⟩, fun w' hw' e' => SproutWire.bytes_inj hw' V.wf (Option.some.inj (e'.symm.trans e))⟩

/-! ### cases -/

/-- Two inputs, no outputs, version 1: the index -1 is the last input, the script can be a bytearray. What is no integer or not bytes-like is refused, an index beyond the inputs, and
SINGLE and ANYONECANPAY. -/
example : ∃ v, Made sproutEnv v ∧ v.isInstance .sproutTx = true ∧
    (Dyn.sproutSighashAll sproutEnv v (.int (-1)) (.bytearray [1, 0x51]) (.list [])).isOk = true ∧
    Dyn.sproutSighashAll sproutEnv v (.str []) (.bytes [1, 0x51]) = .error .typeError ∧
    Dyn.sproutSighashAll sproutEnv v (.int 0) (.list [.int 1, .int 0x51]) = .error .valueError ∧
    Dyn.sproutSighashAll sproutEnv v (.int 0) .none = .error .typeError ∧
    Dyn.sproutSighashAll sproutEnv v (.int 2) (.bytes [1, 0x51]) = .error .indexError ∧
    Dyn.sproutSighashAll sproutEnv v (.int 1) (.bytes [1, 0x51]) (.str (pystr "x")) = .error .valueError ∧
    Dyn.sproutSighashSingle sproutEnv v (.int 0) (.bytes [1, 0x51]) = .error .valueError := by
  refine ⟨_, .sproutTx (.bytes [1, 0, 0, 0]) (.list [valIn, valIn]) (.tuple []) (.bytes [0, 0, 0, 0]) (.list []) .none .none _ (.bytes _)
    (.list _ (pair_made (zValIn_made _) (zValIn_made _))) (.tuple _ fun v hv => nomatch hv) (.bytes _) (.list _ fun v hv => nomatch hv) .none .none rfl, rfl, rfl, rfl, rfl, rfl, rfl, rfl, rfl⟩

/-- No inputs, version 2: index and script are not looked at. -/
example : ∃ v, Made sproutEnv v ∧ v.isInstance .sproutTx = true ∧ (Dyn.sproutSighashAll sproutEnv v .none (.str [])).isOk = true := by
  refine ⟨_, .sproutTx (.bytes [2, 0, 0, 0]) (.list []) (.tuple [valOut]) (.bytes [0, 0, 0, 0]) (.list []) (.bytes (List.replicate 32 7)) (.bytearray []) _ (.bytes _)
    (.list _ fun v hv => nomatch hv) (.tuple _ (one_made (zValOut_made _))) (.bytes _) (.list _ fun v hv => nomatch hv) (.bytes _) (.bytearray _) rfl, rfl, rfl⟩

end Verif.Props
