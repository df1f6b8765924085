import Verif.Model.DynSighash2
import Verif.Props.DynSproutSighash
import Verif.Props.DynZSafe

/-! Property C127: what `sighash_all` and `sighash_single` of a `DecredTx` do with arguments of any type. -/

namespace Verif.Props
open Verif Spec

attribute [local irreducible] blake256

/-! ### statement -/

/-- The widths of the fields. -/
structure DcrWidths (w : DcrTx) : Prop where
  version : w.version.length = 4
  lockTime : w.lockTime.length = 4
  expiry : w.expiry.length = 4
  ins : w.ins ≠ [] ∧ w.ins.length < 2 ^ 64 ∧ ∀ i ∈ w.ins, i.txId.length = 32 ∧ i.index.length = 4 ∧ i.tree.length = 1 ∧ i.sequence.length = 4
  outs : w.outs ≠ [] ∧ w.outs.length < 2 ^ 64 ∧ ∀ o ∈ w.outs, o.value.length = 8 ∧ o.version.length = 2 ∧ o.script.length < 2 ^ 64
  wits : w.wits.length < 2 ^ 64 ∧ ∀ x ∈ w.wits, x.value.length = 8 ∧ x.height.length = 4 ∧ x.index.length = 4 ∧ x.script.length < 2 ^ 64

/-- The copy to be signed: all scripts are empty, but the one of witness `k` is `s`. -/
def dcrPrepared (w : DcrTx) (k : Nat) (s : Bytes) : DcrTx :=
  { w with wits := w.wits.mapIdx fun j u => { u with script := if j = k then s else [] } }

/-- With SINGLE: the sequences of the inputs other than `i` are zero, and there are as many outputs as inputs, of which `o` is the one at `i`, the others are blank. -/
def dcrOne (w : DcrTx) (i : Nat) (o : DcrWireOut) : DcrTx :=
  { w with
    ins := w.ins.mapIdx fun j x => if j = i then x else { x with sequence := [0, 0, 0, 0] }
    outs := w.ins.mapIdx fun j _ => if j = i then o else ⟨List.replicate 8 0xff, [0, 0], []⟩ }

/-- The hash of the hash type, the hash of the prefix and the hash of the scripts. -/
def dcrDigest (w : DcrTx) (type : Nat) : Bytes :=
  blake256 (leBytes 4 type ++ blake256 (dcrPrefix w.version (w.ins.map fun i => dcrIn i.txId i.index i.tree i.sequence)
    (w.outs.map fun o => dcrOut o.value o.version o.script) w.lockTime w.expiry) ++ blake256 (dcrWitnessSigning w.version (w.wits.map (·.script))))

/-- The script that an argument is: None is the empty one. -/
def ScriptArg (script : Val) (s : Bytes) : Prop := script = .none ∧ s = [] ∨ script = .bytes s ∨ script = .bytearray s

/-! ### fields -/

private theorem dcr_mem {α : Type} {P : α → Prop} {g : α → Bytes} {l : List α} (h : ∀ i ∈ l, P i) : ∀ x ∈ l.map g, ∃ i, P i ∧ x = g i := by
  intro x hx
  obtain ⟨i, hi, rfl⟩ := List.mem_map.1 hx
  exact ⟨i, h i hi, rfl⟩

private theorem list_inj {α : Type} {P : α → Prop} {g : α → Bytes} (hg : ∀ x y r s, P x → P y → g x ++ r = g y ++ s → x = y ∧ r = s) {l m : List α} {r s : Bytes}
    (hl : ∀ i ∈ l, P i) (hm : ∀ i ∈ m, P i) (ll : l.length < 2 ^ 64) (lm : m.length < 2 ^ 64) (h : vector (l.map g) ++ r = vector (m.map g) ++ s) : l = m ∧ r = s := by
  have hd : SelfDelim (fun b => ∃ i, P i ∧ b = g i) := by
    rintro x y r s ⟨i, hi, rfl⟩ ⟨j, hj, rfl⟩ h
    obtain ⟨rfl, rfl⟩ := hg i j r s hi hj h
    exact ⟨rfl, rfl⟩
  obtain ⟨h1, h2⟩ := vector_inj hd (dcr_mem hl) (dcr_mem hm) (by simpa using ll) (by simpa using lm) h
  refine ⟨map_bytes_inj (P := P) (fun x y hx hy e => (hg x y [] [] hx hy (by rw [e])).1) hl hm h1, h2⟩

/-- The bytes determine the fields. -/
theorem dcr_bytes_inj {w w' : DcrTx} (h : DcrWidths w) (h' : DcrWidths w') (e : w.bytes = w'.bytes) : w = w' := by
  obtain ⟨a, b, c, d, x, f⟩ := w
  obtain ⟨a', b', c', d', x', f'⟩ := w'
  unfold DcrTx.bytes dcrFull at e
  simp only [List.append_assoc] at e
  obtain ⟨e1, e⟩ := List.append_inj e (h.version.trans h'.version.symm)
  obtain ⟨e2, e⟩ := list_inj (P := fun i : DcrWireIn => i.txId.length = 32 ∧ i.index.length = 4 ∧ i.tree.length = 1 ∧ i.sequence.length = 4)
    (fun x y r s hx hy h => by
      obtain ⟨x1, x2, x3, x4⟩ := x
      obtain ⟨y1, y2, y3, y4⟩ := y
      unfold dcrIn at h
      simp only [List.append_assoc] at h
      obtain ⟨q1, h⟩ := List.append_inj h (hx.1.trans hy.1.symm)
      obtain ⟨q2, h⟩ := List.append_inj h (hx.2.1.trans hy.2.1.symm)
      obtain ⟨q3, h⟩ := List.append_inj h (hx.2.2.1.trans hy.2.2.1.symm)
      obtain ⟨q4, hrs⟩ := List.append_inj h (hx.2.2.2.trans hy.2.2.2.symm)
      try dsimp only at q1 q2 q3 q4
      subst q1 q2 q3 q4
      exact ⟨rfl, hrs⟩) h.ins.2.2 h'.ins.2.2 h.ins.2.1 h'.ins.2.1 e
  obtain ⟨e3, e⟩ := list_inj (P := fun o : DcrWireOut => o.value.length = 8 ∧ o.version.length = 2 ∧ o.script.length < 2 ^ 64)
    (fun x y r s hx hy h => by
      obtain ⟨x1, x2, x3⟩ := x
      obtain ⟨y1, y2, y3⟩ := y
      obtain ⟨q1, q2, q3, q4⟩ := dcrOut_inj (hx.1.trans hy.1.symm) (hx.2.1.trans hy.2.1.symm) hx.2.2 hy.2.2 h
      try dsimp only at q1 q2 q3
      subst q1 q2 q3
      exact ⟨rfl, q4⟩) h.outs.2.2 h'.outs.2.2 h.outs.2.1 h'.outs.2.1 e
  obtain ⟨e4, e⟩ := List.append_inj e (h.lockTime.trans h'.lockTime.symm)
  obtain ⟨e5, e⟩ := List.append_inj e (h.expiry.trans h'.expiry.symm)
  obtain ⟨e6, -⟩ := list_inj (r := []) (s := []) (g := fun o : DcrWireWit => dcrWitness o.value o.height o.index o.script) (P := fun o : DcrWireWit => o.value.length = 8 ∧ o.height.length = 4 ∧ o.index.length = 4 ∧ o.script.length < 2 ^ 64)
    (fun x y r s hx hy h => by
      obtain ⟨x1, x2, x3, x4⟩ := x
      obtain ⟨y1, y2, y3, y4⟩ := y
      unfold dcrWitness at h
      simp only [List.append_assoc] at h
      obtain ⟨q1, h⟩ := List.append_inj h (hx.1.trans hy.1.symm)
      obtain ⟨q2, h⟩ := List.append_inj h (hx.2.1.trans hy.2.1.symm)
      obtain ⟨q3, h⟩ := List.append_inj h (hx.2.2.1.trans hy.2.2.1.symm)
      obtain ⟨q4, hrs⟩ := varBytes_inj hx.2.2.2 hy.2.2.2 h
      try dsimp only at q1 q2 q3 q4
      subst q1 q2 q3 q4
      exact ⟨rfl, hrs⟩) h.wits.2 h'.wits.2 h.wits.1 h'.wits.1 (by simpa using e)
  dsimp only at e1 e2 e3 e4 e5 e6
  subst e1 e2 e3 e4 e5 e6
  rfl

/-! ### objects and fields -/

/-- An input object and its fields. -/
def DIn (x : Val) (i : DcrWireIn) : Prop :=
  (∃ o q, x = .obj .dcrTxIn [o, q] (dcrIn i.txId i.index i.tree i.sequence) ∧ o.content = some (i.txId ++ i.index ++ i.tree) ∧ q.content = some i.sequence) ∧
    i.txId.length = 32 ∧ i.index.length = 4 ∧ i.tree.length = 1 ∧ i.sequence.length = 4

def DOut (x : Val) (o : DcrWireOut) : Prop :=
  (∃ t, x = .obj .dcrTxOut t (dcrOut o.value o.version o.script)) ∧ o.value.length = 8 ∧ o.version.length = 2 ∧ o.script.length < 2 ^ 64

def DWit (x : Val) (u : DcrWireWit) : Prop :=
  (∃ a b c s r g, x = .obj .dcrWitness [a, b, c, .int u.script.length, s, r, g] (dcrWitness u.value u.height u.index u.script) ∧ a.content = some u.value ∧
    b.content = some u.height ∧ c.content = some u.index ∧ g.content = some u.script) ∧
    u.value.length = 8 ∧ u.height.length = 4 ∧ u.index.length = 4 ∧ u.script.length < 2 ^ 64

/-- A witness with empty scripts. -/
def DBlank (x : Val) (u : DcrWireWit) : Prop :=
  u.script = [] ∧ (∃ a b c, x = .obj .dcrWitness [a, b, c, .int 0, .bytes [], .bytes [], .bytes []] (dcrWitness u.value u.height u.index []) ∧ a.content = some u.value ∧
    b.content = some u.height ∧ c.content = some u.index) ∧ u.value.length = 8 ∧ u.height.length = 4 ∧ u.index.length = 4

theorem DBlank.wit {x : Val} {u : DcrWireWit} (h : DBlank x u) : DWit x u := by
  obtain ⟨value, height, index, script⟩ := u
  obtain ⟨e, ⟨a, b, c, rfl, ha, hb, hc⟩, l1, l2, l3⟩ := h
  dsimp only at e
  subst e
  exact ⟨⟨a, b, c, _, _, _, rfl, ha, hb, hc, rfl⟩, l1, l2, l3, by simp⟩

private theorem fields3 {a b c : Val} {x y z : Bytes} {l m n : Nat} (ha : a.content = some x) (hb : b.content = some y) (hc : c.content = some z) (la : x.length = l)
    (lb : y.length = m) (lc : z.length = n) : Fields [(a, l), (b, m), (c, n)] [x, y, z] :=
  Fields.cons.2 ⟨_, _, rfl, ha, la, Fields.cons.2 ⟨_, _, rfl, hb, lb, Fields.cons.2 ⟨_, _, rfl, hc, lc, Fields.nil.2 rfl⟩⟩⟩

/-- The copy of a witness with empty scripts. -/
theorem wit_blank {net : Network} (hd : net.isDecred = true) {x : Val} {u : DcrWireWit} (h : DWit x u) :
    ∃ y, Dyn.copyDcrWitness net x .none .none .none (.bytes []) (.bytes []) = .ok y ∧ DBlank y { u with script := [] } := by
  obtain ⟨⟨a, b, c, s, r, g, rfl, ha, hb, hc, -⟩, l1, l2, l3, -⟩ := h
  refine ⟨_, ((C117_witness net a b c (.bytes []) (.bytes [])).1 _).2 ⟨hd, u.value, u.height, u.index, [], [], .bytes [], fields3 ha hb hc l1 l2 l3, rfl, rfl, by simp, rfl, rfl, rfl⟩,
    rfl, ⟨a, b, c, rfl, ha, hb, hc⟩, l1, l2, l3⟩

/-- The copy of a blank witness with a script. -/
theorem wit_script {net : Network} (hd : net.isDecred = true) {x : Val} {u : DcrWireWit} (h : DBlank x u) (script : Val) :
    (∃ s y, ScriptArg script s ∧ s.length < 2 ^ 64 ∧ Dyn.copyDcrWitness net x .none .none .none script (.bytes []) = .ok y ∧ DWit y { u with script := s }) ∨
    (¬ ∃ s, ScriptArg script s ∧ s.length < 2 ^ 64) ∧ ∃ e, Dyn.copyDcrWitness net x .none .none .none script (.bytes []) = .error e ∧ (e = .valueError ∨ e = .typeError) := by
  obtain ⟨-, ⟨a, b, c, rfl, ha, hb, hc⟩, l1, l2, l3⟩ := h
  have key : ∀ s, ScriptArg script s ↔ (Dyn.keep script (.bytes []) = .bytes s ∨ Dyn.keep script (.bytes []) = .bytearray s) := by
    intro s
    unfold ScriptArg
    cases script <;> simp [Dyn.keep, eq_comm]
  have e0 : Dyn.copyDcrWitness net (.obj .dcrWitness [a, b, c, .int 0, .bytes [], .bytes [], .bytes []] (dcrWitness u.value u.height u.index [])) .none .none .none script (.bytes []) =
      Dyn.dcrWitness net a b c (Dyn.keep script (.bytes [])) (.bytes []) := rfl
  rw [e0]
  simp only [key]
  generalize Dyn.keep script (.bytes []) = q
  obtain ⟨hok, hadd, herr⟩ := C117_witness net a b c q (.bytes [])
  cases hq : Dyn.dcrWitness net a b c q (.bytes []) with
  | ok y =>
    left
    obtain ⟨-, x1, x2, x3, bs, br, sig, hf, hs, hr, hl, hsig, hsb, e⟩ := (hok y).1 hq
    cases hr
    rw [List.append_nil] at hl hsb e
    obtain ⟨⟨s, hs'⟩, -⟩ := hadd.1 ⟨_, hsig⟩
    have hfs := hf.unique (fields3 ha hb hc l1 l2 l3)
    simp only [List.cons.injEq, and_true] at hfs
    obtain ⟨rfl, rfl, rfl⟩ := hfs
    refine ⟨bs, y, ?_, hl, rfl, ⟨a, b, c, q, _, sig, e, ha, hb, hc, hsb⟩, l1, l2, l3, hl⟩
    rcases hs' with rfl | rfl <;> cases hs
    · exact .inl rfl
    · exact .inr rfl
  | error e =>
    right
    refine ⟨?_, e, rfl, ?_⟩
    · rintro ⟨s, hs, hl⟩
      have : ∃ y, Dyn.dcrWitness net a b c q (.bytes []) = .ok y := by
        rcases hs with rfl | rfl
        · exact ⟨_, (hok _).2 ⟨hd, u.value, u.height, u.index, s, [], .bytes (s ++ []), fields3 ha hb hc l1 l2 l3, rfl, rfl, by simpa using hl, rfl, rfl, rfl⟩⟩
        · exact ⟨_, (hok _).2 ⟨hd, u.value, u.height, u.index, s, [], .bytearray (s ++ []), fields3 ha hb hc l1 l2 l3, rfl, rfl, by simpa using hl, rfl, rfl, rfl⟩⟩
      obtain ⟨y, hy⟩ := this
      rw [hq] at hy; cases hy
    · rcases herr e hq with h | h
      · exact .inl h
      · exact .inr h.1

theorem mapPy_twins {β γ : Type} {R : Val → β → Prop} {S : Val → γ → Prop} {f : Val → Py Val} {g : β → γ} {l : List Val} {m : List β} (h : Twins R l m)
    (hf : ∀ x b, R x b → ∃ y, f x = .ok y ∧ S y (g b)) : ∃ ys, mapPy f l = .ok ys ∧ Twins S ys (m.map g) := by
  induction h with
  | nil => exact ⟨[], rfl, .nil⟩
  | cons hr _ ih =>
    obtain ⟨y, e, hy⟩ := hf _ _ hr
    obtain ⟨ys, es, hys⟩ := ih
    refine ⟨y :: ys, ?_, .cons hy hys⟩
    unfold mapPy
    rw [e, ok_bind, es]
    rfl

/-- A `DecredTx` object and its fields. -/
structure DcrView (net : Network) (v : Val) (w : DcrTx) (ver lock exp iv ov wv : Val) (ins outs wits : List Val) : Prop where
  decred : net.isDecred = true
  obj : v = dcrObj ver iv ov lock exp wv w.version w.lockTime w.expiry (w.ins.map fun i => dcrIn i.txId i.index i.tree i.sequence)
    (w.outs.map fun o => dcrOut o.value o.version o.script) (w.wits.map fun u => dcrWitness u.value u.height u.index u.script)
  ver : ver.content = some w.version
  lock : lock.content = some w.lockTime
  exp : exp.content = some w.expiry
  iseq : IsSeq iv ins
  oseq : IsSeq ov outs
  wseq : IsSeq wv wits ∨ wv.iter = .ok [] ∧ wits = []
  tins : Twins DIn ins w.ins
  touts : Twins DOut outs w.outs
  twits : Twins DWit wits w.wits
  widths : DcrWidths w
  size : w.bytes.length ≤ 100000

private theorem all_of {c : Cls} {l : List Val} (h : ∀ x ∈ l, x.isInstance c = true) : l.all (Val.isInstance c) = true := List.all_eq_true.2 h

/-- The constructor, on objects whose fields are known. -/
theorem dcr_make {net : Network} {w : DcrTx} {ver lock exp iv ov wv : Val} {ins outs wits : List Val} (hd : net.isDecred = true) (h1 : ver.content = some w.version)
    (h2 : lock.content = some w.lockTime) (h3 : exp.content = some w.expiry) (h4 : IsSeq iv ins) (h5 : IsSeq ov outs) (h6 : IsSeq wv wits ∨ wv.iter = .ok [] ∧ wits = [])
    (t1 : Twins DIn ins w.ins) (t2 : Twins DOut outs w.outs) (t3 : Twins DWit wits w.wits) (hw : DcrWidths w) :
    (w.bytes.length ≤ 100000 ∧ ∃ c, Dyn.dcrTx net ver iv ov lock exp wv = .ok c ∧ DcrView net c w ver lock exp iv ov wv ins outs wits) ∨
    (¬ w.bytes.length ≤ 100000) ∧ Dyn.dcrTx net ver iv ov lock exp wv = .error .valueError := by
  have ha : DcrArgs net ver iv ov lock exp wv w.version w.lockTime w.expiry ins outs wits (w.ins.map fun i => dcrIn i.txId i.index i.tree i.sequence)
      (w.outs.map fun o => dcrOut o.value o.version o.script) (w.wits.map fun u => dcrWitness u.value u.height u.index u.script) := by
    refine ⟨hd, h1, hw.version, h2, hw.lockTime, h3, hw.expiry, ⟨.inl h4, all_of (t1.left ?_), t1.contents ?_⟩, ne_nil_of_length t1.length hw.ins.1, by rw [t1.length]; exact hw.ins.2.1,
      ⟨.inl h5, all_of (t2.left ?_), t2.contents ?_⟩, ne_nil_of_length t2.length hw.outs.1, by rw [t2.length]; exact hw.outs.2.1,
      ⟨h6, all_of (t3.left ?_), t3.contents ?_⟩, by rw [t3.length]; exact hw.wits.1⟩
    · rintro x y ⟨⟨o, q, rfl, -⟩, -⟩; rfl
    · rintro x y ⟨⟨o, q, rfl, -⟩, -⟩; rfl
    · rintro x y ⟨⟨o, rfl⟩, -⟩; rfl
    · rintro x y ⟨⟨o, rfl⟩, -⟩; rfl
    · rintro x y ⟨⟨a, b, c, s, r, g, rfl, -⟩, -⟩; rfl
    · rintro x y ⟨⟨a, b, c, s, r, g, rfl, -⟩, -⟩; rfl
  rw [dcr_ok_of ha, check_bind]
  by_cases hs : w.bytes.length ≤ 100000
  · rw [if_pos (show ¬ (dcrFull _ _ _ _ _ _).length > 100000 from fun h => absurd hs (Nat.not_le.2 h))]
    exact .inl ⟨hs, _, rfl, hd, rfl, h1, h2, h3, h4, h5, h6, t1, t2, t3, hw, hs⟩
  · rw [if_neg (show ¬ ¬ (dcrFull _ _ _ _ _ _).length > 100000 from fun h => h (Nat.not_le.1 hs))]
    exact .inr ⟨hs, rfl⟩

/-- A copy. -/
theorem dcr_copy {net : Network} {v : Val} {w : DcrTx} {ver lock exp iv ov wv : Val} {ins outs wits : List Val} (V : DcrView net v w ver lock exp iv ov wv ins outs wits)
    {X Y Z : Val} {i' : List DcrWireIn} {o' : List DcrWireOut} {u' : List DcrWireWit} {ins' outs' wits' : List Val}
    (h4 : IsSeq (Dyn.keep X iv) ins') (h5 : IsSeq (Dyn.keep Y ov) outs') (h6 : IsSeq (Dyn.keep Z wv) wits' ∨ (Dyn.keep Z wv).iter = .ok [] ∧ wits' = [])
    (t1 : Twins DIn ins' i') (t2 : Twins DOut outs' o') (t3 : Twins DWit wits' u') (n1 : i' ≠ []) (n2 : o' ≠ []) (l1 : i'.length < 2 ^ 64) (l2 : o'.length < 2 ^ 64) (l3 : u'.length < 2 ^ 64) :
    ((⟨w.version, i', o', w.lockTime, w.expiry, u'⟩ : DcrTx).bytes.length ≤ 100000 ∧ ∃ c, Dyn.copyDcrTx net v .none X Y .none .none Z = .ok c ∧
      DcrView net c ⟨w.version, i', o', w.lockTime, w.expiry, u'⟩ ver lock exp (Dyn.keep X iv) (Dyn.keep Y ov) (Dyn.keep Z wv) ins' outs' wits') ∨
    (¬ (⟨w.version, i', o', w.lockTime, w.expiry, u'⟩ : DcrTx).bytes.length ≤ 100000) ∧ Dyn.copyDcrTx net v .none X Y .none .none Z = .error .valueError := by
  have e : Dyn.copyDcrTx net v .none X Y .none .none Z = Dyn.dcrTx net ver (Dyn.keep X iv) (Dyn.keep Y ov) lock exp (Dyn.keep Z wv) := by rw [V.obj]; rfl
  rw [e]
  exact dcr_make (w := ⟨w.version, i', o', w.lockTime, w.expiry, u'⟩) V.decred V.ver V.lock V.exp h4 h5 h6 t1 t2 t3
    ⟨V.widths.version, V.widths.lockTime, V.widths.expiry, ⟨n1, l1, t1.right fun _ _ h => h.2⟩, ⟨n2, l2, t2.right fun _ _ h => h.2⟩, ⟨l3, t3.right fun _ _ h => h.2⟩⟩

/-- Every object has such fields. -/
theorem dcr_view {S : Network → Prop} {E : Env} {v : Val} (h : MadeOn S E v) (hc : v.isInstance .dcrTx = true) :
    ∃ net w ver lock exp iv ov wv ins outs wits, DcrView net v w ver lock exp iv ov wv ins outs wits := by
  cases v <;> simp [Val.isInstance] at hc
  next c t x =>
  subst hc
  obtain ⟨_, -, a, b, c, d, e, f, mb, mc, mf, h⟩ := made_on h
  obtain ⟨bv, bl, be, ins, outs, wits, bi, bo, bw, ha, hs, eo⟩ := ((C117_tx _ _ _ _ _ _ _).1 _).1 h
  obtain ⟨wi, ti⟩ := twins_of (R := DIn) ins (fun v hv => by
      obtain ⟨h, hc⟩ := ha.ins_ok.made mb v hv
      cases v <;> simp [Val.isInstance] at hc
      next c t x =>
      subst hc
      obtain ⟨_, -, a, b, h⟩ := made_on h
      obtain ⟨-, bs, hf, e⟩ := ((C117_txIn _ _ _).1 _).1 h
      obtain ⟨x1, bs, rfl, c1, l1, hf⟩ := Fields.cons.1 hf
      obtain ⟨x2, bs, rfl, c2, l2, hf⟩ := Fields.cons.1 hf
      cases Fields.nil.1 hf
      have e1 : x1 = x1.take 32 ++ (x1.drop 32).take 4 ++ (x1.drop 32).drop 4 := by rw [List.append_assoc, List.take_append_drop, List.take_append_drop]
      refine ⟨⟨x1.take 32, (x1.drop 32).take 4, (x1.drop 32).drop 4, x2⟩, ⟨a, b, ?_, ?_, c2⟩, by simp [l1], by simp [l1], by simp [l1], l2⟩
      · rw [e]
        simp only [dcrIn, List.flatten_cons, List.flatten_nil, List.append_nil]
        rw [← e1]
      · dsimp only; rw [← e1]; exact c1)
  obtain ⟨wo, tu⟩ := twins_of (R := DOut) outs (fun v hv => by
      obtain ⟨h, hc⟩ := ha.outs_ok.made mc v hv
      cases v <;> simp [Val.isInstance] at hc
      next c t x =>
      subst hc
      obtain ⟨_, -, a, b, c, h⟩ := made_on h
      obtain ⟨-, x1, x2, x3, hf, -, l3, e⟩ := ((C117_txOut _ _ _ _).1 _).1 h
      have hl := fields_length hf
      simp only [List.map_cons, List.map_nil, List.cons.injEq] at hl
      exact ⟨⟨x1, x2, x3⟩, ⟨_, e⟩, hl.1, hl.2.1, l3⟩)
  obtain ⟨ww, tw⟩ := twins_of (R := DWit) wits (fun v hv => by
      obtain ⟨h, hc⟩ := ha.wits_ok.made mf v hv
      cases v <;> simp [Val.isInstance] at hc
      next c t x =>
      subst hc
      obtain ⟨_, -, a, b, c, d, e, h⟩ := made_on h
      obtain ⟨-, x1, x2, x3, s, r, sig, hf, -, -, l4, -, hsig, e⟩ := ((C117_witness _ _ _ _ _ _).1 _).1 h
      obtain ⟨y1, bs, e1, c1, l1, hf⟩ := Fields.cons.1 hf
      obtain ⟨y2, bs, rfl, c2, l2, hf⟩ := Fields.cons.1 hf
      obtain ⟨y3, bs, rfl, c3, l3, hf⟩ := Fields.cons.1 hf
      cases Fields.nil.1 hf
      cases e1
      exact ⟨⟨x1, x2, x3, s ++ r⟩, ⟨_, _, _, _, _, _, e, c1, c2, c3, hsig⟩, l1, l2, l3, l4⟩)
  have hw : DcrWidths ⟨bv, wi, wo, bl, be, ww⟩ := ⟨ha.ver_len, ha.lock_len, ha.exp_len, ⟨ne_nil_of_length ti.length.symm ha.ins_ne, by rw [← ti.length]; exact ha.ins_lt, ti.right fun _ _ h => h.2⟩,
    ⟨ne_nil_of_length tu.length.symm ha.outs_ne, by rw [← tu.length]; exact ha.outs_lt, tu.right fun _ _ h => h.2⟩, ⟨by rw [← tw.length]; exact ha.wits_lt, tw.right fun _ _ h => h.2⟩⟩
  have seq : ∀ {c : Cls} {v : Val} {l : List Val} {bs : List Bytes}, SeqOf c v l bs → l ≠ [] → IsSeq v l := fun h hn => h.seq.elim id fun h => absurd h.2 hn
  rcases dcr_make (w := ⟨bv, wi, wo, bl, be, ww⟩) ha.decred ha.ver ha.lock ha.exp (seq ha.ins_ok ha.ins_ne) (seq ha.outs_ok ha.outs_ne) ha.wits_ok.seq ti tu tw hw with ⟨-, c, e1, V⟩ | ⟨-, e1⟩
  · rw [h] at e1
    rw [Except.ok.inj e1]
    exact ⟨_, _, _, _, _, _, _, _, _, _, _, V⟩
  · rw [h] at e1; cases e1

/-- The object is the same whichever network of Decred was selected when it was made. -/
theorem dcr_view_of {S : Network → Prop} {E : Env} (hd : E.net.isDecred = true) {v : Val} (h : MadeOn S E v) (hc : v.isInstance .dcrTx = true) {w : DcrTx} (hw : DcrWidths w) (hcon : v.content = some w.bytes) :
    ∃ ver lock exp iv ov wv ins outs wits, DcrView E.net v w ver lock exp iv ov wv ins outs wits := by
  obtain ⟨net, w', ver, lock, exp, iv, ov, wv, ins, outs, wits, V⟩ := dcr_view h hc
  have e : v.content = some w'.bytes := by rw [V.obj]; rfl
  rw [dcr_bytes_inj hw V.widths (Option.some.inj (hcon.symm.trans e))]
  exact ⟨_, _, _, _, _, _, _, _, _, { V with decred := hd }⟩

theorem dcrPrep_gate {net : Network} {v index script c : Val} (h : Dyn.dcrPrep net v index script = .ok c) : net.isDecred = true := by
  unfold Dyn.dcrPrep at h
  simp only [bind_ok_iff] at h
  obtain ⟨_, _, _, _, _, _, _, _, _, _, _, _, h⟩ := h
  unfold Dyn.copyDcrTx at h
  split at h
  · obtain ⟨_, _, _, _, _, _, _, _, _, ha, _⟩ := ((C117_tx _ _ _ _ _ _ _).1 _).1 h
    exact ha.decred
  · cases h

theorem dcrAll_gate {net : Network} {v index script acp d : Val} (h : Dyn.dcrSighashAll net v index script acp = .ok d) : net.isDecred = true := by
  obtain ⟨_, h, _⟩ := (bind_ok_iff ..).1 h
  exact dcrPrep_gate h

theorem dcrSingle_gate {net : Network} {v index script acp d : Val} (h : Dyn.dcrSighashSingle net v index script acp = .ok d) : net.isDecred = true := by
  obtain ⟨_, h, _⟩ := (bind_ok_iff ..).1 h
  exact dcrPrep_gate h

/-! ### the steps of the methods -/

private theorem at_map {α β : Type} {f : α → β} {l : List α} {index : Val} {k : Nat} {y : β} : At (l.map f) index k y ↔ ∃ x, At l index k x ∧ y = f x := by
  constructor
  · rintro ⟨n, rfl, hn, h⟩
    rw [List.getElem?_map, Option.map_eq_some_iff] at h
    obtain ⟨x, hx, rfl⟩ := h
    exact ⟨x, ⟨n, rfl, by simpa using hn, hx⟩, rfl⟩
  · rintro ⟨x, ⟨n, rfl, hn, h⟩, rfl⟩
    exact ⟨n, rfl, by simpa using hn, by rw [List.getElem?_map, h]; rfl⟩

private theorem prepared_set {w : DcrTx} {k : Nat} {u : DcrWireWit} (h : w.wits[k]? = some u) (s : Bytes) :
    (w.wits.map fun u => ({ u with script := [] } : DcrWireWit)).set k { u with script := s } = (dcrPrepared w k s).wits := by
  apply List.ext_getElem
  · simp [dcrPrepared]
  · intro j h1 h2
    simp only [dcrPrepared, List.getElem_set, List.getElem_map, List.getElem_mapIdx]
    by_cases c : k = j
    · subst c
      obtain ⟨hk, rfl⟩ := List.getElem?_eq_some_iff.1 h
      simp
    · rw [if_neg c, if_neg (fun h => c h.symm)]

private theorem prepared_size {w : DcrTx} {k : Nat} (hk : k < w.wits.length) (s : Bytes) : s.length ≤ (dcrPrepared w k s).bytes.length := by
  have hm : ({ w.wits[k] with script := s } : DcrWireWit) ∈ (dcrPrepared w k s).wits := by
    refine List.mem_iff_getElem.2 ⟨k, by simpa [dcrPrepared] using hk, ?_⟩
    simp [dcrPrepared]
  have := (List.sublist_flatten_of_mem (List.mem_map_of_mem (f := fun x : DcrWireWit => dcrWitness x.value x.height x.index x.script) hm)).length_le
  unfold DcrTx.bytes dcrFull vector
  simp only [dcrWitness, varBytes, List.length_append] at this ⊢
  omega

section
variable {net : Network} {v : Val} {w : DcrTx} {ver lock exp iv ov wv : Val} {ins outs wits : List Val}

theorem dcr_ins (V : DcrView net v w ver lock exp iv ov wv ins outs wits) : v.dcrInsOf = .ok iv := by rw [V.obj]; rfl
theorem dcr_outs (V : DcrView net v w ver lock exp iv ov wv ins outs wits) : v.dcrOutsOf = .ok ov := by rw [V.obj]; rfl
theorem dcr_wits (V : DcrView net v w ver lock exp iv ov wv ins outs wits) : v.dcrWitsOf = .ok wv := by rw [V.obj]; rfl

theorem dcr_wits_iter (V : DcrView net v w ver lock exp iv ov wv ins outs wits) : wv.iter = .ok wits ∧ wv.len = .ok wits.length := by
  have : SeqOf .dcrWitness wv wits (w.wits.map fun u => dcrWitness u.value u.height u.index u.script) := by
    refine ⟨V.wseq, all_of (V.twits.left ?_), V.twits.contents ?_⟩
    · rintro x y ⟨⟨a, b, c, s, r, g, rfl, -⟩, -⟩; rfl
    · rintro x y ⟨⟨a, b, c, s, r, g, rfl, -⟩, -⟩; rfl
  exact this.iter

theorem seq_item {x : Val} {l : List Val} (h : IsSeq x l) (index : Val) : x.itemAt index = Val.itemOf l index := by
  rcases h with rfl | rfl <;> rfl

/-- `_sighash_prep`. -/
theorem dcr_prep (V : DcrView net v w ver lock exp iv ov wv ins outs wits) (index script : Val) :
    (∃ k u s, At w.wits index k u ∧ ScriptArg script s ∧ (dcrPrepared w k s).bytes.length ≤ 100000 ∧
      ∃ c ws, Dyn.dcrPrep net v index script = .ok c ∧ DcrView net c (dcrPrepared w k s) ver lock exp iv ov (.list ws) ins outs ws) ∨
    (¬ ∃ k u s, At w.wits index k u ∧ ScriptArg script s ∧ (dcrPrepared w k s).bytes.length ≤ 100000) ∧
      ∃ e, Dyn.dcrPrep net v index script = .error e ∧ ((∃ n, index = .int n ∧ pyIndex n w.wits.length = none ∧ e = .indexError) ∨
        (∀ n, index ≠ .int n) ∧ e = .typeError ∨ (∃ k u, At w.wits index k u) ∧ (e = .valueError ∨ e = .typeError)) := by
  obtain ⟨l, e1, hl⟩ := mapPy_twins (S := DBlank) (g := fun u => { u with script := [] }) V.twits fun x u h => wit_blank V.decred h
  unfold Dyn.dcrPrep
  rw [dcr_wits V, ok_bind, (dcr_wits_iter V).1, ok_bind, e1, ok_bind]
  rcases item_iff hl index with ⟨k, x, y, hat, ei, hy⟩ | ⟨hn, he⟩
  · obtain ⟨u, hu, rfl⟩ := at_map.1 hat
    obtain ⟨n, rfl, hp⟩ := at_pyIndex hu
    rw [ei, ok_bind]
    have hll : l.length = w.wits.length := by rw [hl.length, List.length_map]
    rcases wit_script V.decred hy script with ⟨s, z, hs, hlen, ez, hz⟩ | ⟨hno, e, ez, he⟩
    · rw [ez, ok_bind, setOf_ok (by rw [hll]; exact hp), ok_bind]
      have hset : Twins DWit (l.set k z) (dcrPrepared w k s).wits := by
        have := (hl.map_right (S := DWit) (f := id) fun _ _ h => h.wit).set k hz
        rw [List.map_id] at this
        rwa [prepared_set (u := u) (by obtain ⟨_, _, _, h⟩ := hu; exact h)] at this
      rcases dcr_copy V (X := .none) (Y := .none) (Z := .list (l.set k z)) V.iseq V.oseq (.inl (.inl rfl)) V.tins V.touts hset V.widths.ins.1 V.widths.outs.1 V.widths.ins.2.1
        V.widths.outs.2.1 (by rw [show (dcrPrepared w k s).wits.length = w.wits.length by simp [dcrPrepared]]; exact V.widths.wits.1) with ⟨h1, c, ec, hc⟩ | ⟨h1, ec⟩
      · exact .inl ⟨k, u, s, hu, hs, h1, c, _, ec, hc⟩
      · refine .inr ⟨?_, _, ec, .inr (.inr ⟨⟨k, u, hu⟩, .inl rfl⟩)⟩
        rintro ⟨k', u', s', hu', hs', hsz⟩
        obtain ⟨rfl, rfl⟩ := hu.unique hu'
        have : s' = s := by
          unfold ScriptArg at hs hs'
          rcases hs with ⟨rfl, rfl⟩ | rfl | rfl
          · simpa using hs'
          · simpa [eq_comm] using hs'
          · simpa [eq_comm] using hs'
        subst this
        exact h1 hsz
    · rw [ez]
      refine .inr ⟨?_, e, rfl, .inr (.inr ⟨⟨k, u, hu⟩, he⟩)⟩
      rintro ⟨k', u', s', hu', hs', hsz⟩
      refine hno ⟨s', hs', ?_⟩
      have hk : k' < w.wits.length := by obtain ⟨_, _, _, h⟩ := hu'; exact (List.getElem?_eq_some_iff.1 h).1
      have := prepared_size hk s'
      omega
  · refine .inr ⟨fun ⟨k, u, s, hu, _⟩ => hn ⟨k, _, at_map.2 ⟨u, hu, rfl⟩⟩, ?_⟩
    rcases he with ⟨n, rfl, hp, e⟩ | ⟨hn, e⟩
    · rw [e]; exact ⟨_, rfl, .inl ⟨n, rfl, by simpa using hp, rfl⟩⟩
    · rw [e]; exact ⟨_, rfl, .inr (.inl ⟨hn, rfl⟩)⟩

private theorem signing_parts {ws : List Val} {us : List DcrWireWit} (h : Twins DWit ws us) : ∀ data, Dyn.dcrSigningParts data ws = .ok (data ++ (us.map fun u => varBytes u.script).flatten) := by
  induction h with
  | nil => intro data; simp [Dyn.dcrSigningParts]
  | cons hr _ ih =>
    intro data
    obtain ⟨⟨a, b, c, s, r, g, rfl, -, -, -, hg⟩, -, -, -, hl⟩ := hr
    unfold Dyn.dcrSigningParts Dyn.dcrSigningPart
    dsimp only
    rw [VarInt.make_len hl, ok_bind, iadd_ok.2 ⟨_, hg, rfl⟩, ok_bind, ih]
    simp [varBytes]

/-- `_sighash_final_hashing`. -/
theorem dcr_final (V : DcrView net v w ver lock exp iv ov wv ins outs wits) {type : Nat} (ht : type < 2 ^ 32) : Dyn.dcrFinal net v type = .ok (.bytes (dcrDigest w type)) := by
  obtain ⟨x, ex, hx⟩ := firstTwo_content V.ver
  have e1 : v.dcrIdOf = .ok (.bytes (blake256 (dcrPrefix w.version (w.ins.map fun i => dcrIn i.txId i.index i.tree i.sequence)
    (w.outs.map fun o => dcrOut o.value o.version o.script) w.lockTime w.expiry))) := by rw [V.obj]; rfl
  have e2 : v.dcrVersionOf = .ok ver := by rw [V.obj]; rfl
  have e3 : Dyn.dcrWitnessSigning net v = .ok (dcrWitnessSigning w.version (w.wits.map (·.script))) := by
    unfold Dyn.dcrWitnessSigning
    rw [(decredGate_ok (u := ())).2 V.decred, ok_bind, e2, ok_bind, ex, ok_bind, iadd_ok.2 ⟨_, hx, rfl⟩, ok_bind, dcr_wits V, ok_bind, (dcr_wits_iter V).2, ok_bind,
      VarInt.make_len (by rw [V.twits.length]; exact V.widths.wits.1), ok_bind, (dcr_wits_iter V).1, ok_bind, signing_parts V.twits]
    simp [dcrWitnessSigning, vector, V.twits.length, show leBytes 2 3 = [3, 0] by decide, Function.comp_def]
  unfold Dyn.dcrFinal
  rw [(decredGate_ok (u := ())).2 V.decred, ok_bind, i2lePadded4 ht, ok_bind, e1, ok_bind, iadd_ok.2 ⟨_, rfl, rfl⟩, ok_bind, e3, ok_bind]
  rfl

/-- `_sighash_anyone_can_pay`: the scripts are as they were. -/
theorem dcr_acp (V : DcrView net v w ver lock exp iv ov wv ins outs wits) {index : Val} {k : Nat} {u : DcrWireWit} (hu : At w.wits index k u)
    (hb : ∀ j u, w.wits[j]? = some u → j ≠ k → u.script = []) (hq : IsSeq wv wits) {type : Nat} (ht : type ||| SIGHASH_ANYONECANPAY < 2 ^ 32) :
    Dyn.dcrAnyoneCanPay net index v type = .ok (.bytes (dcrDigest w (type ||| SIGHASH_ANYONECANPAY))) := by
  obtain ⟨l, e1, hl⟩ := mapPy_twins (S := DBlank) (g := fun u => { u with script := [] }) V.twits fun x u h => wit_blank V.decred h
  have hll : l.length = w.wits.length := by rw [hl.length, List.length_map]
  unfold Dyn.dcrAnyoneCanPay
  rw [dcr_wits V, ok_bind, (dcr_wits_iter V).1, ok_bind, e1, ok_bind, seq_item hq]
  rcases item_iff V.twits index with ⟨k', x, y, hat, ei, hy⟩ | ⟨hn, -⟩
  case inr => exact absurd ⟨k, u, hu⟩ hn
  obtain ⟨rfl, rfl⟩ := hu.unique hat
  obtain ⟨n, rfl, hp⟩ := at_pyIndex hu
  rw [ei, ok_bind, setOf_ok (by rw [hll]; exact hp), ok_bind]
  have hset : Twins DWit (l.set k y) w.wits := by
    have := (hl.map_right (S := DWit) (f := id) fun _ _ h => h.wit).set k hy
    rw [List.map_id] at this
    have e : (w.wits.map fun u => ({ u with script := [] } : DcrWireWit)).set k u = w.wits := by
      apply List.ext_getElem
      · simp
      · intro j h1 h2
        simp only [List.getElem_set, List.getElem_map]
        by_cases c : k = j
        · subst c
          obtain ⟨_, _, _, h⟩ := hu
          rw [if_pos rfl]
          exact ((List.getElem?_eq_some_iff.1 h).2).symm
        · rw [if_neg c]
          have := hb j _ (List.getElem?_eq_getElem h2) (fun h => c h.symm)
          generalize w.wits[j] = q at this
          obtain ⟨a, b, c, d⟩ := q
          dsimp only at this
          subst this
          rfl
    rwa [e] at this
  rcases dcr_copy V (X := .none) (Y := .none) (Z := .list (l.set k y)) V.iseq V.oseq (.inl (.inl rfl)) V.tins V.touts hset V.widths.ins.1 V.widths.outs.1 V.widths.ins.2.1
    V.widths.outs.2.1 V.widths.wits.1 with ⟨-, c, ec, hc⟩ | ⟨h1, -⟩
  · rw [ec, ok_bind]
    exact dcr_final hc ht
  · exact absurd V.size h1

end

private theorem prepared_blank {w : DcrTx} {k : Nat} {s : Bytes} : ∀ j u, (dcrPrepared w k s).wits[j]? = some u → j ≠ k → u.script = [] := by
  intro j u h hj
  obtain ⟨hk, rfl⟩ := List.getElem?_eq_some_iff.1 h
  simp [dcrPrepared, hj]

private theorem prepared_at {w : DcrTx} {k : Nat} {s : Bytes} {index : Val} {u : DcrWireWit} (h : At w.wits index k u) : ∃ u', At (dcrPrepared w k s).wits index k u' := by
  obtain ⟨n, rfl, hn, hx⟩ := h
  exact ⟨{ u with script := s }, n, rfl, by simpa [dcrPrepared] using hn, by simp [dcrPrepared, hx]⟩

private theorem scriptArg_unique {script : Val} {s s' : Bytes} (hs : ScriptArg script s) (hs' : ScriptArg script s') : s = s' := by
  unfold ScriptArg at hs hs'
  rcases hs with ⟨rfl, rfl⟩ | rfl | rfl
  · simpa [eq_comm] using hs'
  · simpa [eq_comm] using hs'
  · simpa [eq_comm] using hs'

/-! ### C127 -/

/-- C127: what `sighash_all` of a `DecredTx` is, for arguments of any type. There is a digest exactly if a network of Decred is selected now (whatever it was when the
object was made), the index is an integer that points to a witness (from the front or from the
back), the script is None, `bytes` or `bytearray`, and the copy has at most 100000 bytes. The digest is that of all inputs and outputs, the given script and empty scripts; whether
`anyone_can_pay` is true in Python's sense changes nothing but the hash type. -/
theorem C127_all {S : Network → Prop} (E : Env) (v : Val) (h : MadeOn S E v) (hc : v.isInstance .dcrTx = true) (w : DcrTx) (hw : DcrWidths w) (hcon : v.content = some w.bytes)
    (index script acp d : Val) : Dyn.dcrSighashAll E.net v index script acp = .ok d ↔ E.net.isDecred = true ∧
      ∃ k u s a, At w.wits index k u ∧ ScriptArg script s ∧ (dcrPrepared w k s).bytes.length ≤ 100000 ∧ (a = false ↔ IsFalse acp) ∧
        d = .bytes (dcrDigest (dcrPrepared w k s) (hashWord false a)) := by
  refine (and_iff_right_of_imp dcrAll_gate).symm.trans (and_congr_right fun hd => ?_)
  obtain ⟨ver, lock, exp, iv, ov, wv, ins, outs, wits, V⟩ := dcr_view_of hd h hc hw hcon
  unfold Dyn.dcrSighashAll
  rcases dcr_prep V index script with ⟨k, u, s, hu, hs, hsz, c, ws, e, hcv⟩ | ⟨hn, e, ee, -⟩
  · rw [e, ok_bind]
    have key : (if acp.truthy then Dyn.dcrAnyoneCanPay E.net index c SIGHASH_ALL else Dyn.dcrFinal E.net c SIGHASH_ALL) =
        .ok (.bytes (dcrDigest (dcrPrepared w k s) (hashWord false acp.truthy))) := by
      obtain ⟨u', hu'⟩ := prepared_at (s := s) hu
      by_cases ht : acp.truthy = true
      · rw [if_pos ht, dcr_acp hcv hu' prepared_blank (.inl rfl) (by decide), ht]
        rfl
      · rw [if_neg ht, dcr_final hcv (by decide), eq_false_of_ne_true ht]
        rfl
    rw [key]
    constructor
    · intro hd
      exact ⟨k, u, s, _, hu, hs, hsz, by rw [← truthy_false]; simp, (Except.ok.inj hd).symm⟩
    · rintro ⟨k', u', s', a, hu', hs', -, ha, rfl⟩
      obtain ⟨rfl, rfl⟩ := hu.unique hu'
      obtain rfl := scriptArg_unique hs hs'
      have : a = acp.truthy := by
        rw [← truthy_false] at ha
        generalize acp.truthy = t at ha ⊢
        cases a <;> cases t <;> simp_all
      rw [this]
  · rw [ee]
    exact ⟨fun h => (nomatch h), fun ⟨k, u, s, a, hu, hs, hsz, _⟩ => absurd ⟨k, u, s, hu, hs, hsz⟩ hn⟩

section
variable {net : Network} {v : Val} {w : DcrTx} {ver lock exp iv ov wv : Val} {ins outs wits : List Val}

private theorem out_blank (hd : net.isDecred = true) : ∃ y, Dyn.dcrTxOut net (.bytes (List.replicate 8 0xff)) (.bytes [0, 0]) (.bytes []) = .ok y ∧
    DOut y ⟨List.replicate 8 0xff, [0, 0], []⟩ :=
  ⟨_, ((C117_txOut _ _ _ _).1 _).2 ⟨hd, List.replicate 8 0xff, [0, 0], [], Fields.cons.2 ⟨_, _, rfl, rfl, by simp, Fields.cons.2 ⟨_, _, rfl, rfl, rfl, Fields.nil.2 rfl⟩⟩, rfl,
    by simp, rfl⟩, ⟨_, rfl⟩, by simp, rfl, by simp⟩

private theorem in_zero (hd : net.isDecred = true) {x : Val} {i : DcrWireIn} (h : DIn x i) : ∃ y, Dyn.copyDcrTxIn net x .none (.bytes [0, 0, 0, 0]) = .ok y ∧
    DIn y { i with sequence := [0, 0, 0, 0] } := by
  obtain ⟨⟨o, q, rfl, ho, -⟩, l1, l2, l3, -⟩ := h
  refine ⟨_, ((C117_txIn net o (.bytes [0, 0, 0, 0])).1 _).2 ⟨hd, [i.txId ++ i.index ++ i.tree, [0, 0, 0, 0]], Fields.cons.2 ⟨_, _, rfl, ho, by simp [l1, l2, l3],
    Fields.cons.2 ⟨_, _, rfl, rfl, rfl, Fields.nil.2 rfl⟩⟩, rfl⟩, ⟨o, .bytes [0, 0, 0, 0], ?_, ho, rfl⟩, l1, l2, l3, rfl⟩
  simp [dcrIn]

private theorem one_outs {is : List DcrWireIn} {i : Nat} (o b : DcrWireOut) :
    (is.map fun _ => b).set i o = is.mapIdx fun j _ => if j = i then o else b := by
  apply List.ext_getElem
  · simp
  · intro j h1 h2
    simp only [List.getElem_set, List.getElem_map, List.getElem_mapIdx]
    by_cases c : i = j
    · rw [if_pos c, if_pos c.symm]
    · rw [if_neg c, if_neg fun h => c h.symm]

private theorem one_ins {is : List DcrWireIn} {i : Nat} {x : DcrWireIn} (f : DcrWireIn → DcrWireIn) (h : is[i]? = some x) :
    (is.map f).set i x = is.mapIdx fun j x => if j = i then x else f x := by
  apply List.ext_getElem
  · simp
  · intro j h1 h2
    simp only [List.getElem_set, List.getElem_map, List.getElem_mapIdx]
    by_cases c : i = j
    · subst c
      rw [if_pos rfl, if_pos rfl]
      exact ((List.getElem?_eq_some_iff.1 h).2).symm
    · rw [if_neg c, if_neg fun h => c h.symm]

/-- The outputs of the copy. -/
theorem dcr_single_outs (V : DcrView net v w ver lock exp iv ov wv ins outs wits) (n : Int) :
    (∃ i x j o l, At w.ins (.int n) i x ∧ At w.outs (.int n) j o ∧ Dyn.dcrSingleOuts net v (.int n) = .ok l ∧ Twins DOut l (dcrOne w i o).outs) ∨
    (¬ ∃ i x j o, At w.ins (.int n) i x ∧ At w.outs (.int n) j o) ∧ Dyn.dcrSingleOuts net v (.int n) = .error .notImplementedError := by
  obtain ⟨l, e1, hl⟩ := mapPy_twins (S := DOut) (f := fun _ => Dyn.dcrTxOut net (.bytes (List.replicate 8 0xff)) (.bytes [0, 0]) (.bytes []))
    (g := fun _ => ⟨List.replicate 8 0xff, [0, 0], []⟩) V.tins fun x u h => out_blank V.decred
  have hll : l.length = w.ins.length := by rw [hl.length, List.length_map]
  unfold Dyn.dcrSingleOuts
  rw [dcr_ins V, ok_bind, V.iseq.iter.1, ok_bind, e1, ok_bind, dcr_outs V, ok_bind, seq_item V.oseq]
  rcases item_iff V.touts (.int n) with ⟨j, o, y, hat, ei, hy⟩ | ⟨hn, he⟩
  · rw [ei, ok_bind]
    cases hp : pyIndex n w.ins.length with
    | some i =>
      obtain ⟨x, hx⟩ := pyIndex_at hp
      refine .inl ⟨i, x, j, o, l.set i y, hx, hat, ?_, ?_⟩
      · rw [setOf_ok (by rw [hll]; exact hp)]; rfl
      · have := hl.set i hy
        rwa [one_outs] at this
    | none =>
      refine .inr ⟨?_, ?_⟩
      · rintro ⟨i, x, j, o, hx, -⟩
        obtain ⟨n', e, hp'⟩ := at_pyIndex hx
        cases e
        rw [hp] at hp'; cases hp'
      · have : Val.setOf l y (.int n) = .error .indexError := by
          show setItem l n y = _
          unfold setItem; rw [hll, hp]
        rw [this]; rfl
  · refine .inr ⟨fun ⟨i, x, j, o, _, h⟩ => hn ⟨j, o, h⟩, ?_⟩
    rcases he with ⟨_, -, -, e⟩ | ⟨hn, -⟩
    · rw [e]; rfl
    · exact absurd rfl (hn n)

end

/-- `sighash_single` after `_sighash_prep`. -/
theorem dcr_single {net : Network} {v : Val} {w : DcrTx} {ver lock exp iv ov : Val} {ins outs ws : List Val} {n : Int} {k : Nat} {u : DcrWireWit} {s : Bytes} {script c : Val}
    (hu : At w.wits (.int n) k u) (e : Dyn.dcrPrep net v (.int n) script = .ok c) (V : DcrView net c (dcrPrepared w k s) ver lock exp iv ov (.list ws) ins outs ws) (acp : Val) :
    (∃ i x j o, At w.ins (.int n) i x ∧ At w.outs (.int n) j o ∧ (dcrOne (dcrPrepared w k s) i o).bytes.length ≤ 100000 ∧
      Dyn.dcrSighashSingle net v (.int n) script acp = .ok (.bytes (dcrDigest (dcrOne (dcrPrepared w k s) i o) (hashWord true acp.truthy)))) ∨
    (∃ i x j o, At w.ins (.int n) i x ∧ At w.outs (.int n) j o ∧ (¬ (dcrOne (dcrPrepared w k s) i o).bytes.length ≤ 100000) ∧
      Dyn.dcrSighashSingle net v (.int n) script acp = .error .valueError) ∨
    (¬ ∃ i x j o, At w.ins (.int n) i x ∧ At w.outs (.int n) j o) ∧ Dyn.dcrSighashSingle net v (.int n) script acp = .error .notImplementedError := by
  unfold Dyn.dcrSighashSingle
  rw [e, ok_bind]
  rcases dcr_single_outs V n with ⟨i, x, j, o, l, hx, ho, el, hl⟩ | ⟨hn, el⟩
  case inr => rw [el]; exact .inr (.inr ⟨hn, rfl⟩)
  rw [el, ok_bind, dcr_ins V, ok_bind, V.iseq.iter.1, ok_bind]
  obtain ⟨m, e1, hm⟩ := mapPy_twins (S := DIn) (g := fun i => { i with sequence := [0, 0, 0, 0] }) V.tins fun x u h => in_zero V.decred h
  rw [e1, ok_bind, seq_item V.iseq]
  rcases item_iff V.tins (.int n) with ⟨i', x', y, hat, ei, hy⟩ | ⟨hn, -⟩
  case inr => exact absurd ⟨i, x, hx⟩ hn
  obtain ⟨rfl, rfl⟩ := hx.unique hat
  obtain ⟨_, e', hpi⟩ := at_pyIndex hx
  cases e'
  have hml : m.length = w.ins.length := by rw [hm.length, List.length_map]; rfl
  rw [ei, ok_bind, setOf_ok (by rw [hml]; exact hpi), ok_bind]
  have hset : Twins DIn (m.set i y) (dcrOne (dcrPrepared w k s) i o).ins := by
    have := hm.set i hy
    rwa [one_ins _ (by obtain ⟨_, _, _, h⟩ := hx; exact h)] at this
  have hil : (dcrOne (dcrPrepared w k s) i o).ins.length = w.ins.length := by simp [dcrOne, dcrPrepared]
  have hol : (dcrOne (dcrPrepared w k s) i o).outs.length = w.ins.length := by simp [dcrOne, dcrPrepared]
  have hlt : w.ins.length < 2 ^ 64 := V.widths.ins.2.1
  have hne : w.ins.length ≠ 0 := fun h => V.widths.ins.1 (List.length_eq_zero_iff.1 h)
  rcases dcr_copy V (X := .list (m.set i y)) (Y := .list l) (Z := .none) (.inl rfl) (.inl rfl) V.wseq hset hl V.twits
    (fun h => hne (by rw [← hil, h]; rfl)) (fun h => hne (by rw [← hol, h]; rfl)) (by rw [hil]; exact hlt) (by rw [hol]; exact hlt) V.widths.wits.1 with
    ⟨h1, c', ec, hc'⟩ | ⟨h1, ec⟩
  · rw [ec, ok_bind]
    have hc'' : DcrView net c' (dcrOne (dcrPrepared w k s) i o) ver lock exp (.list (m.set i y)) (.list l) (.list ws) (m.set i y) l ws := hc'
    refine .inl ⟨i, x, j, o, hx, ho, h1, ?_⟩
    obtain ⟨u', hu'⟩ := prepared_at (s := s) hu
    by_cases ht : acp.truthy = true
    · rw [if_pos ht, dcr_acp hc'' (k := k) (u := u') hu' prepared_blank (.inl rfl) (by decide), ht]
      rfl
    · rw [if_neg ht, dcr_final hc'' (by decide), eq_false_of_ne_true ht]
      rfl
  · rw [ec]
    exact .inr (.inl ⟨i, x, j, o, hx, ho, h1, rfl⟩)

/-- C127: what `sighash_single` of a `DecredTx` is, for arguments of any type. The index points to a witness, an input and an output; a negative one counts each from the back. -/
theorem C127_single {S : Network → Prop} (E : Env) (v : Val) (h : MadeOn S E v) (hc : v.isInstance .dcrTx = true) (w : DcrTx) (hw : DcrWidths w) (hcon : v.content = some w.bytes)
    (index script acp d : Val) : Dyn.dcrSighashSingle E.net v index script acp = .ok d ↔ E.net.isDecred = true ∧
      ∃ k u s a i x j o, At w.wits index k u ∧ ScriptArg script s ∧ (dcrPrepared w k s).bytes.length ≤ 100000 ∧ (a = false ↔ IsFalse acp) ∧
        At w.ins index i x ∧ At w.outs index j o ∧ (dcrOne (dcrPrepared w k s) i o).bytes.length ≤ 100000 ∧
        d = .bytes (dcrDigest (dcrOne (dcrPrepared w k s) i o) (hashWord true a)) := by
  refine (and_iff_right_of_imp dcrSingle_gate).symm.trans (and_congr_right fun hd => ?_)
  obtain ⟨ver, lock, exp, iv, ov, wv, ins, outs, wits, V⟩ := dcr_view_of hd h hc hw hcon
  rcases dcr_prep V index script with ⟨k, u, s, hu, hs, hsz, c, ws, e, hcv⟩ | ⟨hn, e, ee, -⟩
  case inr =>
    unfold Dyn.dcrSighashSingle
    rw [ee]
    exact ⟨fun h => (nomatch h), fun ⟨k, u, s, a, _, _, _, _, hu, hs, hsz, _⟩ => absurd ⟨k, u, s, hu, hs, hsz⟩ hn⟩
  obtain ⟨n, rfl, hp⟩ := at_pyIndex hu
  rcases dcr_single hu e hcv acp with ⟨i, x, j, o, hx, ho, h1, er⟩ | ⟨i, x, j, o, hx, ho, h1, er⟩ | ⟨hn, er⟩ <;> rw [er]
  · constructor
    · intro hd
      exact ⟨k, u, s, _, i, x, j, o, hu, hs, hsz, by rw [← truthy_false]; simp, hx, ho, h1, (Except.ok.inj hd).symm⟩
    · rintro ⟨k', u', s', a, i', x', j', o', hu', hs', -, ha, hx', ho', -, rfl⟩
      obtain ⟨rfl, rfl⟩ := hu.unique hu'
      obtain ⟨rfl, rfl⟩ := hx.unique hx'
      obtain ⟨rfl, rfl⟩ := ho.unique ho'
      obtain rfl := scriptArg_unique hs hs'
      have : a = acp.truthy := by
        rw [← truthy_false] at ha
        generalize acp.truthy = t at ha ⊢
        cases a <;> cases t <;> simp_all
      rw [this]
  · refine ⟨fun h => (nomatch h), ?_⟩
    rintro ⟨k', u', s', a, i', x', j', o', hu', hs', -, ha, hx', ho', hsz', -⟩
    obtain ⟨rfl, rfl⟩ := hu.unique hu'
    obtain ⟨rfl, rfl⟩ := hx.unique hx'
    obtain ⟨rfl, rfl⟩ := ho.unique ho'
    obtain rfl := scriptArg_unique hs hs'
    exact absurd hsz' h1
  · exact ⟨fun h => (nomatch h), fun ⟨_, _, _, _, i, x, j, o, _, _, _, _, hx, ho, _⟩ => absurd ⟨i, x, j, o, hx, ho⟩ hn⟩

/-- C127: the exceptions. An index that is no integer gives TypeError, one beyond the witnesses IndexError. With a good index `sighash_all` raises
nothing but ValueError and TypeError. `sighash_single` raises what `sighash_all` raises; where that has a digest, it raises NotImplementedError if there is no input or no output at
the index, and otherwise at most ValueError (if its copy is too long). -/
theorem C127_refused {S : Network → Prop} (E : Env) (hnet : E.net.isDecred = true) (v : Val) (h : MadeOn S E v) (hc : v.isInstance .dcrTx = true) (w : DcrTx) (hw : DcrWidths w) (hcon : v.content = some w.bytes) (index script acp : Val) :
    ((∀ n, index ≠ .int n) → Dyn.dcrSighashAll E.net v index script acp = .error .typeError ∧ Dyn.dcrSighashSingle E.net v index script acp = .error .typeError) ∧
    (∀ n : Int, index = .int n → ¬ (-(w.wits.length : Int) ≤ n ∧ n < w.wits.length) →
      Dyn.dcrSighashAll E.net v index script acp = .error .indexError ∧ Dyn.dcrSighashSingle E.net v index script acp = .error .indexError) ∧
    (∀ k u, At w.wits index k u → ∀ e, Dyn.dcrSighashAll E.net v index script acp = .error e → e = .valueError ∨ e = .typeError) ∧
    (∀ d, Dyn.dcrSighashAll E.net v index script acp = .ok d → ((¬ ∃ i x j o, At w.ins index i x ∧ At w.outs index j o) →
      Dyn.dcrSighashSingle E.net v index script acp = .error .notImplementedError) ∧ ((∃ i x j o, At w.ins index i x ∧ At w.outs index j o) →
      ∀ e, Dyn.dcrSighashSingle E.net v index script acp = .error e → e = .valueError)) ∧
    (∀ e, Dyn.dcrSighashAll E.net v index script acp = .error e → Dyn.dcrSighashSingle E.net v index script acp = .error e) := by
  obtain ⟨ver, lock, exp, iv, ov, wv, ins, outs, wits, V⟩ := dcr_view_of hnet h hc hw hcon
  have both : ∀ e, Dyn.dcrPrep E.net v index script = .error e → Dyn.dcrSighashAll E.net v index script acp = .error e ∧ Dyn.dcrSighashSingle E.net v index script acp = .error e := by
    intro e he
    unfold Dyn.dcrSighashAll Dyn.dcrSighashSingle
    rw [he]
    exact ⟨rfl, rfl⟩
  rcases dcr_prep V index script with ⟨k, u, s, hu, hs, hsz, c, ws, e, hcv⟩ | ⟨hn, e, ee, hcase⟩
  · have hd : ∃ d, Dyn.dcrSighashAll E.net v index script acp = .ok d :=
      ⟨_, (C127_all E v h hc w hw hcon index script acp _).2 ⟨hnet, k, u, s, acp.truthy, hu, hs, hsz, by rw [← truthy_false]; simp, rfl⟩⟩
    refine ⟨fun hni => ?_, fun n hn hr => ?_, fun k u hku e he => ?_, fun d _ => ?_, fun e he => ?_⟩
    · obtain ⟨n, hn, -⟩ := hu; exact absurd hn (hni n)
    · obtain ⟨n', e', hn', hx⟩ := hu
      rw [hn] at e'; cases e'
      have := (List.getElem?_eq_some_iff.1 hx).1
      omega
    · obtain ⟨d, hd⟩ := hd
      rw [hd] at he; cases he
    · obtain ⟨n, rfl, hp⟩ := at_pyIndex hu
      rcases dcr_single hu e hcv acp with ⟨i, x, j, o, hx, ho, h1, er⟩ | ⟨i, x, j, o, hx, ho, h1, er⟩ | ⟨hn, er⟩ <;> rw [er]
      · exact ⟨fun hno => absurd ⟨i, x, j, o, hx, ho⟩ hno, fun _ e h => (nomatch h)⟩
      · exact ⟨fun hno => absurd ⟨i, x, j, o, hx, ho⟩ hno, fun _ e h => by cases h; rfl⟩
      · exact ⟨fun _ => rfl, fun hy => absurd hy hn⟩
    · obtain ⟨d, hd⟩ := hd
      rw [hd] at he; cases he
  · obtain ⟨b1, b2⟩ := both e ee
    rw [b1, b2]
    refine ⟨fun hni => ?_, fun n hn hr => ?_, fun k u hku e' he => ?_, fun d hd => (nomatch hd), fun _ h => h⟩
    · rcases hcase with ⟨n, hn, -⟩ | ⟨-, rfl⟩ | ⟨⟨k, u, n, hn, -⟩, -⟩
      · exact absurd hn (hni n)
      · exact ⟨rfl, rfl⟩
      · exact absurd hn (hni n)
    · rcases hcase with ⟨n, -, -, rfl⟩ | ⟨hni, -⟩ | ⟨⟨k, u, n', hn', hx', hx⟩, -⟩
      · exact ⟨rfl, rfl⟩
      · exact absurd hn (hni n)
      · rw [hn] at hn'; cases hn'
        have := (List.getElem?_eq_some_iff.1 hx).1
        omega
    · cases he
      obtain ⟨n, rfl, hp⟩ := at_pyIndex hku
      rcases hcase with ⟨n', hn, hp', -⟩ | ⟨hni, -⟩ | ⟨-, h⟩
      · cases hn; rw [hp] at hp'; cases hp'
      · exact absurd rfl (hni n)
      · exact h

/-- C127: every `DecredTx` that a program can make has such fields, and only one choice of them. -/
theorem C127_fields {S : Network → Prop} (E : Env) (v : Val) (h : MadeOn S E v) (hc : v.isInstance .dcrTx = true) : ∃ w : DcrTx, (DcrWidths w ∧ v.content = some w.bytes) ∧
    ∀ w' : DcrTx, DcrWidths w' → v.content = some w'.bytes → w' = w := by
  obtain ⟨net, w, ver, lock, exp, iv, ov, wv, ins, outs, wits, V⟩ := dcr_view h hc
  have e : v.content = some w.bytes := by rw [V.obj]; rfl
  exact ⟨w, ⟨V.widths, e⟩, fun w' hw' e' => dcr_bytes_inj hw' V.widths (Option.some.inj (e'.symm.trans e))⟩

/-! ### cases -/

def dcrWit0 : Val := .obj .dcrWitness [.bytes (List.replicate 8 2), .bytearray [1, 2, 3, 4], .bytes [5, 6, 7, 8], .int 3, .bytearray [0x51], .bytes [0x52, 0x53], .bytearray [0x51, 0x52, 0x53]]
  (List.replicate 8 2 ++ [1, 2, 3, 4] ++ [5, 6, 7, 8] ++ [3, 0x51, 0x52, 0x53])

/-- Two inputs and witnesses, one output. -/
def dcrFields0 : DcrTx :=
  ⟨[1, 0, 0, 0], List.replicate 2 ⟨List.replicate 32 1, [1, 1, 1, 1], [1], [0, 0, 0, 0]⟩, [⟨List.replicate 8 1, [0, 0], [0x51]⟩], [0, 0, 0, 0], [0, 0, 0, 0],
    List.replicate 2 ⟨List.replicate 8 2, [1, 2, 3, 4], [5, 6, 7, 8], [0x51, 0x52, 0x53]⟩⟩

private theorem dcr_case : ∃ v, Made dcrEnv v ∧ v.isInstance .dcrTx = true ∧ v.content = some dcrFields0.bytes := by
  have hi : Made dcrEnv dcrIn0 := .dcrTxIn _ _ _ (.bytearray (List.replicate 37 1)) (.bytes [0, 0, 0, 0]) rfl
  have ho : Made dcrEnv dcrOut0 := .dcrTxOut _ _ _ _ (.bytes (List.replicate 8 1)) (.bytes [0, 0]) (.bytes [0x51]) rfl
  have hw : Made dcrEnv dcrWit0 := .dcrWitness _ _ _ _ _ _ (.bytes (List.replicate 8 2)) (.bytearray [1, 2, 3, 4]) (.bytes [5, 6, 7, 8]) (.bytearray [0x51]) (.bytes [0x52, 0x53]) rfl
  refine ⟨_, .dcrTx _ _ _ _ _ _ _ (.bytes [1, 0, 0, 0]) (.list [dcrIn0, dcrIn0] (pair_made hi hi))
    (.tuple [dcrOut0] fun v hv => by rw [List.mem_singleton.1 hv]; exact ho) (.bytes [0, 0, 0, 0]) (.bytes [0, 0, 0, 0]) (.list [dcrWit0, dcrWit0] (pair_made hw hw))
    (((C117_tx _ _ _ _ _ _ _).1 _).2 ⟨[1, 0, 0, 0], [0, 0, 0, 0], [0, 0, 0, 0], [dcrIn0, dcrIn0], [dcrOut0], [dcrWit0, dcrWit0], List.replicate 2 (List.replicate 37 1 ++ [0, 0, 0, 0]),
      [List.replicate 8 1 ++ [0, 0] ++ [1, 0x51]], List.replicate 2 (List.replicate 8 2 ++ [1, 2, 3, 4] ++ [5, 6, 7, 8] ++ [3, 0x51, 0x52, 0x53]),
      ⟨rfl, rfl, rfl, rfl, rfl, rfl, rfl, ⟨.inl (.inl rfl), rfl, rfl⟩, by simp, by simp,
      ⟨.inl (.inr rfl), rfl, rfl⟩, by simp, by simp, ⟨.inl (.inl rfl), rfl, rfl⟩, by simp⟩, by decide +kernel, rfl⟩), rfl, ?_⟩
  refine congrArg some ?_
  decide

private theorem dcr_case_widths : DcrWidths dcrFields0 := by
  refine ⟨rfl, rfl, rfl, ⟨by simp [dcrFields0], by decide, ?_⟩, ⟨by simp [dcrFields0], by decide, ?_⟩, ⟨by decide, ?_⟩⟩ <;> decide

/-- The index -1 is the last witness, the script can be None or a bytearray; `anyone_can_pay` can be a list. For SINGLE there is no output at 1. A script that is a list is refused. -/
example : ∃ v, Made dcrEnv v ∧ v.isInstance .dcrTx = true ∧
    Dyn.dcrSighashAll dcrEnv.net v (.int (-1)) .none (.list [.none]) = .ok (.bytes (dcrDigest (dcrPrepared dcrFields0 1 []) 0x81)) ∧
    Dyn.dcrSighashAll dcrEnv.net v (.int 0) (.bytearray [0x52]) .none = .ok (.bytes (dcrDigest (dcrPrepared dcrFields0 0 [0x52]) 1)) ∧
    Dyn.dcrSighashSingle dcrEnv.net v (.int 0) (.bytearray [0x52]) (.int 1) =
      .ok (.bytes (dcrDigest (dcrOne (dcrPrepared dcrFields0 0 [0x52]) 0 ⟨List.replicate 8 1, [0, 0], [0x51]⟩) 0x83)) ∧
    Dyn.dcrSighashSingle dcrEnv.net v (.int 1) (.bytearray [0x52]) = .error .notImplementedError ∧
    Dyn.dcrSighashAll dcrEnv.net v (.int 2) = .error .indexError ∧
    Dyn.dcrSighashAll dcrEnv.net v (.str (pystr "0")) = .error .typeError ∧
    ∀ d, Dyn.dcrSighashAll dcrEnv.net v (.int 0) (.list []) ≠ .ok d := by
  obtain ⟨v, h, hc, hcon⟩ := dcr_case
  have all := C127_all dcrEnv v h hc dcrFields0 dcr_case_widths hcon
  have ref := C127_refused dcrEnv rfl v h hc dcrFields0 dcr_case_widths hcon
  refine ⟨v, h, hc, (all _ _ _ _).2 ⟨rfl, 1, _, [], true, ⟨-1, rfl, .inr (by decide), rfl⟩, .inl ⟨rfl, rfl⟩, by decide +kernel, ?_, rfl⟩,
    (all _ _ _ _).2 ⟨rfl, 0, _, [0x52], false, ⟨0, rfl, .inl rfl, rfl⟩, .inr (.inr rfl), by decide +kernel, ?_, rfl⟩,
    (C127_single dcrEnv v h hc dcrFields0 dcr_case_widths hcon _ _ _ _).2 ⟨rfl, 0, _, [0x52], true, 0, _, 0, _, ⟨0, rfl, .inl rfl, rfl⟩, .inr (.inr rfl), by decide +kernel, ?_,
      ⟨0, rfl, .inl rfl, rfl⟩, ⟨0, rfl, .inl rfl, rfl⟩, by decide +kernel, rfl⟩,
    ((ref _ _ _).2.2.2.1 _ ((all _ _ _ _).2 ⟨rfl, 1, _, [0x52], false, ⟨1, rfl, .inl rfl, rfl⟩, .inr (.inr rfl), by decide +kernel, ?_, rfl⟩)).1 ?_,
    ((ref _ _ _).2.1 2 rfl (by decide)).1, ((ref (.str (pystr "0")) .none (.int 0)).1 (fun n h => by cases h)).1, ?_⟩
  · rw [← truthy_false]; decide
  · rw [← truthy_false]; decide
  · rw [← truthy_false]; decide
  · rw [← truthy_false]; decide
  · rintro ⟨i, x, j, o, -, n, e, hn, ho⟩
    cases e
    have := (List.getElem?_eq_some_iff.1 ho).1
    have hl : dcrFields0.outs.length = 1 := rfl
    omega
  · intro d hd
    obtain ⟨-, _, _, _, _, _, hs, -⟩ := (all _ _ _ _).1 hd
    rcases hs with ⟨e, -⟩ | e | e <;> cases e

end Verif.Props
