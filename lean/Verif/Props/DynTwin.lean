import Verif.Lemmas.Sighash
import Verif.Model.DynSighash
import Verif.Props.DynSafe
import Verif.Props.DynTyped

/-! Lemmas for C123: a transaction made from arguments of any type has a twin in the model with types, and what the sighash functions do with the one they do with
the other. -/

namespace Verif.Props
open Spec

/-! ### lists and results that correspond -/

/-- Two lists whose elements correspond one by one. -/
inductive Twins {α β : Type} (R : α → β → Prop) : List α → List β → Prop
  | nil : Twins R [] []
  | cons {x y xs ys} : R x y → Twins R xs ys → Twins R (x :: xs) (y :: ys)

theorem Twins.length {α β : Type} {R : α → β → Prop} {l : List α} {m : List β} (h : Twins R l m) : l.length = m.length := by
  induction h with
  | nil => rfl
  | cons _ _ ih => simp [ih]

theorem Twins.get {α β : Type} {R : α → β → Prop} {l : List α} {m : List β} (h : Twins R l m) (k : Nat) (h1 : k < l.length) (h2 : k < m.length) : R l[k] m[k] := by
  induction h generalizing k with
  | nil => simp at h1
  | cons hr _ ih =>
    cases k with
    | zero => exact hr
    | succ k => exact ih k (by simpa using h1) (by simpa using h2)

theorem Twins.set {α β : Type} {R : α → β → Prop} {l : List α} {m : List β} (h : Twins R l m) (k : Nat) {x : α} {y : β} (hr : R x y) : Twins R (l.set k x) (m.set k y) := by
  induction h generalizing k with
  | nil => exact .nil
  | cons hr' hl ih =>
    cases k with
    | zero => exact .cons hr hl
    | succ k => exact .cons hr' (ih k)

theorem twins_of {α β : Type} {R : α → β → Prop} (l : List α) (h : ∀ x ∈ l, ∃ y, R x y) : ∃ m, Twins R l m := by
  induction l with
  | nil => exact ⟨[], .nil⟩
  | cons x xs ih =>
    obtain ⟨y, hy⟩ := h x (by simp)
    obtain ⟨ys, hys⟩ := ih fun z hz => h z (by simp [hz])
    exact ⟨y :: ys, .cons hy hys⟩

theorem Twins.right {α β : Type} {R : α → β → Prop} {P : β → Prop} {l : List α} {m : List β} (h : Twins R l m) (hp : ∀ x y, R x y → P y) : ∀ y ∈ m, P y := by
  induction h with
  | nil => intro y hy; cases hy
  | cons hr _ ih =>
    intro y hy
    rcases List.mem_cons.1 hy with rfl | hy
    · exact hp _ _ hr
    · exact ih y hy

theorem Twins.left {α β : Type} {R : α → β → Prop} {P : α → Prop} {l : List α} {m : List β} (h : Twins R l m) (hp : ∀ x y, R x y → P x) : ∀ x ∈ l, P x := by
  induction h with
  | nil => intro y hy; cases hy
  | cons hr _ ih =>
    intro y hy
    rcases List.mem_cons.1 hy with rfl | hy
    · exact hp _ _ hr
    · exact ih y hy

theorem Twins.contents {β : Type} {R : Val → β → Prop} {f : β → Bytes} {l : List Val} {m : List β} (h : Twins R l m)
    (hf : ∀ x y, R x y → x.content = some (f y)) : Contents l (m.map f) := by
  unfold Contents
  induction h with
  | nil => rfl
  | cons hr _ ih => simp only [List.map_cons, hf _ _ hr, ih]

/-- Two results that correspond: both values do, or they are the same exception. -/
inductive Same {α β : Type} (R : α → β → Prop) : Py α → Py β → Prop
  | ok {a b} : R a b → Same R (.ok a) (.ok b)
  | error (e) : Same R (.error e) (.error e)

theorem Same.bind {α β γ δ : Type} {R : α → β → Prop} {S : γ → δ → Prop} {p : Py α} {q : Py β} {f : α → Py γ} {g : β → Py δ} (h : Same R p q)
    (hf : ∀ a b, R a b → Same S (f a) (g b)) : Same S (p >>= f) (q >>= g) := by
  cases h with
  | ok hr => exact hf _ _ hr
  | error e => exact .error e

theorem Same.map {α β : Type} {f : β → α} {p : Py α} {q : Py β} (h : Same (fun a b => a = f b) p q) : p = q.map f := by
  cases h with
  | ok hr => rw [hr]; rfl
  | error e => rfl

theorem Same.refl {α : Type} (p : Py α) : Same (fun a b => a = b) p p := by
  cases p with
  | ok a => exact .ok rfl
  | error e => exact .error e

theorem Same.mono {α β : Type} {R S : α → β → Prop} {p : Py α} {q : Py β} (h : Same R p q) (hs : ∀ a b, R a b → S a b) : Same S p q := by
  cases h with
  | ok hr => exact .ok (hs _ _ hr)
  | error e => exact .error e

theorem Same.mono' {α β : Type} {R S : α → β → Prop} {p : Py α} {b : β} (h : Same R p (.ok b)) (hs : ∀ a, R a b → S a b) : Same S p (.ok b) := by
  cases h with
  | ok hr => exact .ok (hs _ hr)

theorem same_mapPy {α β γ δ : Type} {R : α → β → Prop} {S : γ → δ → Prop} {f : α → Py γ} {g : β → Py δ} {l : List α} {m : List β} (h : Twins R l m)
    (hf : ∀ a b, R a b → Same S (f a) (g b)) : Same (Twins S) (mapPy f l) (mapPy g m) := by
  induction h with
  | nil => exact .ok .nil
  | cons hr _ ih =>
    unfold mapPy
    exact (hf _ _ hr).bind fun a b hab => ih.bind fun c d hcd => .ok (.cons hab hcd)

theorem same_item {β : Type} {R : Val → β → Prop} {l : List Val} {m : List β} (h : Twins R l m) (n : Int) : Same R (Val.itemOf l (.int n)) (getItem m n) := by
  show Same R (getItem l n) _
  cases hp : pyIndex n m.length with
  | none => rw [getItem_none hp, getItem_none (by rw [h.length]; exact hp)]; exact .error _
  | some k => rw [getItem_ok hp, getItem_ok (by rw [h.length]; exact hp)]; exact .ok (h.get k _ _)

theorem same_set {β : Type} {R : Val → β → Prop} {l : List Val} {m : List β} (h : Twins R l m) (n : Int) {x : Val} {y : β} (hr : R x y) :
    Same (Twins R) (Val.setOf l x (.int n)) (setItem m n y) := by
  show Same _ (setItem l n x) _
  unfold setItem
  rw [h.length]
  split
  · exact .ok (h.set _ hr)
  · exact .error _

/-! ### the objects -/

/-- An input and its twin: the fields hold the same bytes. -/
def InTwin (x : Val) (i : TxIn) : Prop :=
  ∃ o s r g q, x = .obj .txIn [o, s, r, g, q] i.bytes ∧ o.content = some i.outpoint.bytes ∧ s.content = some i.stackScript ∧ r.content = some i.redeemScript ∧
    q.content = some i.sequence ∧ RawBytes s ∧ RawBytes r ∧ i.Built

/-- An output and its twin. -/
def OutTwin (x : Val) (o : TxOut) : Prop := ∃ l, x = .obj .txOut l o.bytes ∧ o.Built

/-- A witness and its twin. -/
def WitTwin (x : Val) (w : InputWitness) : Prop := ∃ l, x = .obj .witness l w.bytes ∧ w.Built

/-- A transaction and its twin. -/
def TxTwin (E : Env) (v : Val) (t : Tx) : Prop :=
  ∃ ver flag ins outs wits lock a b c d, v = .obj .tx [ver, flag, .tuple ins, .tuple outs, wits, lock, a, b, c, d] t.bytes ∧ ver.content = some t.version ∧
    lock.content = some t.lockTime ∧ Twins InTwin ins t.txIns ∧ Twins OutTwin outs t.txOuts ∧ (flag = .none ↔ t.flag = none) ∧
    (wits = .none ↔ t.txWitnesses = none) ∧ t.Built E

theorem outpoint_built {b : Bytes} (h : b.length = 36) : Outpoint.Built ⟨b.take 32, b.drop 32, b⟩ :=
  ⟨b.take 32, b.drop 32, Outpoint.make_iff.2 ⟨by simp; omega, by simp; omega, by simp⟩⟩

theorem in_twin {S : Network → Prop} {E : Env} {x : Val} (h : MadeOn S E x) (hc : x.isInstance .txIn = true) : ∃ i, InTwin x i := by
  cases x <;> simp [Val.isInstance] at hc
  next c t b =>
  subst hc
  obtain ⟨_, -, o, s, r, q, h⟩ := made_on h
  obtain ⟨bo, bs, br, bq, sig, ho, hs, hr, hq, rs, rr, lo, ls, lq, -, -, -, e⟩ := ((C114_txIn o s r q).1 _).1 h
  refine ⟨⟨⟨bo.take 32, bo.drop 32, bo⟩, bs, br, bs ++ br, bq, bo ++ varBytes (bs ++ br) ++ bq⟩, o, s, r, sig, q, ?_, ho, hs, hr, hq, rs, rr, ?_⟩
  · rw [e]; simp [wireIn]
  · exact ⟨_, bs, br, bq, outpoint_built lo, TxIn.make_iff.2 ⟨lo, lq, ls, rfl⟩⟩

theorem out_twin {S : Network → Prop} {E : Env} {x : Val} (h : MadeOn S E x) (hc : x.isInstance .txOut = true) : ∃ o, OutTwin x o := by
  cases x <;> simp [Val.isInstance] at hc
  next c t b =>
  subst hc
  obtain ⟨_, -, v, s, h⟩ := made_on h
  obtain ⟨bv, bs, -, -, lv, ls, e⟩ := ((C114_txOut v s).1 _).1 h
  exact ⟨⟨bv, bs, wireOut bv bs⟩, _, e, bv, bs, TxOut.make_iff.2 ⟨lv, ls, rfl⟩⟩

theorem wit_twin {S : Network → Prop} {E : Env} {x : Val} (h : MadeOn S E x) (hc : x.isInstance .witness = true) : ∃ w, WitTwin x w := by
  cases x <;> simp [Val.isInstance] at hc
  next c t b =>
  subst hc
  obtain ⟨_, -, s, hs, h⟩ := made_on h
  obtain ⟨l, bs, hl, hcl, hlt, hb, e⟩ := ((C114_witness s).1 _).1 h
  have hit : ∀ x ∈ l, ∃ i : WitnessStackItem, x.content = some i.bytes ∧ i.Built := by
    intro x hx
    have hx' := List.all_eq_true.1 hcl x hx
    have hm : MadeOn S E x := by
      rcases hl with hl | ⟨-, rfl⟩
      · exact made_seq hs hl x hx
      · cases hx
    cases x <;> simp [Val.isInstance] at hx'
    next c t b =>
    subst hx'
    obtain ⟨_, -, a, h⟩ := made_on hm
    obtain ⟨y, -, ly, e⟩ := ((C114_item a).1 _).1 h
    cases e
    exact ⟨⟨y, varBytes y⟩, rfl, y, WitnessStackItem.make_iff.2 ⟨ly, rfl⟩⟩
  obtain ⟨m, hm⟩ := twins_of l hit
  have hc := hm.contents (f := fun i : WitnessStackItem => i.bytes) fun x y h => h.1
  refine ⟨⟨m, vector bs⟩, _, e, m, hm.right fun x y h => h.2, InputWitness.make_iff.2 ⟨by rw [← hm.length]; exact hlt, ?_⟩⟩
  rw [hb.unique hc]

/-- A `Tx` object, made while any supported network was selected, as an object of the typed model. -/
theorem tx_twin {S : Network → Prop} (hS : ∀ n, S n → n.Supported) {E : Env} (hn : E.net.Supported) {v : Val} (h : MadeOn S E v) (hc : v.isInstance .tx = true) : ∃ t, TxTwin E v t := by
  cases v <;> simp [Val.isInstance] at hc
  next c t x =>
  subst hc
  obtain ⟨m, hm, a, b, i, o, w, f, hi, ho, hw, h⟩ := made_on h
  obtain ⟨bv, bl, ins, outs, bi, bo, stored, bw, ha, hwits, hv⟩ := (C114_tx ⟨m, E.H⟩ (hm.elim (fun e => e ▸ hn) (hS m)) _ _ _ _ _ _ _).1 h
  clear hm
  obtain ⟨ti, hti⟩ := twins_of ins fun v hv => in_twin (made_seq hi ha.ins_seq v hv) (List.all_eq_true.1 ha.ins_cls v hv)
  obtain ⟨to', hto⟩ := twins_of outs fun v hv => out_twin (made_seq ho ha.outs_seq v hv) (List.all_eq_true.1 ha.outs_cls v hv)
  have hbi : bi = ti.map (·.bytes) := ha.ins_bytes.unique (hti.contents fun x y h => by obtain ⟨_, _, _, _, _, rfl, _⟩ := h; rfl)
  have hbo : bo = to'.map (·.bytes) := ha.outs_bytes.unique (hto.contents fun x y h => by obtain ⟨_, rfl, _⟩ := h; rfl)
  have hibuilt : ∀ i ∈ ti, i.Built := hti.right fun x y h => by obtain ⟨_, _, _, _, _, _, _, _, _, _, _, _, h⟩ := h; exact h
  have hobuilt : ∀ i ∈ to', i.Built := hto.right fun x y h => by obtain ⟨_, _, h⟩ := h; exact h
  have hine : ti ≠ [] := fun e => ha.ins_ne (List.length_eq_zero_iff.1 (by rw [hti.length, e]; rfl))
  have hone : to' ≠ [] := fun e => ha.outs_ne (List.length_eq_zero_iff.1 (by rw [hto.length, e]; rfl))
  have hilt : ti.length < 2 ^ 64 := by rw [← hti.length]; exact ha.ins_lt
  have holt : to'.length < 2 ^ 64 := by rw [← hto.length]; exact ha.outs_lt
  have hww : ∃ ws : Option (List InputWitness), (stored = .none ↔ ws = none) ∧ bw = (ws.getD []).map (·.bytes) ∧ (∀ s ∈ ws.getD [], s.Built) ∧
      (ws.getD [] ≠ [] → b ≠ .none ∧ (ws.getD []).length = ti.length) := by
    rcases hwits with ⟨-, e1, e⟩ | ⟨-, e1, e⟩ | ⟨l, hf, hs, hl, hcl, hb, e1⟩
    · exact ⟨none, by simp [e1], e, (fun _ h => nomatch h), fun h => absurd rfl h⟩
    · exact ⟨some [], by simp [e1], e, (fun _ h => nomatch h), fun h => absurd rfl h⟩
    · obtain ⟨m, hm⟩ := twins_of l fun v hv => wit_twin (made_seq hw hs v hv) (List.all_eq_true.1 hcl v hv)
      refine ⟨some m, by simp [e1], hb.unique (hm.contents fun x y h => by obtain ⟨_, rfl, _⟩ := h; rfl), hm.right fun x y h => by obtain ⟨_, _, h⟩ := h; exact h, ?_⟩
      intro _
      exact ⟨hf, by show m.length = _; rw [← hm.length, hl, hti.length]⟩
  obtain ⟨ws, w1, w2, w3, w4⟩ := hww
  have hfl : E.net.segwitTxFlag = [0x00, 0x01] := segwitFlag_eq hn
  rcases hv with ⟨hf, e⟩ | ⟨hf, -, -, e⟩
  · have hws : ws.getD [] = [] := by
      by_cases hh : ws.getD [] = []
      · exact hh
      · exact absurd hf (w4 hh).1
    have hm := Tx.make_iff.2 ⟨(⟨ha.version_len, ha.lock_len, .inl rfl, by rw [hws]; exact fun h => absurd rfl h, hine, hone, hilt, holt⟩ :
      TxArgsOK E bv none ti to' ws bl), rfl⟩
    have hb : (txObj E bv none ti to' ws bl).bytes = wireLegacy bv bi bo bl := by
      rw [hbi, hbo]
      simp only [txObj, hws, List.map_nil, txBytes_none]
    exact ⟨txObj E bv none ti to' ws bl, a, .none, ins, outs, stored, f, _, _, _, _, by rw [e, legacyObj, hb], ha.version, ha.lock, hti, hto, by simp [txObj], w1, bv, none, ti, to', ws, bl, hibuilt, hobuilt, w3, hm⟩
  · have hm := Tx.make_iff.2 ⟨(⟨ha.version_len, ha.lock_len, .inr (congrArg some hfl.symm), fun h => ⟨by simp, (w4 h).2⟩, hine, hone, hilt, holt⟩ :
      TxArgsOK E bv (some [0, 1]) ti to' ws bl), rfl⟩
    have hb : (txObj E bv (some [0, 1]) ti to' ws bl).bytes = wireSegwit bv bi bo bw bl := by
      rw [hbi, hbo, w2]
      simp only [txObj, txBytes_some]
    have hfn : b = .none ↔ (some [0, 1] : Option Bytes) = none := by
      simp only [reduceCtorEq, iff_false]
      intro h; rw [h] at hf; cases hf
    exact ⟨txObj E bv (some [0, 1]) ti to' ws bl, a, b, ins, outs, stored, f, _, _, _, _, by rw [e, segwitObj, hb], ha.version, ha.lock, hti, hto, hfn, w1, bv, some [0, 1], ti, to', ws, bl, hibuilt, hobuilt, w3, hm⟩

/-! ### the constructors -/

theorem same_txIn {o s r q : Val} {O : Outpoint} {S R Q : Bytes} (hO : O.Built) (ho : o.content = some O.bytes) (hs : s.content = some S) (hr : r.content = some R)
    (hq : q.content = some Q) (rs : RawBytes s) (rr : RawBytes r) : Same InTwin (Dyn.txIn o s r q) (TxIn.make O S R Q) := by
  obtain ⟨h1, h2, h3⟩ := C114_txIn o s r q
  cases ht : TxIn.make O S R Q with
  | ok t =>
    obtain ⟨c1, c2, c3, rfl⟩ := TxIn.make_iff.1 ht
    obtain ⟨g, hg⟩ := add_ok.2 ⟨rs, rr⟩
    have hgc := add_content hg hs hr
    have hgr : RawBytes g := by
      obtain ⟨a, rfl | rfl⟩ := rs <;> obtain ⟨b, rfl | rfl⟩ := rr <;> cases hg
      · exact ⟨_, .inl rfl⟩
      · exact ⟨_, .inl rfl⟩
      · exact ⟨_, .inr rfl⟩
      · exact ⟨_, .inr rfl⟩
    rw [(h1 _).2 ⟨O.bytes, S, R, Q, g, ho, hs, hr, hq, rs, rr, c1, c3, c2, hgr, hgc, hg, rfl⟩]
    exact .ok ⟨o, s, r, g, q, by simp [wireIn], ho, hs, hr, hq, rs, rr, O, S, R, Q, hO, ht⟩
  | error e =>
    have he := TxIn.make_error ht
    subst he
    cases hd : Dyn.txIn o s r q with
    | ok v =>
      obtain ⟨bo, bs, br, bq, sig, ho', hs', hr', hq', -, -, lo, ls, lq, -⟩ := (h1 _).1 hd
      rw [Byteslike, hs] at hs'; rw [Byteslike, hr] at hr'; rw [Byteslike, hq] at hq'
      cases hs'; cases hr'; cases hq'
      rw [TxIn.make_iff.2 ⟨hO.length, lq, ls, rfl⟩] at ht
      cases ht
    | error e =>
      rcases h3 e hd with rfl | rfl
      · exact .error _
      · obtain ⟨_, _, _, _, -, -, -, -, -, -, -, hn⟩ := h2.1 hd
        exact absurd ⟨rs, rr⟩ hn

theorem same_txOut {v s : Val} {V S : Bytes} (hv : v.content = some V) (hs : s.content = some S) : Same OutTwin (Dyn.txOut v s) (TxOut.make V S) := by
  obtain ⟨h1, h2⟩ := C114_txOut v s
  cases ht : TxOut.make V S with
  | ok t =>
    obtain ⟨c1, c2, rfl⟩ := TxOut.make_iff.1 ht
    rw [(h1 _).2 ⟨V, S, hv, hs, c1, c2, rfl⟩]
    exact .ok ⟨_, rfl, V, S, ht⟩
  | error e =>
    have he := TxOut.make_error ht
    subst he
    cases hd : Dyn.txOut v s with
    | ok x =>
      obtain ⟨a, b, ha, hb, l1, l2, -⟩ := (h1 _).1 hd
      rw [Byteslike, hv] at ha; rw [Byteslike, hs] at hb
      cases ha; cases hb
      rw [TxOut.make_iff.2 ⟨l1, l2, rfl⟩] at ht
      cases ht
    | error e => rw [h2 e hd]; exact .error _

theorem InTwin.inst {x : Val} {i : TxIn} (h : InTwin x i) : x.isInstance .txIn = true ∧ x.content = some i.bytes := by
  obtain ⟨_, _, _, _, _, rfl, _⟩ := h; exact ⟨rfl, rfl⟩

theorem OutTwin.inst {x : Val} {i : TxOut} (h : OutTwin x i) : x.isInstance .txOut = true ∧ x.content = some i.bytes := by
  obtain ⟨_, rfl, _⟩ := h; exact ⟨rfl, rfl⟩

theorem InTwin.built {x : Val} {i : TxIn} (h : InTwin x i) : i.Built := by obtain ⟨_, _, _, _, _, _, _, _, _, _, _, _, h⟩ := h; exact h

theorem same_tx {E : Env} (hn : E.net.Supported) {ver lock si so : Val} {V L : Bytes} {ins outs : List Val} {ti : List TxIn} {to' : List TxOut}
    (hv : ver.content = some V) (hl : lock.content = some L) (hi : IsSeq si ins) (ho : IsSeq so outs) (hti : Twins InTwin ins ti) (hto : Twins OutTwin outs to') :
    Same (TxTwin E) (Dyn.tx E ver .none si so .none lock) (Tx.make E V none ti to' none L) := by
  have hci : Contents ins (ti.map (·.bytes)) := hti.contents fun x y h => h.inst.2
  have hco : Contents outs (to'.map (·.bytes)) := hto.contents fun x y h => h.inst.2
  have hii : ins.all (Val.isInstance .txIn) = true := List.all_eq_true.2 (hti.left fun x y h => h.inst.1)
  have hio : outs.all (Val.isInstance .txOut) = true := List.all_eq_true.2 (hto.left fun x y h => h.inst.1)
  have li := hti.length
  have lo := hto.length
  rw [Tx.make_eq]
  by_cases hok : TxArgsOK E V none ti to' none L
  · rw [if_pos hok]
    obtain ⟨a1, a2, -, -, a5, a6, a7, a8⟩ := id hok
    have args : TxArgs ver si so lock V L ins outs (ti.map (·.bytes)) (to'.map (·.bytes)) :=
      ⟨hv, a1, hl, a2, hi, fun e => a5 (List.length_eq_zero_iff.1 (by rw [← li, e]; rfl)), by rw [li]; exact a7, hii, hci,
        ho, fun e => a6 (List.length_eq_zero_iff.1 (by rw [← lo, e]; rfl)), by rw [lo]; exact a8, hio, hco⟩
    rw [(C114_tx E hn _ _ _ _ _ _ _).2 ⟨V, L, ins, outs, _, _, .none, [], args, .inl ⟨rfl, rfl, rfl⟩, .inl ⟨rfl, rfl⟩⟩]
    have hb : (txObj E V none ti to' none L).bytes = wireLegacy V (ti.map (·.bytes)) (to'.map (·.bytes)) L := by
      simp only [txObj, Option.getD_none, List.map_nil, txBytes_none]
    exact .ok ⟨ver, .none, ins, outs, .none, lock, _, _, _, _, by rw [legacyObj, hb], hv, hl, hti, hto, by simp [txObj], by simp [txObj], V, none, ti, to', none, L,
      hti.right fun x y h => h.built, hto.right fun x y h => by obtain ⟨_, _, h⟩ := h; exact h, (fun _ h => nomatch h), Tx.make_iff.2 ⟨hok, rfl⟩⟩
  · rw [if_neg hok]
    cases hd : Dyn.tx E ver .none si so .none lock with
    | ok v =>
      exfalso
      obtain ⟨bv, bl, ins', outs', bi, bo, stored, bw, ha, -, -⟩ := (C114_tx E hn _ _ _ _ _ _ _).1 hd
      have ev := ha.version; have el := ha.lock
      rw [Byteslike, hv] at ev; rw [Byteslike, hl] at el
      cases ev; cases el
      have ei : ins' = ins := by rcases hi with rfl | rfl <;> rcases ha.ins_seq with h | h <;> cases h <;> rfl
      have eo : outs' = outs := by rcases ho with rfl | rfl <;> rcases ha.outs_seq with h | h <;> cases h <;> rfl
      subst ei eo
      refine hok ⟨ha.version_len, ha.lock_len, .inl rfl, fun h => absurd rfl h, ?_, ?_, ?_, ?_⟩
      · intro e; exact ha.ins_ne (List.length_eq_zero_iff.1 (by rw [li, e]; rfl))
      · intro e; exact ha.outs_ne (List.length_eq_zero_iff.1 (by rw [lo, e]; rfl))
      · rw [← li]; exact ha.ins_lt
      · rw [← lo]; exact ha.outs_lt
    | error e =>
      rcases C114_tx_errors E _ _ _ _ _ _ _ hd with rfl | ⟨-, h, -⟩ | ⟨-, h⟩
      · exact .error _
      · exact absurd rfl h
      · rcases h with h | h | ⟨h, -⟩ | ⟨h, -⟩
        · rw [hi.iter.2] at h; cases h
        · rw [ho.iter.2] at h; cases h
        · exact absurd rfl h
        · exact absurd rfl h

/-! ### `copy` -/

theorem same_copyIn {x : Val} {i : TxIn} (h : InTwin x i) {s r q : Val} {S R Q : Option Bytes}
    (hs : s = .none ∧ S = none ∨ ∃ b, s.content = some b ∧ S = some b ∧ RawBytes s) (hr : r = .none ∧ R = none ∨ ∃ b, r.content = some b ∧ R = some b ∧ RawBytes r)
    (hq : q = .none ∧ Q = none ∨ ∃ b, q.content = some b ∧ Q = some b) :
    Same InTwin (Dyn.copyTxIn x .none s r q) (i.copy none S R Q) := by
  obtain ⟨o, s0, r0, g, q0, rfl, ho, hs0, hr0, hq0, rs, rr, hb⟩ := h
  have hkeep : ∀ a b : Val, a ≠ .none → Dyn.keep a b = a := by intro a b h; cases a <;> first | rfl | exact absurd rfl h
  have hne : ∀ (a : Val) (b : Bytes), a.content = some b → a ≠ .none := by rintro a b h rfl; cases h
  show Same InTwin (Dyn.txIn o (Dyn.keep s s0) (Dyn.keep r r0) (Dyn.keep q q0)) (TxIn.make i.outpoint (S.getD i.stackScript) (R.getD i.redeemScript) (Q.getD i.sequence))
  have k1 : (Dyn.keep s s0).content = some (S.getD i.stackScript) ∧ RawBytes (Dyn.keep s s0) := by
    rcases hs with ⟨rfl, rfl⟩ | ⟨b, h1, rfl, h2⟩
    · exact ⟨hs0, rs⟩
    · rw [hkeep s s0 (hne s b h1)]; exact ⟨h1, h2⟩
  have k2 : (Dyn.keep r r0).content = some (R.getD i.redeemScript) ∧ RawBytes (Dyn.keep r r0) := by
    rcases hr with ⟨rfl, rfl⟩ | ⟨b, h1, rfl, h2⟩
    · exact ⟨hr0, rr⟩
    · rw [hkeep r r0 (hne r b h1)]; exact ⟨h1, h2⟩
  have k3 : (Dyn.keep q q0).content = some (Q.getD i.sequence) := by
    rcases hq with ⟨rfl, rfl⟩ | ⟨b, h1, rfl⟩
    · exact hq0
    · rw [hkeep q q0 (hne q b h1)]; exact h1
  exact same_txIn hb.eq.1 ho k1.1 k2.1 k3 k1.2 k2.2

/-- A transaction and its twin, neither with a flag nor with witnesses. -/
def LegacyTwin (E : Env) (v : Val) (t : Tx) : Prop := TxTwin E v t ∧ t.flag = none ∧ t.txWitnesses = none

theorem same_make {E : Env} (hn : E.net.Supported) {ver lock si so : Val} {V L : Bytes} {ins outs : List Val} {ti : List TxIn} {to' : List TxOut}
    (hv : ver.content = some V) (hl : lock.content = some L) (hi : IsSeq si ins) (ho : IsSeq so outs) (hti : Twins InTwin ins ti) (hto : Twins OutTwin outs to') :
    Same (LegacyTwin E) (Dyn.tx E ver .none si so .none lock) (Tx.make E V none ti to' none L) := by
  have := same_tx hn hv hl hi ho hti hto
  cases ht : Tx.make E V none ti to' none L with
  | ok t' =>
    rw [ht] at this
    refine this.mono' fun a ha => ⟨ha, ?_⟩
    obtain ⟨-, rfl⟩ := Tx.make_iff.1 ht
    exact ⟨rfl, rfl⟩
  | error e => rw [ht] at this; generalize Dyn.tx E ver .none si so .none lock = p at this; cases this; exact .error _

theorem same_copyTx {E : Env} (hn : E.net.Supported) {v : Val} {t : Tx} (h : LegacyTwin E v t) {ins : List Val} {ti : List TxIn} (hi : Twins InTwin ins ti) :
    Same (LegacyTwin E) (Dyn.copyTx E v .none .none (.list ins) .none .none .none) (t.copy E (txIns := some ti)) := by
  obtain ⟨⟨ver, flag, i0, outs, wits, lock, a, b, c, d, rfl, hv, hl, -, ho, hf, hw, -⟩, h1, h2⟩ := h
  have hf := hf.2 h1
  have hw := hw.2 h2
  subst hf hw
  unfold Tx.copy
  simp only [Option.getD_none, Option.getD_some, Option.orElse_none, h1, h2]
  exact same_make hn hv hl (.inl rfl) (.inr rfl) hi ho

theorem same_copyTx2 {E : Env} (hn : E.net.Supported) {v : Val} {t : Tx} (h : LegacyTwin E v t) {ins outs : List Val} {ti : List TxIn} {to' : List TxOut}
    (hi : Twins InTwin ins ti) (ho : Twins OutTwin outs to') :
    Same (LegacyTwin E) (Dyn.copyTx E v .none .none (.list ins) (.list outs) .none .none) (t.copy E (txIns := some ti) (txOuts := some to')) := by
  obtain ⟨⟨ver, flag, i0, _, wits, lock, a, b, c, d, rfl, hv, hl, -, -, hf, hw, -⟩, h1, h2⟩ := h
  have hf := hf.2 h1
  have hw := hw.2 h2
  subst hf hw
  unfold Tx.copy
  simp only [Option.getD_none, Option.getD_some, Option.orElse_none, h1, h2]
  exact same_make hn hv hl (.inl rfl) (.inl rfl) hi ho

theorem TxTwin.ins {E : Env} {v : Val} {t : Tx} (h : TxTwin E v t) : ∃ l, v.txInsOf = .ok l ∧ Twins InTwin l t.txIns := by
  obtain ⟨_, _, ins, _, _, _, _, _, _, _, rfl, _, _, h, _⟩ := h; exact ⟨ins, rfl, h⟩

theorem TxTwin.outs {E : Env} {v : Val} {t : Tx} (h : TxTwin E v t) : ∃ l, v.txOutsOf = .ok l ∧ Twins OutTwin l t.txOuts := by
  obtain ⟨_, _, _, outs, _, _, _, _, _, _, rfl, _, _, _, h, _⟩ := h; exact ⟨outs, rfl, h⟩

theorem TxTwin.version {E : Env} {v : Val} {t : Tx} (h : TxTwin E v t) : ∃ x, v.versionOf = .ok x ∧ x.content = some t.version := by
  obtain ⟨ver, _, _, _, _, _, _, _, _, _, rfl, h, _⟩ := h; exact ⟨ver, rfl, h⟩

theorem TxTwin.lock {E : Env} {v : Val} {t : Tx} (h : TxTwin E v t) : ∃ x, v.lockTimeOf = .ok x ∧ x.content = some t.lockTime := by
  obtain ⟨_, _, _, _, _, l, _, _, _, _, rfl, _, h, _⟩ := h; exact ⟨l, rfl, h⟩

theorem TxTwin.content {E : Env} {v : Val} {t : Tx} (h : TxTwin E v t) : v.content = some t.bytes := by
  obtain ⟨_, _, _, _, _, _, _, _, _, _, rfl, _⟩ := h; rfl

theorem TxTwin.built {E : Env} {v : Val} {t : Tx} (h : TxTwin E v t) : t.Built E := by
  obtain ⟨_, _, _, _, _, _, _, _, _, _, _, _, _, _, _, _, _, h⟩ := h; exact h

theorem given_iff (v : Val) : v.given = true ↔ v ≠ .none := by cases v <;> simp [Val.given]

theorem TxTwin.witness {E : Env} {v : Val} {t : Tx} (h : TxTwin E v t) : Dyn.isWitness v = .ok t.isWitness := by
  obtain ⟨_, f, _, _, w, _, _, _, _, _, rfl, _, _, _, _, hf, hw, _⟩ := h
  have e : (f.given || w.given) = t.isWitness := by
    unfold Tx.isWitness
    rw [Bool.eq_iff_iff]
    simp only [Bool.or_eq_true, given_iff, ne_eq, hf, hw]
    cases t.flag <;> cases t.txWitnesses <;> simp
  show Except.ok (f.given || w.given) = _
  rw [e]

/-! ### the sighash functions -/

theorem readVarInt_content {net : Network} {v : Val} {b : Bytes} (h : v.content = some b) : Dyn.readVarInt net v = VarInt.fromBytes net b := by
  cases v <;> simp [Val.content] at h <;> subst h <;> rfl

theorem twin_from {v : Val} {b : Bytes} (h : v.content = some b) (n : Nat) : ∃ r, v.from_ n = .ok r ∧ r.content = some (b.drop n) ∧ RawBytes r := by
  cases v <;> simp [Val.content] at h <;> subst h
  · exact ⟨_, rfl, rfl, _, .inl rfl⟩
  · exact ⟨_, rfl, rfl, _, .inr rfl⟩
  · exact ⟨_, rfl, rfl, _, .inl rfl⟩

theorem same_prep {E : Env} (hn : E.net.Supported) {v : Val} {t : Tx} (h : LegacyTwin E v t) (n : Int) {script : Val} {s : Bytes} (hs : script.content = some s) :
    Same (LegacyTwin E) (Dyn.sighashPrep E v (.int n) script) (t.sighashPrep E n s) := by
  obtain ⟨ins, e, hi⟩ := h.1.ins
  unfold Dyn.sighashPrep Tx.sighashPrep
  rw [e, ok_bind]
  refine (same_mapPy hi fun x i hx => same_copyIn hx (.inr ⟨[], rfl, rfl, _, .inl rfl⟩) (.inr ⟨[], rfl, rfl, _, .inl rfl⟩) (.inl ⟨rfl, rfl⟩)).bind fun l m hlm => ?_
  rw [readVarInt_content hs]
  refine (Same.refl _).bind fun k k' hk => ?_
  subst hk
  refine (same_item hlm n).bind fun x i hx => ?_
  obtain ⟨r, e, hr, rr⟩ := twin_from hs k.bytes.length
  rw [e, ok_bind]
  refine (same_copyIn hx (.inl ⟨rfl, rfl⟩) (.inr ⟨_, hr, rfl, rr⟩) (.inl ⟨rfl, rfl⟩)).bind fun x i hx => ?_
  exact (same_set hlm n hx).bind fun l m hlm => same_copyTx hn h hlm

/-- The result is the digest as bytes. -/
def Dig (v : Val) (d : Bytes) : Prop := v = .bytes d

theorem same_final {E : Env} {v : Val} {t : Tx} (h : TxTwin E v t) (ty : Nat) : Same Dig (Dyn.sighashFinalHashing E v ty) (Tx.sighashFinalHashing E t ty) := by
  unfold Dyn.sighashFinalHashing Tx.sighashFinalHashing
  rw [iadd_ok.2 ⟨_, h.content, rfl⟩, ok_bind]
  refine (Same.refl _).bind fun k k' hk => ?_
  subst hk
  exact .ok rfl

theorem same_acp {E : Env} (hn : E.net.Supported) {v : Val} {t : Tx} (h : LegacyTwin E v t) (n : Int) (ty : Nat) :
    Same Dig (Dyn.sighashAnyoneCanPay E (.int n) v ty) (Tx.sighashAnyoneCanPay E n t ty) := by
  obtain ⟨ins, e, hi⟩ := h.1.ins
  unfold Dyn.sighashAnyoneCanPay Tx.sighashAnyoneCanPay
  rw [e, ok_bind]
  refine (same_item hi n).bind fun x i hx => ?_
  exact (same_copyTx hn h (.cons hx .nil)).bind fun v t h => same_final h.1 _

theorem same_prevouts {E : Env} {v : Val} {t : Tx} (h : TxTwin E v t) (acp : Val) : Dyn.hashPrevouts E v acp = .ok (t.hashPrevouts E acp.truthy) := by
  obtain ⟨ins, e, hi⟩ := h.ins
  unfold Dyn.hashPrevouts Tx.hashPrevouts
  split
  · rfl
  · rw [e, ok_bind]
    have h1 : Same (Twins fun (x : Val) (b : Bytes) => x.content = some b) (mapPy Val.outpointOf ins) (mapPy (fun i : TxIn => .ok i.outpoint.bytes) t.txIns) :=
      same_mapPy hi fun x i hx => by obtain ⟨o, _, _, _, _, rfl, ho, _⟩ := hx; exact .ok ho
    rw [mapPy_ok (g := fun i : TxIn => i.outpoint.bytes) (fun x _ => rfl)] at h1
    generalize mapPy Val.outpointOf ins = p at h1 ⊢
    cases h1 with
    | ok ht =>
      have hc := ht.contents (f := id) fun _ _ h => h
      rw [ok_bind, iaddAll_ok (by rw [List.map_id] at hc; exact hc), ok_bind]
      simp [List.flatMap_def]

theorem same_sequence {E : Env} {v : Val} {t : Tx} (h : TxTwin E v t) (ty : Nat) (acp : Val) :
    Dyn.hashSequence E v ty acp = .ok (t.hashSequence E ty acp.truthy) := by
  obtain ⟨ins, e, hi⟩ := h.ins
  unfold Dyn.hashSequence Tx.hashSequence
  split
  · rfl
  · rw [e, ok_bind]
    have h1 : Same (Twins fun (x : Val) (b : Bytes) => x.content = some b) (mapPy Val.sequenceOf ins) (mapPy (fun i : TxIn => .ok i.sequence) t.txIns) :=
      same_mapPy hi fun x i hx => by obtain ⟨_, _, _, _, q, rfl, _, _, _, hq, _⟩ := hx; exact .ok hq
    rw [mapPy_ok (g := fun i : TxIn => i.sequence) (fun x _ => rfl)] at h1
    generalize mapPy Val.sequenceOf ins = p at h1 ⊢
    cases h1 with
    | ok ht =>
      have hc := ht.contents (f := id) fun _ _ h => h
      rw [ok_bind, iaddAll_ok (by rw [List.map_id] at hc; exact hc), ok_bind]
      simp [List.flatMap_def]

theorem same_outputs {E : Env} {v : Val} {t : Tx} (h : TxTwin E v t) (n : Int) (ty : Nat) : Dyn.hashOutputs E v (.int n) ty = t.hashOutputs E n ty := by
  obtain ⟨outs, e, ho⟩ := h.outs
  unfold Dyn.hashOutputs Tx.hashOutputs
  rw [e, ok_bind]
  by_cases h1 : ty = SIGHASH_ALL
  · rw [if_pos h1, if_pos h1, iaddAll_ok (ho.contents fun x y h => h.inst.2), ok_bind]
    simp [List.flatMap_def]
  · rw [if_neg h1, if_neg h1]
    by_cases h2 : ty = SIGHASH_SINGLE
    · rw [if_pos h2]
      show (if decide (n ≥ (outs.length : Int)) = true then _ else _) = _
      rw [ho.length]
      by_cases h3 : n < (t.txOuts.length : Int)
      · rw [if_neg (by simp; omega), if_pos ⟨h2, h3⟩]
        have := same_item ho n
        generalize Val.itemOf outs (.int n) = p, getItem t.txOuts n = q at this
        cases this with
        | ok hr => rw [ok_bind, ok_bind, iadd_ok.2 ⟨_, hr.inst.2, rfl⟩]; rfl
        | error e => rfl
      · rw [if_pos (by simp; omega), if_neg (fun h => h3 h.2)]
    · rw [if_neg h2, if_neg (fun h => h2 h.1)]

theorem same_143 {E : Env} {v : Val} {t : Tx} (h : TxTwin E v t) (n : Int) (ty : Nat) {value script : Val} {s x : Bytes} (hs : script.content = some s)
    (hx : value.content = some x) (acp : Val) (last : Py Bytes) :
    Dyn.sighash143 E v (.int n) ty value script acp last = (do
      let cur ← getItem t.txIns n
      let outs ← t.hashOutputs E n ty
      let l ← last
      .ok (.bytes (E.hash256 (t.version ++ t.hashPrevouts E acp.truthy ++ t.hashSequence E ty acp.truthy ++ cur.outpoint.bytes
        ++ s ++ x ++ cur.sequence ++ outs ++ t.lockTime ++ l)))) := by
  obtain ⟨ins, e, hi⟩ := h.ins
  obtain ⟨ver, e1, hv⟩ := h.version
  obtain ⟨lock, e2, hl⟩ := h.lock
  unfold Dyn.sighash143
  rw [e1, ok_bind, iadd_ok.2 ⟨_, hv, rfl⟩, ok_bind, same_prevouts h, ok_bind, same_sequence h, ok_bind, e, ok_bind]
  have := same_item hi n
  generalize Val.itemOf ins (.int n) = p, getItem t.txIns n = q at this
  cases this with
  | error e => rfl
  | ok hr =>
    obtain ⟨o, _, _, _, q, rfl, ho, _, _, hq, _⟩ := hr
    simp only [ok_bind, Val.outpointOf, Val.sequenceOf]
    rw [iadd_ok.2 ⟨_, ho, rfl⟩, ok_bind, iadd_ok.2 ⟨_, hs, rfl⟩, ok_bind, iadd_ok.2 ⟨_, hx, rfl⟩, ok_bind, iadd_ok.2 ⟨_, hq, rfl⟩, ok_bind, same_outputs h]
    cases t.hashOutputs E n ty with
    | error e => rfl
    | ok d =>
      simp only [ok_bind, e2]
      rw [iadd_ok.2 ⟨_, hl, rfl⟩, ok_bind]
      rfl

/-- Without bytes for the script or for the value there is no digest. -/
theorem no_143 {E : Env} {v : Val} {t : Tx} (h : TxTwin E v t) (n : Int) (ty : Nat) {value script : Val} (hs : script.content = none ∨ value.content = none)
    (acp : Val) (last : Py Bytes) :
    Dyn.sighash143 E v (.int n) ty value script acp last = (do let _ ← getItem t.txIns n; .error .typeError) := by
  obtain ⟨ins, e, hi⟩ := h.ins
  obtain ⟨ver, e1, hv⟩ := h.version
  unfold Dyn.sighash143
  rw [e1, ok_bind, iadd_ok.2 ⟨_, hv, rfl⟩, ok_bind, same_prevouts h, ok_bind, same_sequence h, ok_bind, e, ok_bind]
  have := same_item hi n
  generalize Val.itemOf ins (.int n) = p, getItem t.txIns n = q at this
  cases this with
  | error e => rfl
  | ok hr =>
    obtain ⟨o, _, _, _, q, rfl, ho, _, _, hq, _⟩ := hr
    simp only [ok_bind, Val.outpointOf, Val.sequenceOf]
    rw [iadd_ok.2 ⟨_, ho, rfl⟩, ok_bind]
    cases hc : script.content with
    | none =>
      have : ∀ d, Val.iadd d script = .error .typeError := fun d => by unfold Val.iadd; rw [hc]
      rw [this]; rfl
    | some s =>
      rw [iadd_ok.2 ⟨_, hc, rfl⟩, ok_bind]
      rcases hs with hs | hs
      · rw [hc] at hs; cases hs
      · have : ∀ d, Val.iadd d value = .error .typeError := fun d => by unfold Val.iadd; rw [hs]
        rw [this]; rfl

/-- An index that is no integer. -/
theorem bad_index_143 {E : Env} {v : Val} {t : Tx} (h : TxTwin E v t) {index : Val} (hi : ∀ n, index ≠ .int n) (ty : Nat) (value script acp : Val) (last : Py Bytes) :
    Dyn.sighash143 E v index ty value script acp last = .error .typeError := by
  obtain ⟨ins, e, _⟩ := h.ins
  obtain ⟨ver, e1, hv⟩ := h.version
  unfold Dyn.sighash143
  rw [e1, ok_bind, iadd_ok.2 ⟨_, hv, rfl⟩, ok_bind, same_prevouts h, ok_bind, same_sequence h, ok_bind, e, ok_bind]
  have : Val.itemOf ins index = .error .typeError := by cases index <;> first | rfl | exact absurd rfl (hi _)
  rw [this]; rfl

theorem same_segwit {E : Env} {v : Val} {t : Tx} (h : TxTwin E v t) (n : Int) (ty : Nat) (value : Val) {script : Val} {s : Bytes} (hs : script.content = some s) (acp : Val) :
    Dyn.segwitSighash E v (.int n) ty value script acp = (t.segwitSighash E n ty value.content s acp.truthy).map Val.bytes := by
  unfold Dyn.segwitSighash Tx.segwitSighash
  cases hx : value.content with
  | none =>
    rw [no_143 h n ty (.inr hx)]
    cases getItem t.txIns n <;> rfl
  | some x =>
    rw [same_143 h n ty hs hx]
    cases getItem t.txIns n with
    | error e => rfl
    | ok i =>
      simp only [ok_bind]
      cases t.hashOutputs E n ty with
      | error e => rfl
      | ok d => cases Tx.segwitSighashAdjustment ty acp.truthy <;> rfl

theorem same_forkid {E : Env} {v : Val} {t : Tx} (h : TxTwin E v t) (k : Nat) (n : Int) (ty : Nat) (value : Val) {script : Val} {s : Bytes} (hs : script.content = some s)
    (acp : Val) : Dyn.sighashForkid E v k (.int n) script value ty acp = (t.sighashForkid E k n s value.content ty acp.truthy).map Val.bytes := by
  unfold Dyn.sighashForkid Tx.sighashForkid
  cases hx : value.content with
  | none => unfold Val.validate; rw [hx]; rfl
  | some x =>
    have hval : value.validate (some 8) = validateBytes x (some 8) := by
      unfold Val.validate; rw [hx]; rfl
    rw [hval]
    simp only [validateBytes_eq]
    split
    · rw [ok_bind, same_143 h n ty hs hx]
      simp only [ok_bind]
      cases getItem t.txIns n with
      | error e => rfl
      | ok i =>
        simp only [ok_bind]
        cases t.hashOutputs E n ty with
        | error e => rfl
        | ok d => cases Tx.forkidSighashAdjustment k ty acp.truthy <;> rfl
    · rfl

theorem legacy_of {E : Env} {v : Val} {t : Tx} (h : TxTwin E v t) (hw : t.isWitness = false) : LegacyTwin E v t := by
  refine ⟨h, ?_⟩
  unfold Tx.isWitness at hw
  cases hf : t.flag <;> cases hg : t.txWitnesses <;> simp_all

theorem same_all {E : Env} (hn : E.net.Supported) {v : Val} {t : Tx} (h : TxTwin E v t) (n : Int) {script : Val} {s : Bytes} (hs : script.content = some s)
    (value acp : Val) : Dyn.sighashAll E v (.int n) script value acp = (t.sighashAll E n s value.content acp.truthy).map Val.bytes := by
  unfold Dyn.sighashAll Tx.sighashAll
  cases E.net.forkid with
  | some k => exact same_forkid h k n _ value hs acp
  | none =>
    simp only []
    rw [h.witness, ok_bind]
    cases hw : t.isWitness with
    | true => exact same_segwit h n _ value hs acp
    | false =>
      simp only [Bool.false_eq_true, if_false]
      refine Same.map (((same_prep hn (legacy_of h hw) n hs).bind fun v t h => ?_ :))
      cases acp.truthy with
      | true => exact same_acp hn h n _
      | false => exact same_final h.1 _

theorem same_single {E : Env} (hn : E.net.Supported) {v : Val} {t : Tx} (h : TxTwin E v t) (n : Int) {script : Val} {s : Bytes} (hs : script.content = some s)
    (value acp : Val) : Dyn.sighashSingle E v (.int n) script value acp = (t.sighashSingle E n s value.content acp.truthy).map Val.bytes := by
  unfold Dyn.sighashSingle Tx.sighashSingle
  obtain ⟨outs, e, ho⟩ := h.outs
  rw [e, ok_bind]
  show (if decide (n ≥ (outs.length : Int)) = true then _ else _) = _
  rw [ho.length]
  by_cases h3 : n ≥ (t.txOuts.length : Int)
  · rw [if_pos (by simpa using h3), if_pos h3]; rfl
  · rw [if_neg (by simpa using h3), if_neg h3]
    cases E.net.forkid with
    | some k => exact same_forkid h k n _ value hs acp
    | none =>
      simp only []
      rw [h.witness, ok_bind]
      cases hw : t.isWitness with
      | true => exact same_segwit h n _ value hs acp
      | false =>
        simp only [Bool.false_eq_true, if_false]
        unfold Dyn.sighashSingleLegacy Tx.sighashSingleLegacy
        refine Same.map (((same_prep hn (legacy_of h hw) n hs).bind fun v t h => ?_ :))
        obtain ⟨ins, e1, hi⟩ := h.1.ins
        obtain ⟨outs, e2, ho⟩ := h.1.outs
        rw [e1, ok_bind, e2, ok_bind]
        refine (same_mapPy (S := OutTwin) hi fun x i _ => same_txOut rfl rfl).bind fun l m hlm => ?_
        refine (same_item ho n).bind fun x y hxy => ?_
        refine (same_set hlm n hxy).bind fun l m hlm => ?_
        refine (same_mapPy hi fun x i hx => same_copyIn hx (.inl ⟨rfl, rfl⟩) (.inl ⟨rfl, rfl⟩) (.inr ⟨_, rfl, rfl⟩)).bind fun l' m' hlm' => ?_
        refine (same_item hi n).bind fun x y hxy => ?_
        refine (same_set hlm' n hxy).bind fun l' m' hlm' => ?_
        refine (same_copyTx2 hn h hlm' hlm).bind fun v t h => ?_
        cases acp.truthy with
        | true => exact same_acp hn h n _
        | false => exact same_final h.1 _

end Verif.Props
