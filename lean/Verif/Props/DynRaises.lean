import Verif.Props.DynChange
import Verif.Props.ScriptText
import Verif.Spec.Raises

/-! Property C131, lemmas: which exceptions the functions raise at most. -/

namespace Verif.Props
open Verif Spec Dyn

/-! ### how many attributes the objects have -/

/-- How many attributes the constructor of the class assigns. -/
def attrCount : Cls → Nat
  | .outpoint => 2 | .txIn => 5 | .txOut => 2 | .item => 1 | .witness => 1 | .tx => 10
  | .sproutProof => 8 | .sproutJs => 10 | .saplingProof => 3 | .saplingSpend => 6 | .saplingOutput => 6 | .saplingJs => 10
  | .sproutTx => 11 | .overwinterTx => 11 | .saplingTx => 15
  | .dcrOutpoint => 3 | .dcrTxIn => 2 | .dcrTxOut => 4 | .dcrWitness => 7 | .dcrTx => 8
  | .other => 0

/-- What the computation makes has as many attributes. -/
def Counts (n : Nat) (p : Py Val) : Prop := ∀ c t b, p = .ok (.obj c t b) → t.length = n

theorem Counts.bind {α : Type} {n : Nat} {x : Py α} {f : α → Py Val} (h : ∀ a, x = .ok a → Counts n (f a)) : Counts n (x >>= f) := by
  intro c t b hv
  obtain ⟨a, ha, hv⟩ := bind_ok_iff.1 hv
  exact h a ha c t b hv

theorem Counts.ok {n : Nat} {c : Cls} {t : List Val} {b : Bytes} (h : t.length = n) : Counts n (.ok (.obj c t b)) := by
  intro c' t' b' e
  have e := Val.obj.inj (Except.ok.inj e)
  rw [← e.2.1]; exact h

theorem made_count {S : Network → Prop} {E : Env} {c : Cls} {t : List Val} {x : Bytes} (h : MadeOn S E (.obj c t x)) (hc : c ≠ .other) : t.length = attrCount c := by
  obtain ⟨n, -, h⟩ := made_on h
  suffices ∃ p, p = .ok (.obj c t x) ∧ Counts (attrCount c) p by obtain ⟨p, h1, h2⟩ := this; exact h2 _ _ _ h1
  cases c with
  | outpoint => obtain ⟨_, _, h⟩ := h; refine ⟨_, h, ?_⟩; unfold Dyn.outpoint; repeat (first | exact .ok rfl | refine .bind fun _ _ => ?_)
  | txIn => obtain ⟨_, _, _, _, h⟩ := h; refine ⟨_, h, ?_⟩; unfold Dyn.txIn; repeat (first | exact .ok rfl | refine .bind fun _ _ => ?_)
  | txOut => obtain ⟨_, _, h⟩ := h; refine ⟨_, h, ?_⟩; unfold Dyn.txOut; repeat (first | exact .ok rfl | refine .bind fun _ _ => ?_)
  | item => obtain ⟨_, h⟩ := h; refine ⟨_, h, ?_⟩; unfold Dyn.item; repeat (first | exact .ok rfl | refine .bind fun _ _ => ?_)
  | witness => obtain ⟨_, _, h⟩ := h; refine ⟨_, h, ?_⟩; unfold Dyn.witness; repeat (first | exact .ok rfl | refine .bind fun _ _ => ?_)
  | tx =>
    obtain ⟨_, _, _, _, _, _, -, -, -, h⟩ := h
    refine ⟨_, h, ?_⟩
    unfold Dyn.tx
    repeat (first | exact .ok rfl | refine .bind fun _ _ => ?_ | split)
  | sproutProof => obtain ⟨_, _, _, _, _, _, _, _, h⟩ := h; refine ⟨_, h, ?_⟩; unfold Dyn.sproutProof; repeat (first | exact .ok rfl | refine .bind fun _ _ => ?_)
  | saplingProof => obtain ⟨_, _, _, h⟩ := h; refine ⟨_, h, ?_⟩; unfold Dyn.saplingProof; repeat (first | exact .ok rfl | refine .bind fun _ _ => ?_)
  | sproutJs => obtain ⟨_, _, _, _, _, _, _, _, _, _, -, h⟩ := h; refine ⟨_, h, ?_⟩; unfold Dyn.sproutJs Dyn.joinsplit; repeat (first | exact .ok rfl | refine .bind fun _ _ => ?_)
  | saplingJs => obtain ⟨_, _, _, _, _, _, _, _, _, _, -, h⟩ := h; refine ⟨_, h, ?_⟩; unfold Dyn.saplingJs Dyn.joinsplit; repeat (first | exact .ok rfl | refine .bind fun _ _ => ?_)
  | saplingSpend => obtain ⟨_, _, _, _, _, _, -, h⟩ := h; refine ⟨_, h, ?_⟩; unfold Dyn.saplingSpend; repeat (first | exact .ok rfl | refine .bind fun _ _ => ?_)
  | saplingOutput => obtain ⟨_, _, _, _, _, _, -, h⟩ := h; refine ⟨_, h, ?_⟩; unfold Dyn.saplingOutput; repeat (first | exact .ok rfl | refine .bind fun _ _ => ?_)
  | sproutTx =>
    obtain ⟨_, _, _, _, _, _, _, -, -, -, h⟩ := h
    refine ⟨_, h, ?_⟩
    unfold Dyn.sproutTx
    iterate 16 refine .bind fun _ _ => ?_
    refine .bind fun ins hi => .bind fun outs ho => .bind fun js hj => .bind fun rest hr => .bind fun _ _ => .ok ?_
    rw [List.length_append, List.length_append, sproutAttrs_length hr]; rfl
  | overwinterTx =>
    obtain ⟨_, _, _, _, _, _, _, -, -, -, h⟩ := h
    refine ⟨_, h, ?_⟩
    unfold Dyn.overwinterTx
    iterate 19 refine .bind fun _ _ => ?_
    refine .bind fun ins hi => .bind fun outs ho => .bind fun js hj => .bind fun _ _ => .ok ?_
    rw [List.length_append, List.length_append, jsAttrs_length hj]; rfl
  | saplingTx =>
    obtain ⟨_, _, _, _, _, _, _, _, _, _, _, -, -, -, -, -, h⟩ := h
    refine ⟨_, h, ?_⟩
    unfold Dyn.saplingTx
    iterate 27 refine .bind fun _ _ => ?_
    refine .bind fun bg hbg => ?_
    obtain ⟨_, bg⟩ := bg
    refine .bind fun ins h1 => .bind fun outs h2 => .bind fun ss h3 => .bind fun so h4 => .bind fun js h5 => .bind fun _ _ => .ok ?_
    rw [List.length_append, List.length_append, jsAttrs_length h5]; rfl
  | dcrOutpoint => obtain ⟨_, _, _, h⟩ := h; refine ⟨_, h, ?_⟩; unfold Dyn.dcrOutpoint; repeat (first | exact .ok rfl | refine .bind fun _ _ => ?_)
  | dcrTxIn => obtain ⟨_, _, h⟩ := h; refine ⟨_, h, ?_⟩; unfold Dyn.dcrTxIn; repeat (first | exact .ok rfl | refine .bind fun _ _ => ?_)
  | dcrTxOut => obtain ⟨_, _, _, h⟩ := h; refine ⟨_, h, ?_⟩; unfold Dyn.dcrTxOut; repeat (first | exact .ok rfl | refine .bind fun _ _ => ?_)
  | dcrWitness => obtain ⟨_, _, _, _, _, h⟩ := h; refine ⟨_, h, ?_⟩; unfold Dyn.dcrWitness; repeat (first | exact .ok rfl | refine .bind fun _ _ => ?_)
  | dcrTx => obtain ⟨_, _, _, _, _, _, -, -, -, h⟩ := h; refine ⟨_, h, ?_⟩; unfold Dyn.dcrTx; repeat (first | exact .ok rfl | refine .bind fun _ _ => ?_)
  | other => exact absurd rfl hc

theorem good_count {S : Network → Prop} {E : Env} {c : Cls} {t : List Val} {x : Bytes} (h : GoodOn S E (.obj c t x)) (hc : c ≠ .other) : t.length = attrCount c := by
  cases h with | obj _ _ t0 _ _ hm hl => rw [hl, made_count hm hc]

/-! ### operations -/

variable {P : PyErr → Prop} {α β : Type}

theorem ErrIn.error {e : PyErr} (h : P e) : ErrIn P (.error e : Py α) := fun _ h' => by cases h'; exact h

theorem ErrIn.ite {c : Prop} [Decidable c] {x y : Py α} (h1 : c → ErrIn P x) (h2 : ¬ c → ErrIn P y) : ErrIn P (if c then x else y) := by
  by_cases hc : c
  · rw [if_pos hc]; exact h1 hc
  · rw [if_neg hc]; exact h2 hc

theorem ErrIn.gateZ (pv : P .valueError) {net : Network} : ErrIn P (zcashGate net) := .check pv
theorem ErrIn.gateD (pv : P .valueError) {net : Network} : ErrIn P (decredGate net) := .check pv
theorem ErrIn.len (pt : P .typeError) {v : Val} : ErrIn P v.len := fun _ h => by rw [len_error h]; exact pt
theorem ErrIn.iter (pt : P .typeError) {v : Val} : ErrIn P v.iter := by cases v <;> first | exact .ok | exact .error pt
theorem ErrIn.iadd (pt : P .typeError) {b : Bytes} {v : Val} : ErrIn P (Val.iadd b v) := by cases v <;> first | exact .ok | exact .error pt
theorem ErrIn.add (pt : P .typeError) {v w : Val} : ErrIn P (Val.add v w) := fun _ h => by rw [add_error h]; exact pt
theorem ErrIn.addTo (pt : P .typeError) {b : Bytes} {v : Val} : ErrIn P (Val.addTo b v) := by cases v <;> first | exact .ok | exact .error pt
theorem ErrIn.slice (pt : P .typeError) {v : Val} {i j : Nat} : ErrIn P (v.slice i j) := by cases v <;> first | exact .ok | exact .error pt
theorem ErrIn.rest (pt : P .typeError) {v : Val} {i : Nat} : ErrIn P (v.from_ i) := by cases v <;> first | exact .ok | exact .error pt
theorem ErrIn.hexAttr (pa : P .attributeError) {v : Val} : ErrIn P v.hexAttr := by cases v <;> first | exact .ok | exact .error pa

theorem ErrIn.iaddAll (pt : P .typeError) {l : List Val} : ∀ {b : Bytes}, ErrIn P (Val.iaddAll b l) := by
  induction l with
  | nil => exact .ok
  | cons v l ih => exact .bind (.iadd pt) fun _ _ => ih

theorem ErrIn.instances (pv : P .valueError) (pt : P .typeError) {c : Cls} {v : Val} : ErrIn P (v.allInstances c) := .bind (.iter pt) fun _ _ => .check pv

theorem ErrIn.byteList (pv : P .valueError) (pt : P .typeError) {l : List Val} : ErrIn P (Val.byteList l) := by
  intro e h
  rcases byteList_error h with rfl | rfl
  · exact pv
  · exact pt

theorem ErrIn.le2i (pv : P .valueError) (pt : P .typeError) {v : Val} : ErrIn P v.le2i := by
  intro e h
  rcases (le2i_error h).2 with rfl | rfl
  · exact pv
  · exact pt

theorem ErrIn.mapPy {f : α → Py β} {l : List α} (h : ∀ x ∈ l, ErrIn P (f x)) : ErrIn P (Verif.mapPy f l) := by
  induction l with
  | nil => exact .ok
  | cons x l ih => exact .bind (h x (.head _)) fun _ _ => .bind (ih fun y hy => h y (.tail _ hy)) fun _ _ => .ok

theorem ErrIn.addVector (pv : P .valueError) (pt : P .typeError) {b : Bytes} {v : Val} : ErrIn P (Dyn.addVector b v) :=
  .bind (.len pt) fun _ _ => .bind (.varint pv) fun _ _ => .bind (.iter pt) fun _ _ => .iaddAll pt

theorem ErrIn.toLe (po : P .overflowError) (pt : P .typeError) (pa : P .attributeError) {v : Val} {k : Nat} : ErrIn P (v.toLe k) := by
  intro e h
  rcases toLe_error.1 h with ⟨rfl, -⟩ | ⟨rfl, -⟩ | ⟨rfl, -⟩
  · exact po
  · exact pt
  · exact pa

/-! ### constructors -/

theorem raises_outpoint (pv : P .valueError) {a b : Val} : ErrIn P (Dyn.outpoint a b) := fun e h => by rw [(C114_outpoint a b).2 e h]; exact pv

theorem raises_txIn (pv : P .valueError) (pt : P .typeError) {a b c d : Val} : ErrIn P (Dyn.txIn a b c d) := by
  intro e h
  rcases (C114_txIn a b c d).2.2 e h with rfl | rfl
  · exact pv
  · exact pt

theorem raises_txOut (pv : P .valueError) {a b : Val} : ErrIn P (Dyn.txOut a b) := fun e h => by rw [(C114_txOut a b).2 e h]; exact pv

theorem raises_item (pv : P .valueError) {a : Val} : ErrIn P (Dyn.item a) := fun e h => by rw [(C114_item a).2 e h]; exact pv

theorem raises_witness (pv : P .valueError) (pt : P .typeError) {a : Val} : ErrIn P (Dyn.witness a) :=
  .bind (.instances pv pt) fun _ _ => .bind (.len pt) fun _ _ => .bind (.varint pv) fun _ _ => .bind (.iter pt) fun _ _ => .bind (.iaddAll pt) fun _ _ => .ok

theorem raises_tx (pv : P .valueError) (pt : P .typeError) {E : Env} {a f c d e g : Val} (pa : f ≠ .none → f.content = none → P .attributeError) :
    ErrIn P (Dyn.tx E a f c d e g) := by
  intro x h
  rcases C114_tx_errors _ _ _ _ _ _ _ _ h with rfl | ⟨rfl, h1, h2⟩ | ⟨rfl, -⟩
  · exact pv
  · exact pa h1 h2
  · exact pt

theorem raises_sproutProof (pv : P .valueError) {n : Network} {a b c d e f g h : Val} : ErrIn P (Dyn.sproutProof n a b c d e f g h) :=
  fun x hx => by rw [(C116_sproutProof ..).2 x hx]; exact pv

theorem raises_saplingProof (pv : P .valueError) {n : Network} {a b c : Val} : ErrIn P (Dyn.saplingProof n a b c) :=
  fun x hx => by rw [(C116_saplingProof ..).2 x hx]; exact pv

theorem raises_joinsplit (pv : P .valueError) (pt : P .typeError) {cls proof : Cls} {n : Network} {a b c d e f g h i j : Val} :
    ErrIn P (Dyn.joinsplit cls proof n a b c d e f g h i j) := by
  intro x hx
  rcases (C116_joinsplit ..).2 x hx with rfl | ⟨rfl, -⟩
  · exact pv
  · exact pt

theorem raises_spend (pv : P .valueError) {n : Network} {a b c d e f : Val} : ErrIn P (Dyn.saplingSpend n a b c d e f) :=
  fun x hx => by rw [(C116_spend ..).2 x hx]; exact pv

theorem raises_output (pv : P .valueError) {n : Network} {a b c d e f : Val} : ErrIn P (Dyn.saplingOutput n a b c d e f) :=
  fun x hx => by rw [(C116_output ..).2 x hx]; exact pv

theorem raises_dcrOutpoint (pv : P .valueError) {n : Network} {a b c : Val} : ErrIn P (Dyn.dcrOutpoint n a b c) :=
  fun x hx => by rw [(C117_outpoint ..).2 x hx]; exact pv

theorem raises_dcrTxIn (pv : P .valueError) {n : Network} {a b : Val} : ErrIn P (Dyn.dcrTxIn n a b) :=
  fun x hx => by rw [(C117_txIn ..).2 x hx]; exact pv

theorem raises_dcrTxOut (pv : P .valueError) {n : Network} {a b c : Val} : ErrIn P (Dyn.dcrTxOut n a b c) :=
  fun x hx => by rw [(C117_txOut ..).2 x hx]; exact pv

theorem raises_dcrWitness (pv : P .valueError) (pt : P .typeError) {n : Network} {a b c d e : Val} : ErrIn P (Dyn.dcrWitness n a b c d e) := by
  intro x hx
  rcases (C117_witness ..).2.2 x hx with rfl | ⟨rfl, -⟩
  · exact pv
  · exact pt

theorem raises_dcrTx (pv : P .valueError) (pt : P .typeError) {n : Network} {a b c d e f : Val} : ErrIn P (Dyn.dcrTx n a b c d e f) := by
  intro x hx
  rcases (C117_tx ..).2 x hx with rfl | ⟨rfl, -⟩
  · exact pv
  · exact pt

/-- The value has the attributes of a joinsplit. -/
def JsLong (v : Val) : Prop := ∃ c t b, v = .obj c t b ∧ t.length = 10

theorem js_long {S : Network → Prop} {E : Env} {c : Cls} (hc : c = .sproutJs ∨ c = .saplingJs) {v : Val} {u : Unit} (hv : GoodOn S E v) (h : v.allInstances c = .ok u) {l : List Val}
    (hl : v.iter = .ok l) : ∀ x ∈ l, JsLong x := by
  intro x hx
  unfold Val.allInstances at h
  rw [hl, ok_bind] at h
  have hi := List.all_eq_true.1 (check_ok.1 h) x hx
  have hg := good_iter hv hl x hx
  cases x <;> simp [Val.isInstance] at hi
  next c' t b =>
  subst hi
  refine ⟨_, _, _, rfl, ?_⟩
  rcases hc with rfl | rfl
  · exact good_count hg nofun
  · exact good_count hg nofun

theorem ErrIn.attr {v : Val} (h : JsLong v) {k : Nat} (hk : k < 10) : ErrIn P (v.attr k) := by
  obtain ⟨c, t, b, rfl, hl⟩ := h
  unfold Val.attr
  simp only
  rw [List.getElem?_eq_getElem (by omega)]
  exact .ok

theorem raises_hsigs (pt : P .typeError) {E : Env} {pk : Val} {l : List Val} (h : ∀ x ∈ l, JsLong x) : ErrIn P (Dyn.hsigs E pk l) := by
  refine .bind (.mapPy fun x hx => ?_) fun hs _ => .bind (.mapPy fun p hp => ?_) fun _ _ => .ok
  · exact .bind (.attr (h x hx) (by decide)) fun _ _ => .bind (.iadd pt) fun _ _ => .bind (.attr (h x hx) (by decide)) fun _ _ => .bind (.iadd pt) fun _ _ => .bind (.iadd pt) fun _ _ => .ok
  · have hx := h _ (List.of_mem_zip hp).1
    unfold Dyn.primaryInput
    repeat (first | exact .iadd pt | refine .bind (.attr hx (by decide)) fun _ _ => ?_ | refine .bind (.iadd pt) fun _ _ => ?_)

theorem raises_jsAttrs (pt : P .typeError) {E : Env} {js pk sg : Val} (h : ∀ l, js.iter = .ok l → ∀ x ∈ l, JsLong x) : ErrIn P (Dyn.jsAttrs E js pk sg) :=
  .bind (.len pt) fun _ _ => .ite (fun _ => .bind (.iter pt) fun l hl => .bind (raises_hsigs pt (h l hl)) fun _ _ => .ok) fun _ => .ok

theorem raises_addJs (pv : P .valueError) (pt : P .typeError) {self : Bytes} {js pk sg : Val} : ErrIn P (Dyn.addJs self js pk sg) :=
  .bind (.len pt) fun _ _ => .bind (.varint pv) fun _ _ => .ite (fun _ => .bind (.iter pt) fun _ _ => .bind (.iaddAll pt) fun _ _ => .bind (.iadd pt) fun _ _ => .iadd pt) fun _ => .ok

theorem raises_checkJsSig (pv : P .valueError) {n : Nat} {pk sg : Val} : ErrIn P (Dyn.checkJsSig n pk sg) :=
  .ite (fun _ => .bind (.validate pv) fun _ _ => .validate pv) fun _ => .ok

theorem raises_overwinterTx (pv : P .valueError) (pt : P .typeError) {S : Network → Prop} {E E' : Env} {a b c d e f g : Val} (he : GoodOn S E' e) :
    ErrIn P (Dyn.overwinterTx E a b c d e f g) := by
  unfold Dyn.overwinterTx
  refine .bind (.gateZ pv) fun _ _ => .bind (.check pv) fun _ _ => .bind (.validate pv) fun _ _ => .bind (.validate pv) fun _ _ => .bind (.le2i pv pt) fun _ _ =>
    .bind (.check pv) fun _ _ => .bind (.instances pv pt) fun _ _ => .bind (.instances pv pt) fun _ _ => .bind (.len pt) fun _ _ => .bind (.check pv) fun _ _ =>
    .bind (.instances pv pt) fun _ hj => .bind (raises_checkJsSig pv) fun _ _ => .bind (.len pt) fun _ _ => .bind (.check pv) fun _ _ => .bind (.addVector pv pt) fun _ _ =>
    .bind (.addVector pv pt) fun _ _ => .bind (.iadd pt) fun _ _ => .bind (.iadd pt) fun _ _ => .bind (raises_addJs pv pt) fun _ _ => .bind (.iter pt) fun _ _ =>
    .bind (.iter pt) fun _ _ => .bind (raises_jsAttrs pt fun l hl => js_long (.inl rfl) he hj hl) fun _ _ => .bind (.check pv) fun _ _ => .ok

theorem raises_checkBalance (pv : P .valueError) (pt : P .typeError) {a b c d : Val} : ErrIn P (Dyn.checkBalance a b c d) := by
  refine .bind (.len pt) fun _ _ => .bind (.len pt) fun _ _ => .ite (fun _ => .error pv) fun _ => ?_
  split
  · exact .ok
  · exact .validate pv

theorem raises_addBinding (pt : P .typeError) {s : Bytes} {a b c : Val} : ErrIn P (Dyn.addBinding s a b c) :=
  .bind (.len pt) fun _ _ => .bind (.len pt) fun _ _ => .ite (fun _ => .bind (.iadd pt) fun _ _ => .ok) fun _ => .ok

theorem raises_saplingTx (pv : P .valueError) (pt : P .typeError) {S : Network → Prop} {E E' : Env} {a b c d e f g h i j k : Val} (hh : GoodOn S E' h) :
    ErrIn P (Dyn.saplingTx E a b c d e f g h i j k) := by
  unfold Dyn.saplingTx
  refine .bind (.gateZ pv) fun _ _ => .bind (.check pv) fun _ _ => .bind (.validate pv) fun _ _ => .bind (.validate pv) fun _ _ => .bind (.validate pv) fun _ _ =>
    .bind (.le2i pv pt) fun _ _ => .bind (.check pv) fun _ _ => .bind (raises_checkBalance pv pt) fun _ _ => .bind (.instances pv pt) fun _ _ => .bind (.instances pv pt) fun _ _ =>
    .bind (.len pt) fun _ _ => .bind (.check pv) fun _ _ => .bind (.instances pv pt) fun _ _ => .bind (.instances pv pt) fun _ _ => .bind (.instances pv pt) fun _ hj =>
    .bind (raises_checkJsSig pv) fun _ _ => .bind (.len pt) fun _ _ => .bind (.len pt) fun _ _ => .bind (.check pv) fun _ _ => .bind (.addVector pv pt) fun _ _ =>
    .bind (.addVector pv pt) fun _ _ => .bind (.iadd pt) fun _ _ => .bind (.iadd pt) fun _ _ => .bind (.iadd pt) fun _ _ => .bind (.addVector pv pt) fun _ _ =>
    .bind (.addVector pv pt) fun _ _ => .bind (raises_addJs pv pt) fun _ _ => .bind (raises_addBinding pt) fun p _ => ?_
  obtain ⟨_, _⟩ := p
  exact .bind (.iter pt) fun _ _ => .bind (.iter pt) fun _ _ => .bind (.iter pt) fun _ _ => .bind (.iter pt) fun _ _ =>
    .bind (raises_jsAttrs pt fun l hl => js_long (.inr rfl) hh hj hl) fun _ _ => .bind (.check pv) fun _ _ => .ok

theorem raises_checkV1 (pv : P .valueError) (pt : P .typeError) {v : Nat} {a b : Val} : ErrIn P (Dyn.checkV1 v a b) := by
  refine .ite (fun _ => ?_) fun _ => .ok
  have h : ErrIn P (do let ni ← a.len; check (ni ≠ 0) PyErr.valueError) := .bind (.len pt) fun _ _ => .check pv
  cases b <;> first | exact h | exact .bind (.len pt) fun _ _ => .bind (.check pv) fun _ _ => h

theorem raises_checkV2 (pv : P .valueError) (pt : P .typeError) {v : Nat} {a b c : Val} : ErrIn P (Dyn.checkV2 v a b c) := by
  refine .ite (fun _ => .bind (.len pt) fun _ _ => .bind (.check pv) fun _ _ => .bind (.instances pv pt) fun _ _ => .bind (.validate pv) fun _ _ => ?_) fun _ => .ok
  unfold Dyn.checkSproutSig
  split
  · exact .ok
  · exact .ite (fun _ => .validate pv) fun _ => .ok

theorem raises_sproutTx (pv : P .valueError) (pt : P .typeError) {S : Network → Prop} {E E' : Env} {a b c d e f g : Val} (he : GoodOn S E' e) :
    ErrIn P (Dyn.sproutTx E a b c d e f g) := by
  unfold Dyn.sproutTx
  refine .bind (.gateZ pv) fun _ _ => .bind (.check pv) fun _ _ => .bind (.validate pv) fun _ ha => .bind (.validate pv) fun _ _ => .bind (.instances pv pt) fun _ _ =>
    .bind (.instances pv pt) fun _ _ => .bind (.le2i pv pt) fun v hv => .bind (raises_checkV1 pv pt) fun _ _ => .bind (raises_checkV2 pv pt) fun _ h2 => .bind (.check pv) fun _ _ =>
    .bind (.iadd pt) fun _ _ => .bind (.addVector pv pt) fun _ _ => .bind (.addVector pv pt) fun _ _ => .bind (.iadd pt) fun _ _ => ?_
  rw [show i2lePadded 2 4 = .ok [2, 0, 0, 0] from by decide +kernel, ok_bind]
  refine .bind ?_ fun _ _ => .bind (.iter pt) fun _ _ => .bind (.iter pt) fun _ _ => .bind (.iter pt) fun l hl => .bind ?_ fun _ _ => .bind (.check pv) fun _ _ => .ok
  · exact .ite (fun _ => .bind (.addVector pv pt) fun _ _ => .bind (.iadd pt) fun _ _ => .iadd pt) fun _ => .ok
  · refine .ite (fun h => ?_) fun _ => .ok
    refine .bind (raises_hsigs pt ?_) fun _ _ => .ok
    have h : a.content = some [2, 0, 0, 0] := by
      unfold Val.neBytes at h
      split at h
      next x hx => rw [hx]; simp at h; rw [h]
      next => cases h
    have hv2 : v = 2 := by
      cases a <;> cases h <;> (have := Except.ok.inj hv; rw [← this]; decide)
    subst hv2
    unfold Dyn.checkV2 at h2
    rw [if_pos rfl] at h2
    obtain ⟨_, -, h2⟩ := bind_ok_iff.1 h2
    obtain ⟨_, -, h2⟩ := bind_ok_iff.1 h2
    obtain ⟨_, hj, h2⟩ := bind_ok_iff.1 h2
    exact js_long (.inl rfl) he hj hl

/-! ### `from_bytes` -/

theorem ErrIn.varint' (h : P .valueError) {n : Nat} {l : Option Nat} : ErrIn P (VarInt.make (n : Int) l) := by
  unfold VarInt.make
  refine .ite (fun _ => .error h) fun _ => .ite (fun _ => .error h) fun _ => ?_
  obtain ⟨b, hb⟩ : ∃ b, i2le (n : Int) = .ok b := by
    rcases Nat.eq_zero_or_pos n with rfl | hp
    · exact ⟨_, rfl⟩
    · exact ⟨_, i2le_pos hp⟩
  rw [hb]
  simp only
  split <;> exact .ok

/-- What `VarInt.from_bytes` does with the value and with its slices is in the set. -/
def Fine (P : PyErr → Prop) (v : Val) : Prop := v.content ≠ none ∨ P .attributeError ∧ P .exception

theorem Fine.slice {v r : Val} (h : Fine P v) {i j : Nat} (hr : v.slice i j = .ok r) : Fine P r := by
  refine h.imp (fun h => ?_) id
  cases v <;> simp [Val.content] at h <;> (cases hr; simp [Val.content])

theorem Fine.rest {v r : Val} (h : Fine P v) {i : Nat} (hr : v.from_ i = .ok r) : Fine P r := by
  refine h.imp (fun h => ?_) id
  cases v <;> simp [Val.content] at h <;> (cases hr; simp [Val.content])

theorem raises_varIntOfList (pv : P .valueError) (pt : P .typeError) (pi : P .indexError) (pa : P .attributeError) (px : P .exception) {l : List Val} :
    ErrIn P (Dyn.varIntOfList l) := by
  unfold Dyn.varIntOfList
  split
  · exact .error pi
  · exact .bind (.check pa) fun _ _ => .bind (.check px) fun _ _ => .bind (.byteList pv pt) fun _ _ => .varint' pv
  · exact .error pt

theorem raises_varInt (pv : P .valueError) (pt : P .typeError) (pi : P .indexError) {net : Network} {v : Val} (hf : Fine P v) : ErrIn P (Dyn.readVarInt net v) := by
  rcases hf with h | ⟨pa, px⟩
  · obtain ⟨b, hb⟩ := Option.ne_none_iff_exists'.1 h
    have : Dyn.readVarInt net v = VarInt.fromBytes net b := by cases v <;> simp [Val.content] at hb <;> subst hb <;> rfl
    rw [this]
    intro e he
    rcases VarInt.fromBytes_error he with rfl | rfl
    · exact pv
    · exact pi
  · have hb : ∀ b, ErrIn P (VarInt.fromBytes net b) := by
      intro b e he
      rcases VarInt.fromBytes_error he with rfl | rfl
      · exact pv
      · exact pi
    have hl : ∀ l, ErrIn P (Dyn.varIntOfList l) := fun l => raises_varIntOfList pv pt pi pa px
    cases v with
    | str s => exact .ite (fun _ => .error pi) fun _ => .error pt
    | none => exact .error pt
    | int _ => exact .error pt
    | bytes b => exact hb b
    | bytearray b => exact hb b
    | obj _ _ b => exact hb b
    | list l => exact hl l
    | tuple l => exact hl l

theorem raises_many (pt : P .typeError) {f : Val → Py Val} {v : Val} (hf : ∀ r, (∃ i, v.from_ i = .ok r) → ErrIn P (f r)) : ∀ {n c : Nat}, ErrIn P (Dyn.readMany f v n c) := by
  intro n
  induction n with
  | zero => exact .ok
  | succ n ih =>
    intro c
    exact .bind (.rest pt) fun r hr => .bind (hf r ⟨_, hr⟩) fun _ _ => .bind (.len pt) fun _ _ => .bind ih fun _ _ => .ok

theorem raises_readOutpoint (pv : P .valueError) (pt : P .typeError) {v : Val} : ErrIn P (Dyn.readOutpoint v) :=
  .bind (.slice pt) fun _ _ => .bind (.slice pt) fun _ _ => raises_outpoint pv

theorem readScriptSig_ok {net : Network} (hn : net.Supported) {v : Val} (h : v.content ≠ none) : ∃ p, Dyn.readScriptSig net v = .ok p := by
  obtain ⟨b, hb⟩ := Option.ne_none_iff_exists'.1 h
  obtain ⟨x, y, h3⟩ := parseScriptSig_total hn b
  have h4 := read_typed_scriptSig net b
  rw [h3] at h4
  unfold Dyn.readScriptSig at h4 ⊢
  rw [hb]
  rw [show (Val.bytes b).content = some b from rfl] at h4
  simp only at h4 ⊢
  split at h4
  next e he =>
    split at h4
    next hc => rw [if_pos hc]; exact ⟨_, rfl⟩
    next => cases h4
  next st l he => exact ⟨_, h4⟩

theorem raises_readTxIn (pv : P .valueError) (pt : P .typeError) (pi : P .indexError) {net : Network} (hn : net.Supported) {v : Val} : ErrIn P (Dyn.readTxIn net v) := by
  refine .bind (.slice pt) fun a ha => .bind (raises_readOutpoint pv pt) fun o ho => ?_
  have hc : v.content ≠ none := by
    obtain ⟨x, hx, ho⟩ := bind_ok_iff.1 ho
    obtain ⟨y, hy, ho⟩ := bind_ok_iff.1 ho
    have hx' : x.content ≠ none := by
      unfold Dyn.outpoint at ho
      obtain ⟨_, h1, -⟩ := bind_ok_iff.1 ho
      intro hno
      unfold Val.validate at h1
      rw [hno] at h1
      cases h1
    intro hv
    cases v <;> first | (cases ha; done) | (cases ha; cases hx; exact hx' rfl) | exact absurd hv (by simp [Val.content])
  refine .bind (.slice pt) fun b hb => .bind (raises_varInt pv pt pi (.slice (.inl hc) hb)) fun n _ => .bind (.slice pt) fun s hs => .bind (.slice pt) fun q _ => ?_
  refine .ite (fun _ => raises_txIn pv pt) fun _ => .bind (raises_outpoint pv) fun _ _ => .ite (fun _ => raises_txIn pv pt) fun _ => ?_
  have hsc : s.content ≠ none := by
    rcases Fine.slice (P := fun _ => False) (.inl hc) hs with h | h
    · exact h
    · exact h.1.elim
  obtain ⟨p, hp⟩ := readScriptSig_ok hn hsc
  rw [hp, ok_bind]
  exact raises_txIn pv pt

theorem raises_readTxOut (pv : P .valueError) (pt : P .typeError) (pi : P .indexError) (pn : P .notImplementedError) {net : Network} {v : Val} (hf : Fine P v) :
    ErrIn P (Dyn.readTxOut net v) :=
  .bind (.rest pt) fun _ hr => .bind (raises_varInt pv pt pi (hf.rest hr)) fun _ _ =>
    .ite (fun _ => .bind (.slice pt) fun _ _ => .bind (.slice pt) fun _ _ => raises_txOut pv) fun _ => .error pn

theorem raises_readItem (pv : P .valueError) (pt : P .typeError) (pi : P .indexError) {net : Network} {v : Val} (hf : Fine P v) : ErrIn P (Dyn.readItem net v) :=
  .bind (raises_varInt pv pt pi hf) fun _ _ => .bind (.slice pt) fun _ _ => raises_item pv

theorem raises_readWitness (pv : P .valueError) (pt : P .typeError) (pi : P .indexError) {net : Network} {v : Val} (hf : Fine P v) : ErrIn P (Dyn.readWitness net v) :=
  .bind (raises_varInt pv pt pi hf) fun _ _ => .bind (raises_many pt fun _ ⟨_, hr⟩ => raises_readItem pv pt pi (hf.rest hr)) fun _ _ => raises_witness pv pt

theorem raises_readTx (pv : P .valueError) (pt : P .typeError) (pi : P .indexError) (pn : P .notImplementedError) {E : Env} (hn : E.net.Supported) {v : Val} (hf : Fine P v) :
    ErrIn P (Dyn.readTx E v) := by
  unfold Dyn.readTx
  refine .bind (.slice pt) fun _ _ => .bind (.slice pt) fun mark _ => .bind (.rest pt) fun r hr => .bind (raises_varInt pv pt pi (hf.rest hr)) fun ni _ =>
    .bind (raises_many pt fun _ _ => raises_readTxIn pv pt pi hn) fun p _ => .bind (.rest pt) fun r hr => .bind (raises_varInt pv pt pi (hf.rest hr)) fun no _ =>
    .bind (raises_many pt fun _ ⟨_, hr⟩ => raises_readTxOut pv pt pi pn (hf.rest hr)) fun p _ => ?_
  have last : ∀ {w : List Val × Nat} {a b c : Val}, ErrIn P (do
      let lockTime ← v.slice w.2 (w.2 + 4)
      Dyn.tx E a (if mark.neBytes E.net.segwitTxFlag = false then .bytes E.net.segwitTxFlag else .none) b c (.list w.1) lockTime) := by
    intro w a b c
    refine .bind (.slice pt) fun _ _ => raises_tx pv pt fun h1 h2 => ?_
    split at h2
    next => cases h2
    next hc => rw [if_neg hc] at h1; exact absurd rfl h1
  exact .ite (fun _ => .bind (.rest pt) fun _ _ => .bind (.len pt) fun _ _ =>
    .ite (fun _ => .bind (raises_many pt fun _ ⟨_, hr⟩ => raises_readWitness pv pt pi (hf.rest hr)) fun _ _ => last) fun _ => .bind .ok fun _ _ => last) fun _ => .bind .ok fun _ _ => last

theorem raises_readSproutProof (pv : P .valueError) (pt : P .typeError) {net : Network} {v : Val} : ErrIn P (Dyn.readSproutProof net v) := by
  unfold Dyn.readSproutProof
  iterate 8 refine .bind (.slice pt) fun _ _ => ?_
  exact raises_sproutProof pv

theorem raises_readSaplingProof (pv : P .valueError) (pt : P .typeError) {net : Network} {v : Val} : ErrIn P (Dyn.readSaplingProof net v) := by
  unfold Dyn.readSaplingProof
  iterate 3 refine .bind (.slice pt) fun _ _ => ?_
  exact raises_saplingProof pv

theorem raises_readSproutJs (pv : P .valueError) (pt : P .typeError) {net : Network} {v : Val} : ErrIn P (Dyn.readSproutJs net v) := by
  unfold Dyn.readSproutJs
  iterate 9 refine .bind (.slice pt) fun _ _ => ?_
  exact .bind (raises_readSproutProof pv pt) fun _ _ => .bind (.slice pt) fun _ _ => raises_joinsplit pv pt

theorem raises_readSaplingJs (pv : P .valueError) (pt : P .typeError) {net : Network} {v : Val} : ErrIn P (Dyn.readSaplingJs net v) := by
  unfold Dyn.readSaplingJs
  iterate 9 refine .bind (.slice pt) fun _ _ => ?_
  exact .bind (raises_readSaplingProof pv pt) fun _ _ => .bind (.slice pt) fun _ _ => raises_joinsplit pv pt

theorem raises_readSpend (pv : P .valueError) (pt : P .typeError) {net : Network} {v : Val} : ErrIn P (Dyn.readSpend net v) := by
  unfold Dyn.readSpend
  iterate 5 refine .bind (.slice pt) fun _ _ => ?_
  exact .bind (raises_readSaplingProof pv pt) fun _ _ => .bind (.slice pt) fun _ _ => raises_spend pv

theorem raises_readOutput (pv : P .valueError) (pt : P .typeError) {net : Network} {v : Val} : ErrIn P (Dyn.readOutput net v) := by
  unfold Dyn.readOutput
  iterate 6 refine .bind (.slice pt) fun _ _ => ?_
  exact .bind (raises_readSaplingProof pv pt) fun _ _ => raises_output pv

theorem raises_readInsOuts (pv : P .valueError) (pt : P .typeError) (pi : P .indexError) (pn : P .notImplementedError) {net : Network} (hn : net.Supported) {v : Val} (hf : Fine P v) {i : Nat} :
    ErrIn P (Dyn.readInsOuts net v i) := by
  unfold Dyn.readInsOuts
  exact .bind (.rest pt) fun r hr => .bind (raises_varInt pv pt pi (hf.rest hr)) fun ni _ =>
    .bind (raises_many pt fun _ _ => raises_readTxIn pv pt pi hn) fun p _ => .bind (.rest pt) fun r hr => .bind (raises_varInt pv pt pi (hf.rest hr)) fun no _ =>
    .bind (raises_many pt fun _ ⟨_, hr⟩ => raises_readTxOut pv pt pi pn (hf.rest hr)) fun p _ => .ok

theorem raises_readSproutTx (pv : P .valueError) (pt : P .typeError) (pi : P .indexError) (pn : P .notImplementedError) {S : Network → Prop} {E : Env} (hn : E.net.Supported) {v : Val}
    (hv : GoodOn S E v) (hf : Fine P v) : ErrIn P (Dyn.readSproutTx E v) := by
  unfold Dyn.readSproutTx
  refine .bind (.slice pt) fun ver _ => .bind (raises_readInsOuts pv pt pi pn hn hf) fun p _ => .bind (.slice pt) fun _ _ => .bind ?_ fun q hq => raises_sproutTx pv pt (S := S) (E' := E) ?_
  · exact .bind (.le2i pv pt) fun _ _ => .ite (fun _ => .bind (.rest pt) fun r hr => .bind (raises_varInt pv pt pi (hf.rest hr)) fun _ _ =>
      .bind (raises_many pt fun _ _ => raises_readSproutJs pv pt) fun _ _ => .bind (.slice pt) fun _ _ => .bind (.slice pt) fun _ _ => .ok) fun _ => .ok
  · obtain ⟨js, pk, sig⟩ := q
    simp only [Dyn.readSproutRest, bind_ok_iff] at hq
    obtain ⟨ver, -, hq⟩ := hq
    split at hq
    · simp only [bind_ok_iff] at hq
      obtain ⟨r, -, n, -, ⟨xs, c⟩, hx, k, hk, s, hs, hq⟩ := hq
      cases hq
      exact .list _ (good_many (fun _ _ => good_readSproutJs) hv _ hx)
    · cases hq; exact .none

theorem header_content {v : Val} {h g : Bytes} {u : Unit} (hh : Dyn.readHeader v h g = .ok u) : v.content ≠ none := by
  unfold Dyn.readHeader at hh
  obtain ⟨a, ha, hh⟩ := bind_ok_iff.1 hh
  obtain ⟨b, hb, hh⟩ := bind_ok_iff.1 hh
  by_cases hc : a.neBytes h = true ∨ b.neBytes g = true
  · rw [if_pos hc] at hh
    obtain ⟨_, -, hh⟩ := bind_ok_iff.1 hh
    obtain ⟨_, -, hh⟩ := bind_ok_iff.1 hh
    cases hh
  · intro hv
    apply hc
    left
    cases v <;> first | (cases ha; done) | (cases ha; rfl) | exact absurd hv (by simp [Val.content])

theorem raises_readHeader {v : Val} (pv : P .valueError) (pt : P .typeError) (pa : P .attributeError ∨ v.content ≠ none) {h g : Bytes} : ErrIn P (Dyn.readHeader v h g) := by
  have hx : ∀ {a : Val} {i j : Nat}, v.slice i j = .ok a → ErrIn P a.hexAttr := by
    intro a i j ha
    rcases pa with pa | hc
    · exact .hexAttr pa
    · cases v <;> simp [Val.content] at hc <;> (cases ha; exact .ok)
  exact .bind (.slice pt) fun a ha => .bind (.slice pt) fun b hb => .ite (fun _ => .bind (hx ha) fun _ _ => .bind (hx hb) fun _ _ => .error pv) fun _ => .ok

theorem raises_readOverwinterTx (pv : P .valueError) (pt : P .typeError) (pi : P .indexError) (pn : P .notImplementedError) {S : Network → Prop} {E : Env} (hn : E.net.Supported)
    {v : Val} (hv : GoodOn S E v) (pa : P .attributeError ∨ v.content ≠ none) : ErrIn P (Dyn.readOverwinterTx E v) := by
  unfold Dyn.readOverwinterTx
  refine .bind (raises_readHeader pv pt pa) fun _ hh => ?_
  have hf : Fine P v := .inl (header_content hh)
  refine .bind (raises_readInsOuts pv pt pi pn hn hf) fun p _ => .bind (.slice pt) fun _ _ => .bind (.slice pt) fun _ _ => .bind ?_ fun q hq => raises_overwinterTx pv pt (S := S) (E' := E) ?_
  · exact .bind (.len pt) fun _ _ => .ite (fun _ => .ok) fun _ => .bind (.rest pt) fun r hr => .bind (raises_varInt pv pt pi (hf.rest hr)) fun _ _ =>
      .bind (raises_many pt fun _ _ => raises_readSproutJs pv pt) fun _ _ => .bind (.slice pt) fun _ _ => .bind (.slice pt) fun _ _ => .ok
  · obtain ⟨js, pk, sig⟩ := q
    simp only [Dyn.readOverwinterRest, bind_ok_iff] at hq
    obtain ⟨l, -, hq⟩ := hq
    split at hq
    · cases hq; exact .tuple _ (by simp)
    · simp only [bind_ok_iff] at hq
      obtain ⟨r, -, n, -, ⟨xs, c⟩, hx, k, hk, s, hs, hq⟩ := hq
      cases hq
      exact .list _ (good_many (fun _ _ => good_readSproutJs) hv _ hx)

theorem raises_readSaplingTx (pv : P .valueError) (pt : P .typeError) (pi : P .indexError) (pn : P .notImplementedError) {S : Network → Prop} {E : Env} (hn : E.net.Supported)
    {v : Val} (hv : GoodOn S E v) (pa : P .attributeError ∨ v.content ≠ none) : ErrIn P (Dyn.readSaplingTx E v) := by
  unfold Dyn.readSaplingTx
  refine .bind (raises_readHeader pv pt pa) fun _ hh => ?_
  have hf : Fine P v := .inl (header_content hh)
  refine .bind (raises_readInsOuts pv pt pi pn hn hf) fun p _ => .bind (.slice pt) fun _ _ => .bind (.slice pt) fun _ _ => .bind (.slice pt) fun _ _ => .bind ?_ fun q hq =>
    raises_saplingTx pv pt (S := S) (E' := E) ?_
  · unfold Dyn.readSaplingRest
    have two : ∀ {γ : Type} {p : Prop} [Decidable p] {i j : Nat} {f : Val → Py γ}, (∀ {x}, ErrIn P (f x)) → ErrIn P (if p then v.slice i j >>= f else Except.ok Val.none >>= f) :=
      fun h => .ite (fun _ => .bind (.slice pt) fun _ _ => h) fun _ => .bind .ok fun _ _ => h
    exact .bind (.rest pt) fun r hr => .bind (raises_varInt pv pt pi (hf.rest hr)) fun _ _ => .bind (raises_many pt fun _ _ => raises_readSpend pv pt) fun _ _ =>
      .bind (.rest pt) fun r hr => .bind (raises_varInt pv pt pi (hf.rest hr)) fun _ _ => .bind (raises_many pt fun _ _ => raises_readOutput pv pt) fun _ _ =>
      .bind (.rest pt) fun r hr => .bind (raises_varInt pv pt pi (hf.rest hr)) fun _ _ => .bind (raises_many pt fun _ _ => raises_readSaplingJs pv pt) fun _ _ =>
      two (two (two .ok))
  · simp only [Dyn.readSaplingRest, bind_ok_iff] at hq
    obtain ⟨-, -, ns, -, ⟨spends, c1⟩, h1, -, -, no, -, ⟨outputs, c2⟩, h2, -, -, nj, -, ⟨js, c3⟩, h3, hq⟩ := hq
    obtain ⟨pk, h4, hq⟩ := good_sliceIf hv hq
    obtain ⟨sig, h5, hq⟩ := good_sliceIf hv hq
    obtain ⟨bnd, h6, hq⟩ := good_sliceIf hv hq
    cases hq
    exact .list _ (good_many (fun _ _ => good_readSaplingJs) hv _ h3)

theorem raises_readDcrOutpoint (pv : P .valueError) (pt : P .typeError) {net : Network} {v : Val} : ErrIn P (Dyn.readDcrOutpoint net v) :=
  .bind (.slice pt) fun _ _ => .bind (.slice pt) fun _ _ => .bind (.slice pt) fun _ _ => raises_dcrOutpoint pv

theorem raises_readDcrTxIn (pv : P .valueError) (pt : P .typeError) {net : Network} {v : Val} : ErrIn P (Dyn.readDcrTxIn net v) :=
  .bind (.slice pt) fun _ _ => .bind (raises_readDcrOutpoint pv pt) fun _ _ => .bind (.slice pt) fun _ _ => raises_dcrTxIn pv

theorem raises_readDcrTxOut (pv : P .valueError) (pt : P .typeError) (pi : P .indexError) (pn : P .notImplementedError) {net : Network} {v : Val} (hf : Fine P v) :
    ErrIn P (Dyn.readDcrTxOut net v) :=
  .bind (.rest pt) fun _ hr => .bind (raises_varInt pv pt pi (hf.rest hr)) fun _ _ =>
    .ite (fun _ => .bind (.slice pt) fun _ _ => .bind (.slice pt) fun _ _ => .bind (.slice pt) fun _ _ => raises_dcrTxOut pv) fun _ => .error pn

/-! ### tx_builder.py, simple.py -/

theorem raises_makeOutput (pv : P .valueError) {E : Env} {a b c : Val} : ErrIn P (Dyn.makeOutput E a b c) := .ite (fun _ => raises_dcrTxOut pv) fun _ => raises_txOut pv

theorem raises_serialize (pv : P .valueError) (pt : P .typeError) (pa : P .attributeError) (pn : P .notImplementedError) {net : Network} (hn : net.Supported) {v : Val} : ErrIn P (v.serialize net) := by
  cases v with
  | str s =>
    intro e he
    obtain ⟨_, _, _, _, _, -, -, -, h⟩ := (C112_serialize_error net hn s e).1 he
    cases h with
    | unsupported => exact pn
    | long => exact pn
    | unknown => exact pv
  | bytes b => exact .ite (fun _ => .ok) fun _ => .error pt
  | bytearray b => exact .ite (fun _ => .ok) fun _ => .error pt
  | _ => exact .error pa

theorem raises_makeShOutput (pv : P .valueError) (pt : P .typeError) (pa : P .attributeError) (po : P .overflowError) (pn : P .notImplementedError) {E : Env} (hn : E.net.Supported) {a b c : Val} :
    ErrIn P (Dyn.makeShOutput E a b c) :=
  .bind (.toLe po pt pa) fun _ _ => .bind (.bind (.check pv) fun _ _ => .bind (raises_serialize pv pt pa pn hn) fun _ _ => .ok) fun _ _ => raises_makeOutput pv

theorem raises_makePkhOutput (pv : P .valueError) (pt : P .typeError) (pa : P .attributeError) (po : P .overflowError) {E : Env} {a b c : Val} : ErrIn P (Dyn.makePkhOutput E a b c) := by
  refine .bind (.toLe po pt pa) fun _ _ => .bind (.bind (.check pv) fun _ _ => .bind ?_ fun _ _ => .ite (fun _ => .ok) fun _ => .ok) fun _ _ => raises_makeOutput pv
  split <;> first | exact .ok | exact .error pv

theorem raises_makeOpReturnOutput (pv : P .valueError) (pt : P .typeError) {E : Env} {a : Val} : ErrIn P (Dyn.makeOpReturnOutput E a) := by
  unfold Dyn.makeOpReturnOutput
  rw [show (Val.int 0).toLe 8 = .ok (.bytes [0, 0, 0, 0, 0, 0, 0, 0]) from by rfl]
  exact .bind (.len pt) fun _ _ => .bind (.check pv) fun _ _ => .bind (.iter pt) fun _ _ => .bind (.byteList pv pt) fun _ _ => .bind .ok fun _ _ => raises_makeOutput pv

theorem raises_makeWitness (pv : P .valueError) (pt : P .typeError) {a : Val} : ErrIn P (Dyn.makeWitness a) :=
  .bind (.iter pt) fun _ _ => .bind (.mapPy fun _ _ => raises_item pv) fun _ _ => raises_witness pv pt

section
variable (pv : P .valueError) (pt : P .typeError) (pa : P .attributeError) (po : P .overflowError)
include pv pt pa po

theorem raises_makeOutpoint {E : Env} {a b c : Val} : ErrIn P (Dyn.makeOutpoint E a b c) :=
  .ite (fun _ => .bind (.ite (fun _ => .toLe po pt pa) fun _ => .ok) fun _ _ => .bind (.toLe po pt pa) fun _ _ => raises_dcrOutpoint pv) fun _ =>
    .bind (.toLe po pt pa) fun _ _ => raises_outpoint pv

theorem raises_makeDecredInput {E : Env} {a b : Val} : ErrIn P (Dyn.makeDecredInput E a b) := .bind (.toLe po pt pa) fun _ _ => raises_dcrTxIn pv

theorem raises_makeLegacyInput {E : Env} {a b c d : Val} : ErrIn P (Dyn.makeLegacyInput E a b c d) :=
  .ite (fun _ => raises_makeDecredInput pv pt pa po) fun _ => .bind (.toLe po pt pa) fun _ _ => raises_txIn pv pt

theorem raises_makeWitnessInput {E : Env} {a b : Val} : ErrIn P (Dyn.makeWitnessInput E a b) :=
  .ite (fun _ => raises_makeDecredInput pv pt pa po) fun _ => .bind (.toLe po pt pa) fun _ _ => raises_txIn pv pt

theorem raises_makeTx {S : Network → Prop} {E E' : Env} {a b c d : Val} {k : TxKw} (hj : GoodOn S E' k.txJoinsplits) : ErrIn P (Dyn.makeTx E a b c d k) := by
  unfold Dyn.makeTx
  refine .ite (fun _ => .bind (.toLe po pt pa) fun _ _ => .bind (.toLe po pt pa) fun _ _ => .bind (.toLe po pt pa) fun _ _ => raises_dcrTx pv pt) fun _ =>
    .ite (fun _ => .bind (.toLe po pt pa) fun _ _ => raises_sproutTx pv pt hj) fun _ =>
    .ite (fun _ => .bind (.toLe po pt pa) fun _ _ => .bind (.toLe po pt pa) fun _ _ => raises_overwinterTx pv pt (S := S) (E' := E') ?_) fun _ =>
    .ite (fun _ => .bind (.toLe po pt pa) fun _ _ => .bind (.toLe po pt pa) fun _ _ => .bind (.toLe po pt pa) fun _ _ => raises_saplingTx pv pt hj) fun _ =>
    .bind (.toLe po pt pa) fun _ _ => .bind (.toLe po pt pa) fun _ _ => raises_tx pv pt fun _ _ => pa
  split
  · exact hj
  · exact .list _ nofun

theorem raises_simpleOutput {E : Env} {a b : Val} : ErrIn P (Dyn.simpleOutput E a b) := by
  refine .bind ?_ fun _ _ => .bind (.toLe po pt pa) fun _ _ => raises_makeOutput pv
  cases b with
  | str s =>
    refine .bind (fun e h => ?_) fun _ hp => .bind (fun e h => ?_) fun _ _ => .ite (fun _ => .ok) fun _ => .ok
    · rw [Addresses.parse_error h]; exact pv
    · rw [Addresses.toOutputScript_eq] at h
      rcases bind_error_iff.1 h with h | ⟨_, -, h⟩
      · rw [Addresses.parse_error h]; exact pv
      · rw [Addresses.outScript_error h]; exact pv
  | _ => exact .error pa

theorem raises_simpleOutpoint {E : Env} {a b c : Val} : ErrIn P (Dyn.simpleOutpoint E a b c) := by
  refine .bind ?_ fun _ _ => raises_makeOutpoint pv pt pa po
  cases a with
  | str s => exact fun e h => by rw [Verif.fromHex_error _ _ h]; exact pv
  | _ => exact .error pt

theorem raises_simpleWitnessTx {E : Env} {a b c d : Val} : ErrIn P (Dyn.simpleWitnessTx E a b c d) :=
  .bind (.iter pt) fun _ _ => .bind (.mapPy fun _ _ => raises_makeWitness pv pt) fun _ _ => raises_makeTx (S := fun _ => True) (E' := E) pv pt pa po .none

end

/-! ### all functions -/

theorem raises_init {S : Network → Prop} {E E' : Env} {c : Cls} {args : List Val} (ha : ∀ a ∈ args, GoodOn S E' a) (hl : args.length = initArity c) (hc : c ≠ .other) :
    ErrIn (· ∈ initExcs c) (initOf E c args) := by
  cases c with
  | outpoint => match args, hl with | [_, _], _ => exact raises_outpoint (by decide)
  | txIn => match args, hl with | [_, _, _, _], _ => exact raises_txIn (by decide) (by decide)
  | txOut => match args, hl with | [_, _], _ => exact raises_txOut (by decide)
  | item => match args, hl with | [_], _ => exact raises_item (by decide)
  | witness => match args, hl with | [_], _ => exact raises_witness (by decide) (by decide)
  | tx => match args, hl with | [_, _, _, _, _, _], _ => exact raises_tx (by decide) (by decide) fun _ _ => by decide
  | sproutProof => match args, hl with | [_, _, _, _, _, _, _, _], _ => exact raises_sproutProof (by decide)
  | saplingProof => match args, hl with | [_, _, _], _ => exact raises_saplingProof (by decide)
  | sproutJs => match args, hl with | [_, _, _, _, _, _, _, _, _, _], _ => exact raises_joinsplit (by decide) (by decide)
  | saplingJs => match args, hl with | [_, _, _, _, _, _, _, _, _, _], _ => exact raises_joinsplit (by decide) (by decide)
  | saplingSpend => match args, hl with | [_, _, _, _, _, _], _ => exact raises_spend (by decide)
  | saplingOutput => match args, hl with | [_, _, _, _, _, _], _ => exact raises_output (by decide)
  | sproutTx => match args, hl, ha with | [_, _, _, _, _, _, _], _, ha => exact raises_sproutTx (by decide) (by decide) (ha _ (by simp))
  | overwinterTx => match args, hl, ha with | [_, _, _, _, _, _, _], _, ha => exact raises_overwinterTx (by decide) (by decide) (ha _ (by simp))
  | saplingTx => match args, hl, ha with | [_, _, _, _, _, _, _, _, _, _, _], _, ha => exact raises_saplingTx (by decide) (by decide) (ha _ (by simp))
  | dcrOutpoint => match args, hl with | [_, _, _], _ => exact raises_dcrOutpoint (by decide)
  | dcrTxIn => match args, hl with | [_, _], _ => exact raises_dcrTxIn (by decide)
  | dcrTxOut => match args, hl with | [_, _, _], _ => exact raises_dcrTxOut (by decide)
  | dcrWitness => match args, hl with | [_, _, _, _, _], _ => exact raises_dcrWitness (by decide) (by decide)
  | dcrTx => match args, hl with | [_, _, _, _, _, _], _ => exact raises_dcrTx (by decide) (by decide)
  | other => exact absurd rfl hc

theorem raises_read {S : Network → Prop} {E : Env} (hn : E.net.Supported) {c : Cls} {v : Val} (hv : GoodOn S E v) : ErrIn (· ∈ readExcs c) (readOf E c v) := by
  cases c with
  | outpoint => exact raises_readOutpoint (by decide) (by decide)
  | txIn => exact raises_readTxIn (by decide) (by decide) (by decide) hn
  | txOut => exact raises_readTxOut (by decide) (by decide) (by decide) (by decide) (.inr (by decide))
  | item => exact raises_readItem (by decide) (by decide) (by decide) (.inr (by decide))
  | witness => exact raises_readWitness (by decide) (by decide) (by decide) (.inr (by decide))
  | tx => exact raises_readTx (by decide) (by decide) (by decide) (by decide) hn (.inr (by decide))
  | sproutProof => exact raises_readSproutProof (by decide) (by decide)
  | saplingProof => exact raises_readSaplingProof (by decide) (by decide)
  | sproutJs => exact raises_readSproutJs (by decide) (by decide)
  | saplingJs => exact raises_readSaplingJs (by decide) (by decide)
  | saplingSpend => exact raises_readSpend (by decide) (by decide)
  | saplingOutput => exact raises_readOutput (by decide) (by decide)
  | sproutTx => exact raises_readSproutTx (by decide) (by decide) (by decide) (by decide) hn hv (.inr (by decide))
  | overwinterTx => exact raises_readOverwinterTx (by decide) (by decide) (by decide) (by decide) hn hv (.inl (by decide))
  | saplingTx => exact raises_readSaplingTx (by decide) (by decide) (by decide) (by decide) hn hv (.inl (by decide))
  | dcrOutpoint => exact raises_readDcrOutpoint (by decide) (by decide)
  | dcrTxIn => exact raises_readDcrTxIn (by decide) (by decide)
  | dcrTxOut => exact raises_readDcrTxOut (by decide) (by decide) (by decide) (by decide) (.inr (by decide))
  | dcrWitness => exact .error (by decide)
  | dcrTx => exact .error (by decide)
  | other => exact .bind (.iadd (by decide)) fun _ _ => .ok

theorem raises_readHex {E : Env} (hn : E.net.Supported) {c : Cls} {v : Val} : ErrIn (· ∈ hexExcs c) (readHexOf E c v) := by
  have pt : PyErr.typeError ∈ hexExcs c := by cases c <;> decide
  have pv : PyErr.valueError ∈ hexExcs c := by cases c <;> decide
  cases v with
  | str s =>
    refine .bind (fun e h => by rw [Verif.fromHex_error _ _ h]; exact pv) fun b _ => ?_
    have hv : GoodOn (fun _ => True) E (.bytes b) := .bytes b
    have hc : (Val.bytes b).content ≠ none := by simp [Val.content]
    cases c with
    | outpoint => exact raises_readOutpoint pv pt
    | txIn => exact raises_readTxIn pv pt (by decide) hn
    | txOut => exact raises_readTxOut pv pt (by decide) (by decide) (.inl hc)
    | item => exact raises_readItem pv pt (by decide) (.inl hc)
    | witness => exact raises_readWitness pv pt (by decide) (.inl hc)
    | tx => exact raises_readTx pv pt (by decide) (by decide) hn (.inl hc)
    | sproutProof => exact raises_readSproutProof pv pt
    | saplingProof => exact raises_readSaplingProof pv pt
    | sproutJs => exact raises_readSproutJs pv pt
    | saplingJs => exact raises_readSaplingJs pv pt
    | saplingSpend => exact raises_readSpend pv pt
    | saplingOutput => exact raises_readOutput pv pt
    | sproutTx => exact raises_readSproutTx pv pt (by decide) (by decide) hn hv (.inl hc)
    | overwinterTx => exact raises_readOverwinterTx pv pt (by decide) (by decide) hn hv (.inr hc)
    | saplingTx => exact raises_readSaplingTx pv pt (by decide) (by decide) hn hv (.inr hc)
    | dcrOutpoint => exact raises_readDcrOutpoint pv pt
    | dcrTxIn => exact raises_readDcrTxIn pv pt
    | dcrTxOut => exact raises_readDcrTxOut pv pt (by decide) (by decide) (.inl hc)
    | dcrWitness => exact .error (by decide)
    | dcrTx => exact .error (by decide)
    | other => exact .bind (.iadd pt) fun _ _ => .ok
  | _ => exact .error pt

/-- Whatever a function is called with, it raises no other exceptions than those of the table. -/
theorem raises_call {S : Network → Prop} {E : Env} (hn : E.net.Supported) {f : Fn} {args : List Val} (ha : ∀ a ∈ args, GoodOn S E a) (hf : f ≠ .copy) (hi : f ≠ .init .other)
    (hl : args.length = arity f) : ErrIn (· ∈ excs f) (call E f args) := by
  cases f with
  | init c => exact raises_init ha hl fun e => hi (by rw [e])
  | fromBytes c => match args, hl, ha with | [v], _, ha => exact raises_read hn (ha v (by simp))
  | fromHex c => match args, hl with | [v], _ => exact raises_readHex hn
  | copy => exact absurd rfl hf
  | makeOutput => match args, hl with | [_, _, _], _ => exact raises_makeOutput (by decide)
  | makeShOutput => match args, hl with | [_, _, _], _ => exact raises_makeShOutput (by decide) (by decide) (by decide) (by decide) (by decide) hn
  | makePkhOutput => match args, hl with | [_, _, _], _ => exact raises_makePkhOutput (by decide) (by decide) (by decide) (by decide)
  | makeOpReturnOutput => match args, hl with | [_], _ => exact raises_makeOpReturnOutput (by decide) (by decide)
  | makeWitness => match args, hl with | [_], _ => exact raises_makeWitness (by decide) (by decide)
  | makeOutpoint => match args, hl with | [_, _, _], _ => exact raises_makeOutpoint (by decide) (by decide) (by decide) (by decide)
  | makeDecredInput => match args, hl with | [_, _], _ => exact raises_makeDecredInput (by decide) (by decide) (by decide) (by decide)
  | makeLegacyInput => match args, hl with | [_, _, _, _], _ => exact raises_makeLegacyInput (by decide) (by decide) (by decide) (by decide)
  | makeWitnessInput => match args, hl with | [_, _], _ => exact raises_makeWitnessInput (by decide) (by decide) (by decide) (by decide)
  | makeTx => match args, hl, ha with | [_, _, _, _, _, _, _, _, _, _, _, _, _], _, ha => exact raises_makeTx (by decide) (by decide) (by decide) (by decide) (ha _ (by simp))
  | simpleOutput => match args, hl with | [_, _], _ => exact raises_simpleOutput (by decide) (by decide) (by decide) (by decide)
  | simpleOutpoint => match args, hl with | [_, _, _], _ => exact raises_simpleOutpoint (by decide) (by decide) (by decide) (by decide)
  | simpleInput => match args, hl with | [_, _], _ => exact raises_makeLegacyInput (by decide) (by decide) (by decide) (by decide)
  | simpleLegacyTx => match args, hl, ha with | [_, _, _, _, _, _, _, _], _, ha => exact raises_makeTx (by decide) (by decide) (by decide) (by decide) (ha _ (by simp))
  | simpleWitnessTx => match args, hl with | [_, _, _, _], _ => exact raises_simpleWitnessTx (by decide) (by decide) (by decide) (by decide)

theorem keep_mem {a b : Val} {Q : Val → Prop} (ha : Q a) (hb : Q b) : Q (keep a b) := by
  cases a <;> first | exact hb | exact ha

/-- `copy` of an object that a program holds raises no other exceptions than the constructor. -/
theorem raises_copy {S : Network → Prop} {E E' : Env} {c : Cls} {t : List Val} {b : Bytes} {args : List Val} (hs : GoodOn S E' (.obj c t b)) (ha : ∀ a ∈ args, GoodOn S E' a) (hc : HasCopy c = true)
    (hl : args.length = initArity c) : ErrIn (· ∈ initExcs c) (copyOf E (.obj c t b) args) := by
  have hlt : t.length = attrCount c := good_count hs (by rintro rfl; cases hc)
  have ht := good_attrs hs
  cases c <;> simp only [HasCopy, Bool.false_eq_true] at hc
  case outpoint => match args, hl, t, hlt with | [_, _], _, [_, _], _ => exact raises_outpoint (by decide)
  case txIn => match args, hl, t, hlt with | [_, _, _, _], _, [_, _, _, _, _], _ => exact raises_txIn (by decide) (by decide)
  case txOut => match args, hl, t, hlt with | [_, _], _, [_, _], _ => exact raises_txOut (by decide)
  case witness => match args, hl, t, hlt with | [_], _, [_], _ => exact raises_witness (by decide) (by decide)
  case tx => match args, hl, t, hlt with | [_, _, _, _, _, _], _, [_, _, _, _, _, _, _, _, _, _], _ => exact raises_tx (by decide) (by decide) fun _ _ => by decide
  case sproutTx => match args, hl, t, hlt, ha, ht with | [_, _, _, _, _, _, _], _, [_, _, _, _, _, _, _, _, _, _, _], _, ha, ht => exact raises_sproutTx (by decide) (by decide) (keep_mem (ha _ (by simp)) (ht _ (by simp)))
  case overwinterTx => match args, hl, t, hlt, ha, ht with | [_, _, _, _, _, _, _], _, [_, _, _, _, _, _, _, _, _, _, _], _, ha, ht => exact raises_overwinterTx (by decide) (by decide) (keep_mem (ha _ (by simp)) (ht _ (by simp)))
  case saplingTx =>
    match args, hl, t, hlt, ha, ht with
    | [_, _, _, _, _, _, _, _, _, _, _], _, [_, _, _, _, _, _, _, _, _, _, _, _, _, _, _], _, ha, ht => exact raises_saplingTx (by decide) (by decide) (keep_mem (ha _ (by simp)) (ht _ (by simp)))
  case dcrOutpoint => match args, hl, t, hlt with | [_, _, _], _, [_, _, _], _ => exact raises_dcrOutpoint (by decide)
  case dcrTxIn => match args, hl, t, hlt with | [_, _], _, [_, _], _ => exact raises_dcrTxIn (by decide)
  case dcrTxOut => match args, hl, t, hlt with | [_, _, _], _, [_, _, _, _], _ => exact raises_dcrTxOut (by decide)
  case dcrWitness => match args, hl, t, hlt with | [_, _, _, _, _], _, [_, _, _, _, _, _, _], _ => exact raises_dcrWitness (by decide) (by decide)
  case dcrTx => match args, hl, t, hlt with | [_, _, _, _, _, _], _, [_, _, _, _, _, _, _, _], _ => exact raises_dcrTx (by decide) (by decide)

end Verif.Props
