import Verif.Model.DynCopy
import Verif.Props.DynZTyped

/-! Property C119: `bytearray` arguments are read as `bytes` ones, in every constructor and `copy`. -/

namespace Verif.Props
open Verif Spec Dyn

mutual
/-- The value with all bytearrays in it, at any depth, replaced by bytes. -/
def freeze : Val → Val
  | .bytearray b => .bytes b
  | .obj c l b => .obj c (freezes l) b
  | .list l => .list (freezes l)
  | .tuple l => .tuple (freezes l)
  | .none => .none
  | .int n => .int n
  | .str s => .str s
  | .bytes b => .bytes b
/-- The same for each of the values. -/
def freezes : List Val → List Val
  | [] => []
  | v :: l => freeze v :: freezes l
end

theorem freezes_eq (l : List Val) : freezes l = l.map freeze := by
  induction l with
  | nil => rfl
  | cons v l ih => simp only [freezes, List.map_cons, ih]

section
variable {α β γ : Type}

theorem map_map (x : Py α) (f : α → β) (g : β → γ) : Except.map g (Except.map f x) = Except.map (fun a => g (f a)) x := by cases x <;> rfl
theorem bind_map (x : Py α) (f : α → β) (g : β → Py γ) : (Except.map f x >>= g) = x >>= fun a => g (f a) := by cases x <;> rfl
theorem map_err (f : α → β) (e : PyErr) : Except.map f (.error e : Py α) = .error e := rfl
end

/-! ### operations on values -/

theorem fz_content (v : Val) : (freeze v).content = v.content := by cases v <;> simp only [freeze] <;> rfl
theorem fz_inst (c : Cls) (v : Val) : (freeze v).isInstance c = v.isInstance c := by cases v <;> simp only [freeze] <;> rfl
theorem fz_len (v : Val) : (freeze v).len = v.len := by cases v <;> simp only [freeze, freezes_eq, Val.len, List.length_map]
theorem fz_iter (v : Val) : (freeze v).iter = v.iter.map (List.map freeze) := by
  cases v <;> simp only [freeze, freezes_eq, Val.iter, Except.map, List.map_map, Function.comp_def]
theorem fz_add (v w : Val) : Val.add (freeze v) (freeze w) = (Val.add v w).map freeze := by
  cases v <;> cases w <;> simp only [freeze, Val.add, Except.map]
theorem fz_iadd (s : Bytes) (v : Val) : Val.iadd s (freeze v) = Val.iadd s v := by unfold Val.iadd; rw [fz_content]
theorem fz_iaddAll (s : Bytes) (l : List Val) : Val.iaddAll s (l.map freeze) = Val.iaddAll s l := by
  induction l generalizing s with
  | nil => rfl
  | cons v l ih => simp only [List.map_cons, Val.iaddAll, fz_iadd, ih]
theorem fz_validate (v : Val) (n : Option Nat) : (freeze v).validate n = v.validate n := by unfold Val.validate; rw [fz_content]
theorem fz_all (c : Cls) (l : List Val) : (l.map freeze).all (Val.isInstance c) = l.all (Val.isInstance c) := by
  rw [List.all_map]; congr 1; funext v; exact fz_inst c v
theorem fz_allInstances (c : Cls) (v : Val) : (freeze v).allInstances c = v.allInstances c := by
  unfold Val.allInstances
  simp only [fz_iter, bind_map, fz_all]
theorem fz_neBytes (v : Val) (b : Bytes) : (freeze v).neBytes b = v.neBytes b := by unfold Val.neBytes; rw [fz_content]
theorem fz_hexAttr (v : Val) : (freeze v).hexAttr = v.hexAttr := by unfold Val.hexAttr; rw [fz_content]
theorem fz_addTo (b : Bytes) (v : Val) : Val.addTo b (freeze v) = Val.addTo b v := by cases v <;> simp only [freeze] <;> rfl
theorem fz_byteList (l : List Val) : Val.byteList (l.map freeze) = Val.byteList l := by
  induction l with
  | nil => rfl
  | cons v l ih => cases v <;> simp only [List.map_cons, freeze, Val.byteList, ih]
theorem fz_le2i (v : Val) : (freeze v).le2i = v.le2i := by cases v <;> simp only [freeze, freezes_eq, Val.le2i, fz_byteList]
theorem fz_attr (k : Nat) (v : Val) : (freeze v).attr k = (v.attr k).map freeze := by
  cases v <;> simp only [freeze, freezes_eq, Val.attr, Except.map, List.getElem?_map]
  rename_i c l b
  cases l[k]? <;> rfl

/-! ### parts of the constructors -/

theorem fz_checkFlag (E : Env) (v : Val) : checkFlag E (freeze v) = checkFlag E v := by
  have : ∀ w : Val, w ≠ .none → checkFlag E w = if w.neBytes E.net.segwitTxFlag then (do w.hexAttr; .error .valueError) else .ok () := by
    intro w hw; cases w <;> first | exact absurd rfl hw | rfl
  by_cases h : v = .none
  · subst h; simp only [freeze]
  · rw [this v h, this _ (by cases v <;> simp [freeze] at h ⊢), fz_neBytes, fz_hexAttr]

/-- `v is None`. -/
def isNone : Val → Bool
  | .none => true
  | _ => false

theorem fz_isNone (v : Val) : isNone (freeze v) = isNone v := by cases v <;> simp only [freeze] <;> rfl

theorem checkWitnesses_eq (f i w : Val) : checkWitnesses f i w = if isNone w then .ok () else (do
    let n ← w.len
    if n ≠ 0 then if isNone f then .error .valueError else (do
      let ni ← i.len
      check (n = ni) .valueError
      w.allInstances .witness)
    else .ok ()) := by
  cases w <;> first | rfl | (cases f <;> rfl)

theorem fz_checkWitnesses (f i w : Val) : checkWitnesses (freeze f) (freeze i) (freeze w) = checkWitnesses f i w := by
  simp only [checkWitnesses_eq, fz_isNone, fz_len, fz_allInstances]

theorem fz_noWitness (v : Val) (i o : List Val) (l : Val) : noWitness (freeze v) (i.map freeze) (o.map freeze) (freeze l) = noWitness v i o l := by
  unfold noWitness
  simp only [fz_addTo, fz_iaddAll, List.length_map]

theorem addWitnesses_eq (s : Bytes) (w : Val) : addWitnesses s w = if isNone w then .ok (s, .none) else (do
    let ws ← w.iter
    let self ← Val.iaddAll s ws
    .ok (self, .tuple ws)) := by cases w <;> rfl

theorem fz_addWitnesses (s : Bytes) (w : Val) : addWitnesses s (freeze w) = (addWitnesses s w).map fun p => (p.1, freeze p.2) := by
  simp only [addWitnesses_eq, fz_isNone]
  split
  · simp only [map_ok', freeze]
  · simp only [fz_iter, bind_map, fz_iaddAll, map_bind, map_ok', freeze, freezes_eq]

theorem fz_addFlag (s : Bytes) (f : Val) : addFlag s (freeze f) = addFlag s f := by
  have e : ∀ f, addFlag s f = if isNone f then .ok s else Val.iadd s f := by intro f; cases f <;> rfl
  simp only [e, fz_isNone, fz_iadd]

theorem fz_checkVpub (a b : Val) : checkVpub (freeze a) (freeze b) = checkVpub a b := by unfold checkVpub; simp only [fz_le2i]

theorem fz_addVector (s : Bytes) (v : Val) : addVector s (freeze v) = addVector s v := by
  unfold addVector; simp only [fz_len, fz_iter, bind_map, fz_iaddAll]

theorem fz_hsig (E : Env) (p j : Val) : Dyn.hsig E (freeze p) (freeze j) = Dyn.hsig E p j := by
  unfold Dyn.hsig; simp only [fz_attr, bind_map, fz_iadd]

theorem fz_primaryInput (j : Val) (h : Bytes) : Dyn.primaryInput (freeze j) h = Dyn.primaryInput j h := by
  unfold Dyn.primaryInput; simp only [fz_attr, bind_map, fz_iadd]

theorem mapPy_map' {α β γ : Type} (f : β → Py γ) (g : α → β) (l : List α) : mapPy f (l.map g) = mapPy (fun a => f (g a)) l := by
  induction l with
  | nil => rfl
  | cons a l ih => simp only [List.map_cons, mapPy, ih]

theorem fz_hsigs (E : Env) (p : Val) (l : List Val) : Dyn.hsigs E (freeze p) (l.map freeze) = Dyn.hsigs E p l := by
  unfold Dyn.hsigs
  have e : ∀ hs : List Bytes, (l.map freeze).zip hs = (l.zip hs).map fun q => (freeze q.1, q.2) := by
    intro hs
    induction l generalizing hs with
    | nil => rfl
    | cons v l ih => cases hs <;> simp [ih]
  simp only [mapPy_map', fz_hsig, e, fz_primaryInput]

theorem fz_checkJsSig (n : Nat) (p s : Val) : checkJsSig n (freeze p) (freeze s) = checkJsSig n p s := by unfold checkJsSig; simp only [fz_validate]

theorem fz_addJs (s : Bytes) (j p q : Val) : addJs s (freeze j) (freeze p) (freeze q) = addJs s j p q := by
  unfold addJs; simp only [fz_len, fz_iter, bind_map, fz_iaddAll, fz_iadd]

theorem map_freeze_bytes (l : List Bytes) : (l.map Val.bytes).map freeze = l.map Val.bytes := by
  simp only [List.map_map, Function.comp_def, freeze]

theorem fz_jsAttrs (E : Env) (j p q : Val) : jsAttrs E (freeze j) (freeze p) (freeze q) = (jsAttrs E j p q).map (List.map freeze) := by
  unfold jsAttrs
  simp only [fz_len, fz_iter, bind_map, fz_hsigs, map_bind]
  congr 1; funext n
  split
  · simp only [map_bind, map_ok', List.map_cons, List.map_nil, freeze, freezes_eq, map_freeze_bytes]
  · simp only [map_ok', List.map_cons, List.map_nil, freeze, freezes]

theorem fz_checkV1 (n : Nat) (i j : Val) : checkV1 n (freeze i) (freeze j) = checkV1 n i j := by
  have e : ∀ i j, checkV1 n i j = if n = 1 then (do
      if isNone j then .ok () else (do let m ← j.len; check (¬ m ≠ 0) .valueError)
      let ni ← i.len
      check (ni ≠ 0) .valueError) else .ok () := by
    intro i j; cases j <;> rfl
  simp only [e, fz_isNone, fz_len]

theorem fz_checkSproutSig (s : Val) : checkSproutSig (freeze s) = checkSproutSig s := by
  have e : ∀ s, checkSproutSig s = if isNone s then .ok () else if s.neBytes [] then s.validate (some 64) else .ok () := by
    intro s; cases s <;> rfl
  simp only [e, fz_isNone, fz_neBytes, fz_validate]

theorem fz_checkV2 (n : Nat) (j p s : Val) : checkV2 n (freeze j) (freeze p) (freeze s) = checkV2 n j p s := by
  unfold checkV2; simp only [fz_len, fz_allInstances, fz_validate, fz_checkSproutSig]

theorem fz_addSproutJs (c : Bool) (b : Bytes) (j p s : Val) : addSproutJs c b (freeze j) (freeze p) (freeze s) = addSproutJs c b j p s := by
  unfold addSproutJs; simp only [fz_addVector, fz_iadd]

theorem fz_sproutJsAttrs (E : Env) (c : Bool) (l : List Val) (p s : Val) :
    sproutJsAttrs E c (l.map freeze) (freeze p) (freeze s) = (sproutJsAttrs E c l p s).map (List.map freeze) := by
  unfold sproutJsAttrs
  simp only [fz_hsigs]
  split
  · simp only [map_bind, map_ok', List.map_cons, List.map_nil, freeze, freezes_eq, map_freeze_bytes]
  · simp only [map_ok', List.map_cons, List.map_nil, freeze, freezes]

theorem fz_checkBalance (v s o b : Val) : checkBalance (freeze v) (freeze s) (freeze o) (freeze b) = checkBalance v s o b := by
  have e : ∀ v s o b, checkBalance v s o b = (do
      let ns ← s.len
      let no ← o.len
      if ns + no = 0 ∧ v.neBytes (List.replicate 8 0) then .error .valueError else if isNone b then .ok () else b.validate (some 64)) := by
    intro v s o b; cases b <;> rfl
  simp only [e, fz_isNone, fz_len, fz_neBytes, fz_validate]

theorem fz_addBinding (x : Bytes) (s o b : Val) : addBinding x (freeze s) (freeze o) (freeze b) = (addBinding x s o b).map fun p => (p.1, freeze p.2) := by
  unfold addBinding
  simp only [fz_len, fz_iadd, map_bind]
  congr 1; funext n; congr 1; funext m
  split
  · simp only [map_bind, map_ok']
  · simp only [map_ok', freeze]

theorem fz_firstTwo (v : Val) : firstTwo (freeze v) = (firstTwo v).map freeze := by
  cases v <;> simp only [freeze, firstTwo, Except.map, freezes_eq, List.map_take]

theorem fz_dcrPrefix (net : Network) (v i o l e : Val) :
    Dyn.dcrPrefix net (freeze v) (freeze i) (freeze o) (freeze l) (freeze e) = Dyn.dcrPrefix net v i o l e := by
  unfold Dyn.dcrPrefix; simp only [fz_firstTwo, bind_map, fz_iadd, fz_addVector]

theorem fz_keep (a b : Val) : keep (freeze a) (freeze b) = freeze (keep a b) := by cases a <;> simp only [freeze, keep]

/-! ### constructors -/

set_option linter.unusedSimpArgs false

theorem fz_outpoint (x1 x2 : Val) : Dyn.outpoint (freeze x1) (freeze x2) = (Dyn.outpoint x1 x2).map freeze := by
  unfold Dyn.outpoint
  simp only [fz_validate, fz_iadd, fz_iaddAll, fz_len, fz_iter, fz_add, fz_inst, fz_le2i, fz_allInstances, fz_neBytes, fz_checkFlag, fz_checkWitnesses, fz_noWitness, fz_addWitnesses, fz_addFlag, fz_checkVpub, fz_addVector, fz_checkJsSig, fz_addJs, fz_jsAttrs, fz_checkV1, fz_checkV2, fz_addSproutJs, fz_sproutJsAttrs, fz_checkBalance, fz_addBinding, fz_dcrPrefix, validateAll_cons, validateAll_nil, Val.iaddAll, bind_map, map_bind, map_ok', freeze, freezes, freezes_eq, List.map_append, List.map_cons, List.map_nil]

theorem fz_txIn (x1 x2 x3 x4 : Val) : Dyn.txIn (freeze x1) (freeze x2) (freeze x3) (freeze x4) = (Dyn.txIn x1 x2 x3 x4).map freeze := by
  unfold Dyn.txIn
  simp only [fz_validate, fz_iadd, fz_iaddAll, fz_len, fz_iter, fz_add, fz_inst, fz_le2i, fz_allInstances, fz_neBytes, fz_checkFlag, fz_checkWitnesses, fz_noWitness, fz_addWitnesses, fz_addFlag, fz_checkVpub, fz_addVector, fz_checkJsSig, fz_addJs, fz_jsAttrs, fz_checkV1, fz_checkV2, fz_addSproutJs, fz_sproutJsAttrs, fz_checkBalance, fz_addBinding, fz_dcrPrefix, validateAll_cons, validateAll_nil, Val.iaddAll, bind_map, map_bind, map_ok', freeze, freezes, freezes_eq, List.map_append, List.map_cons, List.map_nil]

theorem fz_txOut (x1 x2 : Val) : Dyn.txOut (freeze x1) (freeze x2) = (Dyn.txOut x1 x2).map freeze := by
  unfold Dyn.txOut
  simp only [fz_validate, fz_iadd, fz_iaddAll, fz_len, fz_iter, fz_add, fz_inst, fz_le2i, fz_allInstances, fz_neBytes, fz_checkFlag, fz_checkWitnesses, fz_noWitness, fz_addWitnesses, fz_addFlag, fz_checkVpub, fz_addVector, fz_checkJsSig, fz_addJs, fz_jsAttrs, fz_checkV1, fz_checkV2, fz_addSproutJs, fz_sproutJsAttrs, fz_checkBalance, fz_addBinding, fz_dcrPrefix, validateAll_cons, validateAll_nil, Val.iaddAll, bind_map, map_bind, map_ok', freeze, freezes, freezes_eq, List.map_append, List.map_cons, List.map_nil]

theorem fz_item (x1 : Val) : Dyn.item (freeze x1) = (Dyn.item x1).map freeze := by
  unfold Dyn.item
  simp only [fz_validate, fz_iadd, fz_iaddAll, fz_len, fz_iter, fz_add, fz_inst, fz_le2i, fz_allInstances, fz_neBytes, fz_checkFlag, fz_checkWitnesses, fz_noWitness, fz_addWitnesses, fz_addFlag, fz_checkVpub, fz_addVector, fz_checkJsSig, fz_addJs, fz_jsAttrs, fz_checkV1, fz_checkV2, fz_addSproutJs, fz_sproutJsAttrs, fz_checkBalance, fz_addBinding, fz_dcrPrefix, validateAll_cons, validateAll_nil, Val.iaddAll, bind_map, map_bind, map_ok', freeze, freezes, freezes_eq, List.map_append, List.map_cons, List.map_nil]

theorem fz_witness (x1 : Val) : Dyn.witness (freeze x1) = (Dyn.witness x1).map freeze := by
  unfold Dyn.witness
  simp only [fz_validate, fz_iadd, fz_iaddAll, fz_len, fz_iter, fz_add, fz_inst, fz_le2i, fz_allInstances, fz_neBytes, fz_checkFlag, fz_checkWitnesses, fz_noWitness, fz_addWitnesses, fz_addFlag, fz_checkVpub, fz_addVector, fz_checkJsSig, fz_addJs, fz_jsAttrs, fz_checkV1, fz_checkV2, fz_addSproutJs, fz_sproutJsAttrs, fz_checkBalance, fz_addBinding, fz_dcrPrefix, validateAll_cons, validateAll_nil, Val.iaddAll, bind_map, map_bind, map_ok', freeze, freezes, freezes_eq, List.map_append, List.map_cons, List.map_nil]

theorem tx_eq (E : Env) (version flag txIns txOuts txWitnesses lockTime : Val) : Dyn.tx E version flag txIns txOuts txWitnesses lockTime = (do
    version.validate (some 4)
    lockTime.validate (some 4)
    checkFlag E flag
    checkWitnesses flag txIns txWitnesses
    let ni ← txIns.len
    let no ← txOuts.len
    check (min ni no ≠ 0) .valueError
    txIns.allInstances .txIn
    txOuts.allInstances .txOut
    let self ← Val.iadd [] version
    let self ← addFlag self flag
    let vi ← VarInt.make (ni : Int)
    let ins ← txIns.iter
    let self ← Val.iaddAll (self ++ vi.bytes) ins
    let vo ← VarInt.make (no : Int)
    let outs ← txOuts.iter
    let self ← Val.iaddAll (self ++ vo.bytes) outs
    let q ← addWitnesses self txWitnesses
    let self ← Val.iadd q.1 lockTime
    if isNone flag then
      .ok (.obj .tx [version, .none, .tuple ins, .tuple outs, q.2, lockTime, .bytes (E.hash256 self), .none, .bytes (changeEndianness (E.hash256 self)), .none] self)
    else (do
      let nw ← noWitness version ins outs lockTime
      .ok (.obj .tx [version, flag, .tuple ins, .tuple outs, q.2, lockTime, .bytes (E.hash256 nw), .bytes (E.hash256 self), .bytes (changeEndianness (E.hash256 nw)),
        .bytes (changeEndianness (E.hash256 self))] self))) := by
  cases flag <;> rfl

theorem fz_tx (E : Env) (x1 x2 x3 x4 x5 x6 : Val) : Dyn.tx E (freeze x1) (freeze x2) (freeze x3) (freeze x4) (freeze x5) (freeze x6) = (Dyn.tx E x1 x2 x3 x4 x5 x6).map freeze := by
  rw [tx_eq, tx_eq]
  cases h : isNone x2
  · simp only [fz_isNone, h, Bool.false_eq_true, if_false, fz_validate, fz_iadd, fz_iaddAll, fz_len, fz_iter, fz_add, fz_inst, fz_le2i, fz_allInstances, fz_neBytes, fz_checkFlag, fz_checkWitnesses, fz_noWitness, fz_addWitnesses, fz_addFlag, fz_checkVpub, fz_addVector, fz_checkJsSig, fz_addJs, fz_jsAttrs, fz_checkV1, fz_checkV2, fz_addSproutJs, fz_sproutJsAttrs, fz_checkBalance, fz_addBinding, fz_dcrPrefix, validateAll_cons, validateAll_nil, Val.iaddAll, bind_map, map_bind, map_ok', freeze, freezes, freezes_eq, List.map_append, List.map_cons, List.map_nil]
  · simp only [fz_isNone, h, if_true, fz_validate, fz_iadd, fz_iaddAll, fz_len, fz_iter, fz_add, fz_inst, fz_le2i, fz_allInstances, fz_neBytes, fz_checkFlag, fz_checkWitnesses, fz_noWitness, fz_addWitnesses, fz_addFlag, fz_checkVpub, fz_addVector, fz_checkJsSig, fz_addJs, fz_jsAttrs, fz_checkV1, fz_checkV2, fz_addSproutJs, fz_sproutJsAttrs, fz_checkBalance, fz_addBinding, fz_dcrPrefix, validateAll_cons, validateAll_nil, Val.iaddAll, bind_map, map_bind, map_ok', freeze, freezes, freezes_eq, List.map_append, List.map_cons, List.map_nil]

theorem fz_sproutProof (E : Env) (x1 x2 x3 x4 x5 x6 x7 x8 : Val) : Dyn.sproutProof E.net (freeze x1) (freeze x2) (freeze x3) (freeze x4) (freeze x5) (freeze x6) (freeze x7) (freeze x8) = (Dyn.sproutProof E.net x1 x2 x3 x4 x5 x6 x7 x8).map freeze := by
  unfold Dyn.sproutProof
  simp only [fz_validate, fz_iadd, fz_iaddAll, fz_len, fz_iter, fz_add, fz_inst, fz_le2i, fz_allInstances, fz_neBytes, fz_checkFlag, fz_checkWitnesses, fz_noWitness, fz_addWitnesses, fz_addFlag, fz_checkVpub, fz_addVector, fz_checkJsSig, fz_addJs, fz_jsAttrs, fz_checkV1, fz_checkV2, fz_addSproutJs, fz_sproutJsAttrs, fz_checkBalance, fz_addBinding, fz_dcrPrefix, validateAll_cons, validateAll_nil, Val.iaddAll, bind_map, map_bind, map_ok', freeze, freezes, freezes_eq, List.map_append, List.map_cons, List.map_nil]

theorem fz_saplingProof (E : Env) (x1 x2 x3 : Val) : Dyn.saplingProof E.net (freeze x1) (freeze x2) (freeze x3) = (Dyn.saplingProof E.net x1 x2 x3).map freeze := by
  unfold Dyn.saplingProof
  simp only [fz_validate, fz_iadd, fz_iaddAll, fz_len, fz_iter, fz_add, fz_inst, fz_le2i, fz_allInstances, fz_neBytes, fz_checkFlag, fz_checkWitnesses, fz_noWitness, fz_addWitnesses, fz_addFlag, fz_checkVpub, fz_addVector, fz_checkJsSig, fz_addJs, fz_jsAttrs, fz_checkV1, fz_checkV2, fz_addSproutJs, fz_sproutJsAttrs, fz_checkBalance, fz_addBinding, fz_dcrPrefix, validateAll_cons, validateAll_nil, Val.iaddAll, bind_map, map_bind, map_ok', freeze, freezes, freezes_eq, List.map_append, List.map_cons, List.map_nil]

theorem fz_sproutJs (E : Env) (x1 x2 x3 x4 x5 x6 x7 x8 x9 x10 : Val) : Dyn.sproutJs E.net (freeze x1) (freeze x2) (freeze x3) (freeze x4) (freeze x5) (freeze x6) (freeze x7) (freeze x8) (freeze x9) (freeze x10) = (Dyn.sproutJs E.net x1 x2 x3 x4 x5 x6 x7 x8 x9 x10).map freeze := by
  unfold Dyn.sproutJs Dyn.joinsplit
  simp only [fz_validate, fz_iadd, fz_iaddAll, fz_len, fz_iter, fz_add, fz_inst, fz_le2i, fz_allInstances, fz_neBytes, fz_checkFlag, fz_checkWitnesses, fz_noWitness, fz_addWitnesses, fz_addFlag, fz_checkVpub, fz_addVector, fz_checkJsSig, fz_addJs, fz_jsAttrs, fz_checkV1, fz_checkV2, fz_addSproutJs, fz_sproutJsAttrs, fz_checkBalance, fz_addBinding, fz_dcrPrefix, validateAll_cons, validateAll_nil, Val.iaddAll, bind_map, map_bind, map_ok', freeze, freezes, freezes_eq, List.map_append, List.map_cons, List.map_nil]

theorem fz_saplingJs (E : Env) (x1 x2 x3 x4 x5 x6 x7 x8 x9 x10 : Val) : Dyn.saplingJs E.net (freeze x1) (freeze x2) (freeze x3) (freeze x4) (freeze x5) (freeze x6) (freeze x7) (freeze x8) (freeze x9) (freeze x10) = (Dyn.saplingJs E.net x1 x2 x3 x4 x5 x6 x7 x8 x9 x10).map freeze := by
  unfold Dyn.saplingJs Dyn.joinsplit
  simp only [fz_validate, fz_iadd, fz_iaddAll, fz_len, fz_iter, fz_add, fz_inst, fz_le2i, fz_allInstances, fz_neBytes, fz_checkFlag, fz_checkWitnesses, fz_noWitness, fz_addWitnesses, fz_addFlag, fz_checkVpub, fz_addVector, fz_checkJsSig, fz_addJs, fz_jsAttrs, fz_checkV1, fz_checkV2, fz_addSproutJs, fz_sproutJsAttrs, fz_checkBalance, fz_addBinding, fz_dcrPrefix, validateAll_cons, validateAll_nil, Val.iaddAll, bind_map, map_bind, map_ok', freeze, freezes, freezes_eq, List.map_append, List.map_cons, List.map_nil]

theorem fz_saplingSpend (E : Env) (x1 x2 x3 x4 x5 x6 : Val) : Dyn.saplingSpend E.net (freeze x1) (freeze x2) (freeze x3) (freeze x4) (freeze x5) (freeze x6) = (Dyn.saplingSpend E.net x1 x2 x3 x4 x5 x6).map freeze := by
  unfold Dyn.saplingSpend
  simp only [fz_validate, fz_iadd, fz_iaddAll, fz_len, fz_iter, fz_add, fz_inst, fz_le2i, fz_allInstances, fz_neBytes, fz_checkFlag, fz_checkWitnesses, fz_noWitness, fz_addWitnesses, fz_addFlag, fz_checkVpub, fz_addVector, fz_checkJsSig, fz_addJs, fz_jsAttrs, fz_checkV1, fz_checkV2, fz_addSproutJs, fz_sproutJsAttrs, fz_checkBalance, fz_addBinding, fz_dcrPrefix, validateAll_cons, validateAll_nil, Val.iaddAll, bind_map, map_bind, map_ok', freeze, freezes, freezes_eq, List.map_append, List.map_cons, List.map_nil]

theorem fz_saplingOutput (E : Env) (x1 x2 x3 x4 x5 x6 : Val) : Dyn.saplingOutput E.net (freeze x1) (freeze x2) (freeze x3) (freeze x4) (freeze x5) (freeze x6) = (Dyn.saplingOutput E.net x1 x2 x3 x4 x5 x6).map freeze := by
  unfold Dyn.saplingOutput
  simp only [fz_validate, fz_iadd, fz_iaddAll, fz_len, fz_iter, fz_add, fz_inst, fz_le2i, fz_allInstances, fz_neBytes, fz_checkFlag, fz_checkWitnesses, fz_noWitness, fz_addWitnesses, fz_addFlag, fz_checkVpub, fz_addVector, fz_checkJsSig, fz_addJs, fz_jsAttrs, fz_checkV1, fz_checkV2, fz_addSproutJs, fz_sproutJsAttrs, fz_checkBalance, fz_addBinding, fz_dcrPrefix, validateAll_cons, validateAll_nil, Val.iaddAll, bind_map, map_bind, map_ok', freeze, freezes, freezes_eq, List.map_append, List.map_cons, List.map_nil]

theorem fz_sproutTx (E : Env) (x1 x2 x3 x4 x5 x6 x7 : Val) : Dyn.sproutTx E (freeze x1) (freeze x2) (freeze x3) (freeze x4) (freeze x5) (freeze x6) (freeze x7) = (Dyn.sproutTx E x1 x2 x3 x4 x5 x6 x7).map freeze := by
  unfold Dyn.sproutTx
  simp only [fz_validate, fz_iadd, fz_iaddAll, fz_len, fz_iter, fz_add, fz_inst, fz_le2i, fz_allInstances, fz_neBytes, fz_checkFlag, fz_checkWitnesses, fz_noWitness, fz_addWitnesses, fz_addFlag, fz_checkVpub, fz_addVector, fz_checkJsSig, fz_addJs, fz_jsAttrs, fz_checkV1, fz_checkV2, fz_addSproutJs, fz_sproutJsAttrs, fz_checkBalance, fz_addBinding, fz_dcrPrefix, validateAll_cons, validateAll_nil, Val.iaddAll, bind_map, map_bind, map_ok', freeze, freezes, freezes_eq, List.map_append, List.map_cons, List.map_nil]

theorem fz_overwinterTx (E : Env) (x1 x2 x3 x4 x5 x6 x7 : Val) : Dyn.overwinterTx E (freeze x1) (freeze x2) (freeze x3) (freeze x4) (freeze x5) (freeze x6) (freeze x7) = (Dyn.overwinterTx E x1 x2 x3 x4 x5 x6 x7).map freeze := by
  unfold Dyn.overwinterTx
  simp only [fz_validate, fz_iadd, fz_iaddAll, fz_len, fz_iter, fz_add, fz_inst, fz_le2i, fz_allInstances, fz_neBytes, fz_checkFlag, fz_checkWitnesses, fz_noWitness, fz_addWitnesses, fz_addFlag, fz_checkVpub, fz_addVector, fz_checkJsSig, fz_addJs, fz_jsAttrs, fz_checkV1, fz_checkV2, fz_addSproutJs, fz_sproutJsAttrs, fz_checkBalance, fz_addBinding, fz_dcrPrefix, validateAll_cons, validateAll_nil, Val.iaddAll, bind_map, map_bind, map_ok', freeze, freezes, freezes_eq, List.map_append, List.map_cons, List.map_nil]

theorem fz_saplingTx (E : Env) (x1 x2 x3 x4 x5 x6 x7 x8 x9 x10 x11 : Val) : Dyn.saplingTx E (freeze x1) (freeze x2) (freeze x3) (freeze x4) (freeze x5) (freeze x6) (freeze x7) (freeze x8) (freeze x9) (freeze x10) (freeze x11) = (Dyn.saplingTx E x1 x2 x3 x4 x5 x6 x7 x8 x9 x10 x11).map freeze := by
  unfold Dyn.saplingTx
  simp only [fz_validate, fz_iadd, fz_iaddAll, fz_len, fz_iter, fz_add, fz_inst, fz_le2i, fz_allInstances, fz_neBytes, fz_checkFlag, fz_checkWitnesses, fz_noWitness, fz_addWitnesses, fz_addFlag, fz_checkVpub, fz_addVector, fz_checkJsSig, fz_addJs, fz_jsAttrs, fz_checkV1, fz_checkV2, fz_addSproutJs, fz_sproutJsAttrs, fz_checkBalance, fz_addBinding, fz_dcrPrefix, validateAll_cons, validateAll_nil, Val.iaddAll, bind_map, map_bind, map_ok', freeze, freezes, freezes_eq, List.map_append, List.map_cons, List.map_nil]

theorem fz_dcrOutpoint (E : Env) (x1 x2 x3 : Val) : Dyn.dcrOutpoint E.net (freeze x1) (freeze x2) (freeze x3) = (Dyn.dcrOutpoint E.net x1 x2 x3).map freeze := by
  unfold Dyn.dcrOutpoint
  simp only [fz_validate, fz_iadd, fz_iaddAll, fz_len, fz_iter, fz_add, fz_inst, fz_le2i, fz_allInstances, fz_neBytes, fz_checkFlag, fz_checkWitnesses, fz_noWitness, fz_addWitnesses, fz_addFlag, fz_checkVpub, fz_addVector, fz_checkJsSig, fz_addJs, fz_jsAttrs, fz_checkV1, fz_checkV2, fz_addSproutJs, fz_sproutJsAttrs, fz_checkBalance, fz_addBinding, fz_dcrPrefix, validateAll_cons, validateAll_nil, Val.iaddAll, bind_map, map_bind, map_ok', freeze, freezes, freezes_eq, List.map_append, List.map_cons, List.map_nil]

theorem fz_dcrTxIn (E : Env) (x1 x2 : Val) : Dyn.dcrTxIn E.net (freeze x1) (freeze x2) = (Dyn.dcrTxIn E.net x1 x2).map freeze := by
  unfold Dyn.dcrTxIn
  simp only [fz_validate, fz_iadd, fz_iaddAll, fz_len, fz_iter, fz_add, fz_inst, fz_le2i, fz_allInstances, fz_neBytes, fz_checkFlag, fz_checkWitnesses, fz_noWitness, fz_addWitnesses, fz_addFlag, fz_checkVpub, fz_addVector, fz_checkJsSig, fz_addJs, fz_jsAttrs, fz_checkV1, fz_checkV2, fz_addSproutJs, fz_sproutJsAttrs, fz_checkBalance, fz_addBinding, fz_dcrPrefix, validateAll_cons, validateAll_nil, Val.iaddAll, bind_map, map_bind, map_ok', freeze, freezes, freezes_eq, List.map_append, List.map_cons, List.map_nil]

theorem fz_dcrTxOut (E : Env) (x1 x2 x3 : Val) : Dyn.dcrTxOut E.net (freeze x1) (freeze x2) (freeze x3) = (Dyn.dcrTxOut E.net x1 x2 x3).map freeze := by
  unfold Dyn.dcrTxOut
  simp only [fz_validate, fz_iadd, fz_iaddAll, fz_len, fz_iter, fz_add, fz_inst, fz_le2i, fz_allInstances, fz_neBytes, fz_checkFlag, fz_checkWitnesses, fz_noWitness, fz_addWitnesses, fz_addFlag, fz_checkVpub, fz_addVector, fz_checkJsSig, fz_addJs, fz_jsAttrs, fz_checkV1, fz_checkV2, fz_addSproutJs, fz_sproutJsAttrs, fz_checkBalance, fz_addBinding, fz_dcrPrefix, validateAll_cons, validateAll_nil, Val.iaddAll, bind_map, map_bind, map_ok', freeze, freezes, freezes_eq, List.map_append, List.map_cons, List.map_nil]

theorem fz_dcrWitness (E : Env) (x1 x2 x3 x4 x5 : Val) : Dyn.dcrWitness E.net (freeze x1) (freeze x2) (freeze x3) (freeze x4) (freeze x5) = (Dyn.dcrWitness E.net x1 x2 x3 x4 x5).map freeze := by
  unfold Dyn.dcrWitness
  simp only [fz_validate, fz_iadd, fz_iaddAll, fz_len, fz_iter, fz_add, fz_inst, fz_le2i, fz_allInstances, fz_neBytes, fz_checkFlag, fz_checkWitnesses, fz_noWitness, fz_addWitnesses, fz_addFlag, fz_checkVpub, fz_addVector, fz_checkJsSig, fz_addJs, fz_jsAttrs, fz_checkV1, fz_checkV2, fz_addSproutJs, fz_sproutJsAttrs, fz_checkBalance, fz_addBinding, fz_dcrPrefix, validateAll_cons, validateAll_nil, Val.iaddAll, bind_map, map_bind, map_ok', freeze, freezes, freezes_eq, List.map_append, List.map_cons, List.map_nil]

theorem fz_dcrTx (E : Env) (x1 x2 x3 x4 x5 x6 : Val) : Dyn.dcrTx E.net (freeze x1) (freeze x2) (freeze x3) (freeze x4) (freeze x5) (freeze x6) = (Dyn.dcrTx E.net x1 x2 x3 x4 x5 x6).map freeze := by
  unfold Dyn.dcrTx
  simp only [fz_validate, fz_iadd, fz_iaddAll, fz_len, fz_iter, fz_add, fz_inst, fz_le2i, fz_allInstances, fz_neBytes, fz_checkFlag, fz_checkWitnesses, fz_noWitness, fz_addWitnesses, fz_addFlag, fz_checkVpub, fz_addVector, fz_checkJsSig, fz_addJs, fz_jsAttrs, fz_checkV1, fz_checkV2, fz_addSproutJs, fz_sproutJsAttrs, fz_checkBalance, fz_addBinding, fz_dcrPrefix, validateAll_cons, validateAll_nil, Val.iaddAll, bind_map, map_bind, map_ok', freeze, freezes, freezes_eq, List.map_append, List.map_cons, List.map_nil]

/-! ### C119 -/

/-- C119: every constructor reads a bytearray as bytes, at any depth of its arguments: with all bytearrays replaced by bytes in the arguments, the exception is the same, or the
object is the same with all bytearrays in it replaced. -/
theorem C119_constructors (E : Env) :
    (∀ x1 x2, Dyn.outpoint (freeze x1) (freeze x2) = (Dyn.outpoint x1 x2).map freeze) ∧
    (∀ x1 x2 x3 x4, Dyn.txIn (freeze x1) (freeze x2) (freeze x3) (freeze x4) = (Dyn.txIn x1 x2 x3 x4).map freeze) ∧
    (∀ x1 x2, Dyn.txOut (freeze x1) (freeze x2) = (Dyn.txOut x1 x2).map freeze) ∧
    (∀ x1, Dyn.item (freeze x1) = (Dyn.item x1).map freeze) ∧
    (∀ x1, Dyn.witness (freeze x1) = (Dyn.witness x1).map freeze) ∧
    (∀ x1 x2 x3 x4 x5 x6, Dyn.tx E (freeze x1) (freeze x2) (freeze x3) (freeze x4) (freeze x5) (freeze x6) = (Dyn.tx E x1 x2 x3 x4 x5 x6).map freeze) ∧
    (∀ x1 x2 x3 x4 x5 x6 x7 x8, Dyn.sproutProof E.net (freeze x1) (freeze x2) (freeze x3) (freeze x4) (freeze x5) (freeze x6) (freeze x7) (freeze x8) = (Dyn.sproutProof E.net x1 x2 x3 x4 x5 x6 x7 x8).map freeze) ∧
    (∀ x1 x2 x3, Dyn.saplingProof E.net (freeze x1) (freeze x2) (freeze x3) = (Dyn.saplingProof E.net x1 x2 x3).map freeze) ∧
    (∀ x1 x2 x3 x4 x5 x6 x7 x8 x9 x10, Dyn.sproutJs E.net (freeze x1) (freeze x2) (freeze x3) (freeze x4) (freeze x5) (freeze x6) (freeze x7) (freeze x8) (freeze x9) (freeze x10) = (Dyn.sproutJs E.net x1 x2 x3 x4 x5 x6 x7 x8 x9 x10).map freeze) ∧
    (∀ x1 x2 x3 x4 x5 x6 x7 x8 x9 x10, Dyn.saplingJs E.net (freeze x1) (freeze x2) (freeze x3) (freeze x4) (freeze x5) (freeze x6) (freeze x7) (freeze x8) (freeze x9) (freeze x10) = (Dyn.saplingJs E.net x1 x2 x3 x4 x5 x6 x7 x8 x9 x10).map freeze) ∧
    (∀ x1 x2 x3 x4 x5 x6, Dyn.saplingSpend E.net (freeze x1) (freeze x2) (freeze x3) (freeze x4) (freeze x5) (freeze x6) = (Dyn.saplingSpend E.net x1 x2 x3 x4 x5 x6).map freeze) ∧
    (∀ x1 x2 x3 x4 x5 x6, Dyn.saplingOutput E.net (freeze x1) (freeze x2) (freeze x3) (freeze x4) (freeze x5) (freeze x6) = (Dyn.saplingOutput E.net x1 x2 x3 x4 x5 x6).map freeze) ∧
    (∀ x1 x2 x3 x4 x5 x6 x7, Dyn.sproutTx E (freeze x1) (freeze x2) (freeze x3) (freeze x4) (freeze x5) (freeze x6) (freeze x7) = (Dyn.sproutTx E x1 x2 x3 x4 x5 x6 x7).map freeze) ∧
    (∀ x1 x2 x3 x4 x5 x6 x7, Dyn.overwinterTx E (freeze x1) (freeze x2) (freeze x3) (freeze x4) (freeze x5) (freeze x6) (freeze x7) = (Dyn.overwinterTx E x1 x2 x3 x4 x5 x6 x7).map freeze) ∧
    (∀ x1 x2 x3 x4 x5 x6 x7 x8 x9 x10 x11, Dyn.saplingTx E (freeze x1) (freeze x2) (freeze x3) (freeze x4) (freeze x5) (freeze x6) (freeze x7) (freeze x8) (freeze x9) (freeze x10) (freeze x11) = (Dyn.saplingTx E x1 x2 x3 x4 x5 x6 x7 x8 x9 x10 x11).map freeze) ∧
    (∀ x1 x2 x3, Dyn.dcrOutpoint E.net (freeze x1) (freeze x2) (freeze x3) = (Dyn.dcrOutpoint E.net x1 x2 x3).map freeze) ∧
    (∀ x1 x2, Dyn.dcrTxIn E.net (freeze x1) (freeze x2) = (Dyn.dcrTxIn E.net x1 x2).map freeze) ∧
    (∀ x1 x2 x3, Dyn.dcrTxOut E.net (freeze x1) (freeze x2) (freeze x3) = (Dyn.dcrTxOut E.net x1 x2 x3).map freeze) ∧
    (∀ x1 x2 x3 x4 x5, Dyn.dcrWitness E.net (freeze x1) (freeze x2) (freeze x3) (freeze x4) (freeze x5) = (Dyn.dcrWitness E.net x1 x2 x3 x4 x5).map freeze) ∧
    (∀ x1 x2 x3 x4 x5 x6, Dyn.dcrTx E.net (freeze x1) (freeze x2) (freeze x3) (freeze x4) (freeze x5) (freeze x6) = (Dyn.dcrTx E.net x1 x2 x3 x4 x5 x6).map freeze) :=
  ⟨fz_outpoint, fz_txIn, fz_txOut, fz_item, fz_witness, fz_tx E, fz_sproutProof E, fz_saplingProof E, fz_sproutJs E, fz_saplingJs E, fz_saplingSpend E, fz_saplingOutput E, fz_sproutTx E, fz_overwinterTx E, fz_saplingTx E, fz_dcrOutpoint E, fz_dcrTxIn E, fz_dcrTxOut E, fz_dcrWitness E, fz_dcrTx E⟩

/-- C119 for the copies. -/
theorem C119_copy (E : Env) :
    (∀ v x1 x2, copyOutpoint (freeze v) (freeze x1) (freeze x2) = (copyOutpoint v x1 x2).map freeze) ∧
    (∀ v x1 x2 x3 x4, copyTxIn (freeze v) (freeze x1) (freeze x2) (freeze x3) (freeze x4) = (copyTxIn v x1 x2 x3 x4).map freeze) ∧
    (∀ v x1 x2, copyTxOut (freeze v) (freeze x1) (freeze x2) = (copyTxOut v x1 x2).map freeze) ∧
    (∀ v x1, copyWitness (freeze v) (freeze x1) = (copyWitness v x1).map freeze) ∧
    (∀ v x1 x2 x3 x4 x5 x6, copyTx E (freeze v) (freeze x1) (freeze x2) (freeze x3) (freeze x4) (freeze x5) (freeze x6) = (copyTx E v x1 x2 x3 x4 x5 x6).map freeze) ∧
    (∀ v x1 x2 x3, copyDcrOutpoint E.net (freeze v) (freeze x1) (freeze x2) (freeze x3) = (copyDcrOutpoint E.net v x1 x2 x3).map freeze) ∧
    (∀ v x1 x2, copyDcrTxIn E.net (freeze v) (freeze x1) (freeze x2) = (copyDcrTxIn E.net v x1 x2).map freeze) ∧
    (∀ v x1 x2 x3, copyDcrTxOut E.net (freeze v) (freeze x1) (freeze x2) (freeze x3) = (copyDcrTxOut E.net v x1 x2 x3).map freeze) ∧
    (∀ v x1 x2 x3 x4 x5, copyDcrWitness E.net (freeze v) (freeze x1) (freeze x2) (freeze x3) (freeze x4) (freeze x5) = (copyDcrWitness E.net v x1 x2 x3 x4 x5).map freeze) ∧
    (∀ v x1 x2 x3 x4 x5 x6, copyDcrTx E.net (freeze v) (freeze x1) (freeze x2) (freeze x3) (freeze x4) (freeze x5) (freeze x6) = (copyDcrTx E.net v x1 x2 x3 x4 x5 x6).map freeze) ∧
    (∀ v x1 x2 x3 x4 x5 x6 x7, copySprout E (freeze v) (freeze x1) (freeze x2) (freeze x3) (freeze x4) (freeze x5) (freeze x6) (freeze x7) = (copySprout E v x1 x2 x3 x4 x5 x6 x7).map freeze) ∧
    (∀ v x1 x2 x3 x4 x5 x6 x7, copyOverwinter E (freeze v) (freeze x1) (freeze x2) (freeze x3) (freeze x4) (freeze x5) (freeze x6) (freeze x7) = (copyOverwinter E v x1 x2 x3 x4 x5 x6 x7).map freeze) ∧
    (∀ v x1 x2 x3 x4 x5 x6 x7 x8 x9 x10 x11, copySapling E (freeze v) (freeze x1) (freeze x2) (freeze x3) (freeze x4) (freeze x5) (freeze x6) (freeze x7) (freeze x8) (freeze x9) (freeze x10) (freeze x11) = (copySapling E v x1 x2 x3 x4 x5 x6 x7 x8 x9 x10 x11).map freeze) := by
  refine ⟨?_, ?_, ?_, ?_, ?_, ?_, ?_, ?_, ?_, ?_, ?_, ?_, ?_⟩
  · intro v x1 x2
    unfold copyOutpoint
    cases v with
    | obj c l b =>
      cases c
      case outpoint =>
        rcases l with _ | ⟨a0, _ | ⟨a1, _ | ⟨z, l⟩⟩⟩
        any_goals simp only [freeze, freezes, map_err]
        simp only [fz_keep, fz_outpoint]
      all_goals simp only [freeze, map_err]
    | _ => simp only [freeze, map_err]
  · intro v x1 x2 x3 x4
    unfold copyTxIn
    cases v with
    | obj c l b =>
      cases c
      case txIn =>
        rcases l with _ | ⟨a0, _ | ⟨a1, _ | ⟨a2, _ | ⟨a3, _ | ⟨a4, _ | ⟨z, l⟩⟩⟩⟩⟩⟩
        any_goals simp only [freeze, freezes, map_err]
        simp only [fz_keep, fz_txIn]
      all_goals simp only [freeze, map_err]
    | _ => simp only [freeze, map_err]
  · intro v x1 x2
    unfold copyTxOut
    cases v with
    | obj c l b =>
      cases c
      case txOut =>
        rcases l with _ | ⟨a0, _ | ⟨a1, _ | ⟨z, l⟩⟩⟩
        any_goals simp only [freeze, freezes, map_err]
        simp only [fz_keep, fz_txOut]
      all_goals simp only [freeze, map_err]
    | _ => simp only [freeze, map_err]
  · intro v x1
    unfold copyWitness
    cases v with
    | obj c l b =>
      cases c
      case witness =>
        rcases l with _ | ⟨a0, _ | ⟨z, l⟩⟩
        any_goals simp only [freeze, freezes, map_err]
        simp only [fz_keep, fz_witness]
      all_goals simp only [freeze, map_err]
    | _ => simp only [freeze, map_err]
  · intro v x1 x2 x3 x4 x5 x6
    unfold copyTx
    cases v with
    | obj c l b =>
      cases c
      case tx =>
        rcases l with _ | ⟨a0, _ | ⟨a1, _ | ⟨a2, _ | ⟨a3, _ | ⟨a4, _ | ⟨a5, _ | ⟨a6, _ | ⟨a7, _ | ⟨a8, _ | ⟨a9, _ | ⟨z, l⟩⟩⟩⟩⟩⟩⟩⟩⟩⟩⟩
        any_goals simp only [freeze, freezes, map_err]
        simp only [fz_keep, fz_tx]
      all_goals simp only [freeze, map_err]
    | _ => simp only [freeze, map_err]
  · intro v x1 x2 x3
    unfold copyDcrOutpoint
    cases v with
    | obj c l b =>
      cases c
      case dcrOutpoint =>
        rcases l with _ | ⟨a0, _ | ⟨a1, _ | ⟨a2, _ | ⟨z, l⟩⟩⟩⟩
        any_goals simp only [freeze, freezes, map_err]
        simp only [fz_keep, fz_dcrOutpoint]
      all_goals simp only [freeze, map_err]
    | _ => simp only [freeze, map_err]
  · intro v x1 x2
    unfold copyDcrTxIn
    cases v with
    | obj c l b =>
      cases c
      case dcrTxIn =>
        rcases l with _ | ⟨a0, _ | ⟨a1, _ | ⟨z, l⟩⟩⟩
        any_goals simp only [freeze, freezes, map_err]
        simp only [fz_keep, fz_dcrTxIn]
      all_goals simp only [freeze, map_err]
    | _ => simp only [freeze, map_err]
  · intro v x1 x2 x3
    unfold copyDcrTxOut
    cases v with
    | obj c l b =>
      cases c
      case dcrTxOut =>
        rcases l with _ | ⟨a0, _ | ⟨a1, _ | ⟨a2, _ | ⟨a3, _ | ⟨z, l⟩⟩⟩⟩⟩
        any_goals simp only [freeze, freezes, map_err]
        simp only [fz_keep, fz_dcrTxOut]
      all_goals simp only [freeze, map_err]
    | _ => simp only [freeze, map_err]
  · intro v x1 x2 x3 x4 x5
    unfold copyDcrWitness
    cases v with
    | obj c l b =>
      cases c
      case dcrWitness =>
        rcases l with _ | ⟨a0, _ | ⟨a1, _ | ⟨a2, _ | ⟨a3, _ | ⟨a4, _ | ⟨a5, _ | ⟨a6, _ | ⟨z, l⟩⟩⟩⟩⟩⟩⟩⟩
        any_goals simp only [freeze, freezes, map_err]
        simp only [fz_keep, fz_dcrWitness]
      all_goals simp only [freeze, map_err]
    | _ => simp only [freeze, map_err]
  · intro v x1 x2 x3 x4 x5 x6
    unfold copyDcrTx
    cases v with
    | obj c l b =>
      cases c
      case dcrTx =>
        rcases l with _ | ⟨a0, _ | ⟨a1, _ | ⟨a2, _ | ⟨a3, _ | ⟨a4, _ | ⟨a5, _ | ⟨a6, _ | ⟨a7, _ | ⟨z, l⟩⟩⟩⟩⟩⟩⟩⟩⟩
        any_goals simp only [freeze, freezes, map_err]
        simp only [fz_keep, fz_dcrTx]
      all_goals simp only [freeze, map_err]
    | _ => simp only [freeze, map_err]
  · intro v x1 x2 x3 x4 x5 x6 x7
    unfold copySprout
    cases v with
    | obj c l b =>
      cases c
      case sproutTx =>
        rcases l with _ | ⟨a0, _ | ⟨a1, _ | ⟨a2, _ | ⟨a3, _ | ⟨a4, _ | ⟨a5, _ | ⟨a6, _ | ⟨a7, _ | ⟨a8, _ | ⟨a9, _ | ⟨a10, _ | ⟨z, l⟩⟩⟩⟩⟩⟩⟩⟩⟩⟩⟩⟩
        any_goals simp only [freeze, freezes, map_err]
        simp only [fz_keep, fz_sproutTx]
      all_goals simp only [freeze, map_err]
    | _ => simp only [freeze, map_err]
  · intro v x1 x2 x3 x4 x5 x6 x7
    unfold copyOverwinter
    cases v with
    | obj c l b =>
      cases c
      case overwinterTx =>
        rcases l with _ | ⟨a0, _ | ⟨a1, _ | ⟨a2, _ | ⟨a3, _ | ⟨a4, _ | ⟨a5, _ | ⟨a6, _ | ⟨a7, _ | ⟨a8, _ | ⟨a9, _ | ⟨a10, _ | ⟨z, l⟩⟩⟩⟩⟩⟩⟩⟩⟩⟩⟩⟩
        any_goals simp only [freeze, freezes, map_err]
        simp only [fz_keep, fz_overwinterTx]
      all_goals simp only [freeze, map_err]
    | _ => simp only [freeze, map_err]
  · intro v x1 x2 x3 x4 x5 x6 x7 x8 x9 x10 x11
    unfold copySapling
    cases v with
    | obj c l b =>
      cases c
      case saplingTx =>
        rcases l with _ | ⟨a0, _ | ⟨a1, _ | ⟨a2, _ | ⟨a3, _ | ⟨a4, _ | ⟨a5, _ | ⟨a6, _ | ⟨a7, _ | ⟨a8, _ | ⟨a9, _ | ⟨a10, _ | ⟨a11, _ | ⟨a12, _ | ⟨a13, _ | ⟨a14, _ | ⟨z, l⟩⟩⟩⟩⟩⟩⟩⟩⟩⟩⟩⟩⟩⟩⟩⟩
        any_goals simp only [freeze, freezes, map_err]
        simp only [fz_keep, fz_saplingTx]
      all_goals simp only [freeze, map_err]
    | _ => simp only [freeze, map_err]

/-- An outpoint made of a bytearray and bytes, the same made of bytes, and a witness with an item made of a bytearray. -/
example : Dyn.outpoint (.bytearray (List.replicate 32 1)) (.bytes [1, 0, 0, 0]) =
      .ok (.obj .outpoint [.bytearray (List.replicate 32 1), .bytes [1, 0, 0, 0]] (List.replicate 32 1 ++ [1, 0, 0, 0])) ∧
    Dyn.outpoint (.bytes (List.replicate 32 1)) (.bytes [1, 0, 0, 0]) =
      .ok (.obj .outpoint [.bytes (List.replicate 32 1), .bytes [1, 0, 0, 0]] (List.replicate 32 1 ++ [1, 0, 0, 0])) ∧
    (do let i ← Dyn.item (.bytearray [7]); Dyn.witness (.list [i])) = .ok (.obj .witness [.tuple [.obj .item [.bytearray [7]] [1, 7]]] [1, 1, 7]) := ⟨rfl, rfl, rfl⟩

end Verif.Props
