import Verif.Spec.Interp
import Verif.Spec.Address

/-! Facts about the script interpreter of `Spec/Interp`. -/

namespace Verif

open Spec

theorem takePush_length {n : Nat} {q r : Bytes} {i : ScriptItem} (h : takePush n q = some (i, r)) : r.length ≤ q.length := by
  unfold takePush at h
  split at h
  · cases h
  · cases h; simp only [List.length_drop]; omega

theorem nextItem_length {s r : Bytes} {i : ScriptItem} (h : nextItem s = some (i, r)) : r.length < s.length := by
  unfold nextItem at h
  split at h
  · cases h
  · simp only [List.length_cons]
    split at h
    · have := takePush_length h; omega
    split at h
    · split at h
      · have := takePush_length h; simp only [List.length_cons]; omega
      · cases h
    split at h
    · split at h
      · have := takePush_length h; simp only [List.length_cons]; omega
      · cases h
    split at h
    · split at h
      · have := takePush_length h; simp only [List.length_cons]; omega
      · cases h
    · cases h; omega

theorem nextItem_append {s r : Bytes} {i : ScriptItem} (h : nextItem s = some (i, r)) (y : Bytes) : nextItem (s ++ y) = some (i, r ++ y) := by
  have key : ∀ (n : Nat) (q : Bytes), takePush n q = some (i, r) → takePush n (q ++ y) = some (i, r ++ y) := by
    intro n q hq
    unfold takePush at hq ⊢
    split at hq
    · cases hq
    · rename_i hn
      cases hq
      rw [if_neg (by rw [List.length_append]; omega), List.take_append_of_le_length (by omega), List.drop_append_of_le_length (by omega)]
  unfold nextItem at h ⊢
  match s with
  | [] => simp at h
  | b :: rest =>
    simp only [List.cons_append] at h ⊢
    by_cases c1 : 1 ≤ b.toNat ∧ b.toNat ≤ 75
    · rw [if_pos c1] at h ⊢; exact key _ _ h
    rw [if_neg c1] at h ⊢
    by_cases c2 : b.toNat = 76
    · rw [if_pos c2] at h ⊢
      match rest with
      | [] => cases h
      | l :: q => exact key _ _ h
    rw [if_neg c2] at h ⊢
    by_cases c3 : b.toNat = 77
    · rw [if_pos c3] at h ⊢
      match rest with
      | [] => cases h
      | [_] => cases h
      | l :: m :: q => exact key _ _ h
    rw [if_neg c3] at h ⊢
    by_cases c4 : b.toNat = 78
    · rw [if_pos c4] at h ⊢
      match rest with
      | [] => cases h
      | [_] => cases h
      | [_, _] => cases h
      | [_, _, _] => cases h
      | l :: m :: n :: o :: q => exact key _ _ h
    rw [if_neg c4] at h ⊢
    cases h
    rfl

theorem parseItems_fuel : ∀ (f g : Nat) (s : Bytes), s.length ≤ f → s.length ≤ g → parseItems f s = parseItems g s := by
  intro f
  induction f with
  | zero =>
    intro g s hf hg
    match s with
    | [] => cases g <;> rfl
    | _ :: _ => simp at hf
  | succ f ih =>
    intro g s hf hg
    match s with
    | [] => cases g <;> rfl
    | b :: rest =>
      match g with
      | 0 => simp at hg
      | g + 1 =>
        unfold parseItems
        cases hn : nextItem (b :: rest) with
        | none => rfl
        | some p =>
          have := nextItem_length hn
          simp only [List.length_cons] at this hf hg
          simp only []
          rw [ih g p.2 (by omega) (by omega)]

theorem scriptItems_nil : scriptItems [] = some [] := rfl

theorem scriptItems_next {s r : Bytes} {i : ScriptItem} (h : nextItem s = some (i, r)) : scriptItems s = (scriptItems r).map (i :: ·) := by
  have hl := nextItem_length h
  unfold scriptItems
  match s with
  | [] => simp at hl
  | b :: rest =>
    rw [List.length_cons, parseItems, h]
    simp only [List.length_cons] at hl
    simp only []
    rw [parseItems_fuel rest.length r.length r (by omega) (by omega)]

theorem scriptItems_none {b : UInt8} {rest : Bytes} (h : nextItem (b :: rest) = none) : scriptItems (b :: rest) = none := by
  unfold scriptItems
  rw [List.length_cons, parseItems, h]

theorem scriptItems_append {y : Bytes} : ∀ (n : Nat) (x : Bytes) (is : List ScriptItem), x.length ≤ n → scriptItems x = some is →
    scriptItems (x ++ y) = (scriptItems y).map (is ++ ·) := by
  intro n
  induction n with
  | zero =>
    intro x is hn h
    match x with
    | [] =>
      rw [scriptItems_nil] at h
      cases h
      cases hy : scriptItems y <;> simp [hy]
    | _ :: _ => simp at hn
  | succ n ih =>
    intro x is hn h
    match x with
    | [] =>
      rw [scriptItems_nil] at h
      cases h
      cases hy : scriptItems y <;> simp [hy]
    | b :: rest =>
      cases hx : nextItem (b :: rest) with
      | none => rw [scriptItems_none hx] at h; cases h
      | some p =>
        obtain ⟨i, r⟩ := p
        rw [scriptItems_next hx] at h
        have hl := nextItem_length hx
        cases hr : scriptItems r with
        | none => rw [hr] at h; cases h
        | some js =>
          rw [hr] at h
          cases h
          rw [scriptItems_next (nextItem_append hx y), ih r js (by simp only [List.length_cons] at hl hn; omega) hr]
          cases hy : scriptItems y <;> simp

/-- Items whose bytes are read back as the item. -/
def PlainItem : ScriptItem → Prop
  | .op b => b = 0 ∨ 79 ≤ b.toNat
  | .push d => 1 ≤ d.length ∧ d.length < 65536

theorem nextItem_wire {i : ScriptItem} (h : PlainItem i) (rest : Bytes) : nextItem (i.wire ++ rest) = some (i, rest) := by
  cases i with
  | op b =>
    have hb : b.toNat = 0 ∨ 79 ≤ b.toNat := by
      rcases h with rfl | h
      · exact .inl rfl
      · exact .inr h
    simp only [ScriptItem.wire, nextItem, List.cons_append, List.nil_append]
    rw [if_neg (by omega), if_neg (by omega), if_neg (by omega), if_neg (by omega)]
  | push d =>
    obtain ⟨h1, h2⟩ := h
    simp only [ScriptItem.wire, minimalPush]
    have tk : (d ++ rest).take d.length = d := by simp
    have dr : (d ++ rest).drop d.length = rest := by simp
    have ln : takePush d.length (d ++ rest) = some (.push d, rest) := by
      unfold takePush
      rw [if_neg (by simp), tk, dr]
    by_cases c1 : d.length ≤ 75
    · rw [if_pos c1]
      have e : (UInt8.ofNat d.length).toNat = d.length := by rw [UInt8.toNat_ofNat']; omega
      simp only [nextItem, List.cons_append]
      rw [if_pos (by omega), e, ln]
    rw [if_neg c1]
    by_cases c2 : d.length ≤ 255
    · rw [if_pos c2]
      have e : (UInt8.ofNat d.length).toNat = d.length := by rw [UInt8.toNat_ofNat']; omega
      simp only [nextItem, List.cons_append]
      rw [if_neg (by decide), if_pos (by decide), e, ln]
    rw [if_neg c2]
    have e : (UInt8.ofNat (d.length % 256)).toNat + 256 * (UInt8.ofNat (d.length / 256)).toNat = d.length := by
      rw [UInt8.toNat_ofNat', UInt8.toNat_ofNat']; omega
    simp only [nextItem, List.cons_append]
    rw [if_neg (by decide), if_neg (by decide), if_pos (by decide), e, ln]

theorem scriptItems_wire (is : List ScriptItem) (h : ∀ i ∈ is, PlainItem i) : scriptItems (is.flatMap ScriptItem.wire) = some is := by
  induction is with
  | nil => rfl
  | cons i is ih =>
    rw [List.flatMap_cons, scriptItems_next (nextItem_wire (h i (by simp)) _), ih (fun j hj => h j (by simp [hj]))]
    rfl

theorem runItems_append (w : World) (v : Bool) (code : Bytes) (x y : List ScriptItem) (s : List Bytes × List Bool) :
    runItems w v code (x ++ y) s = (runItems w v code x s).bind (runItems w v code y) := by
  induction x generalizing s with
  | nil => rfl
  | cons i x ih =>
    simp only [List.cons_append, runItems]
    cases runItem w v code i s with
    | none => rfl
    | some s' => exact ih s'

/-- Evaluation of a script whose items are known. -/
theorem evalScript_items {w : World} {v : Bool} {code : Bytes} {is : List ScriptItem} (hl : code.length ≤ 10000)
    (h : scriptItems code = some is) (st : List Bytes) :
    evalScript w v code st = match runItems w v code is (st, []) with | some (r, []) => some r | _ => none := by
  unfold evalScript
  rw [if_neg (by omega), h]
  rfl

theorem truthy_ofBool (b : Bool) : truthy (ofBool b) = b := by cases b <;> decide

/-- A push of 1 to 520 bytes in an executed branch. -/
theorem run_push {w : World} {v : Bool} {code d : Bytes} (hd : d.length ≤ 520) (is : List ScriptItem) (st : List Bytes) (fl : List Bool) :
    runItems w v code (.push d :: is) (st, fl) = runItems w v code is (if fl.all id then d :: st else st, fl) := by
  have : ¬ 520 < d.length := by omega
  simp only [runItems, runItem, this, if_false]
  by_cases h : fl.all id = true <;> simp [h]

theorem run_push_big {w : World} {v : Bool} {code d : Bytes} (hd : 520 < d.length) (is : List ScriptItem) (s : List Bytes × List Bool) :
    runItems w v code (.push d :: is) s = none := by
  simp only [runItems, runItem, hd, if_true]

/-- Operations other than conditionals, in an executed branch. -/
theorem run_op {w : World} {v : Bool} {code : Bytes} {b : UInt8} (hb : b.toNat ≠ 99 ∧ b.toNat ≠ 100 ∧ b.toNat ≠ 103 ∧ b.toNat ≠ 104)
    (is : List ScriptItem) (st : List Bytes) (fl : List Bool) (hf : fl.all id = true) :
    runItems w v code (.op b :: is) (st, fl) = (runOp w v code b.toNat st).bind fun r => runItems w v code is (r, fl) := by
  simp only [runItems, runItem, hb.1, hb.2.1, hb.2.2.1, hb.2.2.2, if_false, hf, if_true]
  cases runOp w v code b.toNat st <;> rfl

theorem p2pkh_items {h : Bytes} (hl : h.length = 20) :
    scriptItems (p2pkhScript h) = some [.op 0x76, .op 0xa9, .push h, .op 0x88, .op 0xac] := by
  have e : p2pkhScript h = [ScriptItem.op 0x76, .op 0xa9, .push h, .op 0x88, .op 0xac].flatMap ScriptItem.wire := by
    simp only [p2pkhScript, List.flatMap_cons, List.flatMap_nil, ScriptItem.wire, minimalPush, hl]
    rw [if_pos (by decide)]
    simp
  rw [e]
  refine scriptItems_wire _ ?_
  simp only [List.forall_mem_cons, PlainItem, hl]
  exact ⟨.inr (by decide), .inr (by decide), by decide, .inr (by decide), .inr (by decide), by simp⟩

/-- What a pay-to-public-key-hash script does. -/
theorem eval_p2pkh (w : World) (v : Bool) {h : Bytes} (hl : h.length = 20) (st : List Bytes) :
    evalScript w v (p2pkhScript h) st = match st with
      | key :: sig :: rest => if w.hash160 key = h then some (ofBool (w.checkSig v (p2pkhScript h) sig key) :: rest) else none
      | _ => none := by
  rw [evalScript_items (by simp [p2pkhScript, hl]) (p2pkh_items hl)]
  have h520 : ¬ 520 < h.length := by omega
  match st with
  | [] => simp [runItems, runItem, runOp]
  | [key] =>
    by_cases c : h = w.hash160 key
    · simp [runItems, runItem, runOp, ← c, h520]
    · simp [runItems, runItem, runOp, c, h520]
  | key :: sig :: rest =>
    by_cases c : h = w.hash160 key
    · simp [runItems, runItem, runOp, ← c, h520]
    · simp [runItems, runItem, runOp, c, Ne.symm c, h520]

/-- The condition of `multisig` for two of two. -/
theorem sigsMatch_two (ok : Bytes → Bytes → Bool) (s t a b : Bytes) : sigsMatch ok [s, t] [a, b] = (ok s a && ok t b) := by
  simp only [sigsMatch]
  cases ok s a <;> cases ok s b <;> cases ok t b <;> rfl

theorem msig_items {a b : Bytes} (ha : 1 ≤ a.length ∧ a.length < 65536) (hb : 1 ≤ b.length ∧ b.length < 65536) :
    scriptItems ([0x52] ++ minimalPush a ++ minimalPush b ++ [0x52, 0xae]) = some [.op 0x52, .push a, .push b, .op 0x52, .op 0xae] := by
  have e : [0x52] ++ minimalPush a ++ minimalPush b ++ [0x52, 0xae] =
      [ScriptItem.op 0x52, .push a, .push b, .op 0x52, .op 0xae].flatMap ScriptItem.wire := by
    simp [ScriptItem.wire]
  rw [e]
  refine scriptItems_wire _ ?_
  simp only [List.forall_mem_cons, PlainItem]
  exact ⟨.inr (by decide), ha, hb, .inr (by decide), .inr (by decide), by simp⟩

/-- What the two-of-two script does: it wants two signatures, of the first key and of the second, and one element more. -/
theorem eval_msig (w : World) (v : Bool) {a b r : Bytes} (ha : 1 ≤ a.length ∧ a.length ≤ 520) (hb : 1 ≤ b.length ∧ b.length ≤ 520)
    (hr : r = [0x52] ++ minimalPush a ++ minimalPush b ++ [0x52, 0xae]) (hl : r.length ≤ 10000) (st : List Bytes) :
    evalScript w v r st = match st with
      | t :: s :: _ :: rest => some (ofBool (w.checkSig v r t b && w.checkSig v r s a) :: rest)
      | _ => none := by
  have hi := msig_items (a := a) (b := b) ⟨ha.1, by omega⟩ ⟨hb.1, by omega⟩
  rw [← hr] at hi
  rw [evalScript_items hl hi]
  have h1 : ¬ 520 < a.length := by omega
  have h2 : ¬ 520 < b.length := by omega
  have two : smallNumber [2] = some 2 := by decide
  match st with
  | [] => simp [runItems, runItem, runOp, h1, h2, multisig, two]
  | [_] => simp [runItems, runItem, runOp, h1, h2, multisig, two]
  | [_, _] => simp [runItems, runItem, runOp, h1, h2, multisig, two]
  | t :: s :: d :: rest => 
    have c1 : ¬ rest.length + 1 + 1 + 1 + 1 + 1 + 1 < 3 := by omega
    have c2 : ¬ rest.length + 1 + 1 + 1 < 3 := by omega
    simp [runItems, runItem, runOp, h1, h2, multisig, two, sigsMatch_two, c1, c2]

/-- The hash time-lock script of script/examples.py. -/
def htlcBytes (secretHash pkh0 timeout pkh1 : Bytes) : Bytes :=
  [0x63, 0xa8] ++ minimalPush secretHash ++ [0x88, 0x76, 0xa9] ++ minimalPush pkh0 ++
    [0x67] ++ minimalPush timeout ++ [0xb1, 0x75, 0x76, 0xa9] ++ minimalPush pkh1 ++ [0x68, 0x88, 0xac]

theorem htlc_items {x p t q : Bytes} (hx : 1 ≤ x.length ∧ x.length < 65536) (hp : 1 ≤ p.length ∧ p.length < 65536)
    (ht : 1 ≤ t.length ∧ t.length < 65536) (hq : 1 ≤ q.length ∧ q.length < 65536) :
    scriptItems (htlcBytes x p t q) = some [.op 0x63, .op 0xa8, .push x, .op 0x88, .op 0x76, .op 0xa9, .push p, .op 0x67, .push t, .op 0xb1,
      .op 0x75, .op 0x76, .op 0xa9, .push q, .op 0x68, .op 0x88, .op 0xac] := by
  have e : htlcBytes x p t q = [ScriptItem.op 0x63, .op 0xa8, .push x, .op 0x88, .op 0x76, .op 0xa9, .push p, .op 0x67, .push t, .op 0xb1,
      .op 0x75, .op 0x76, .op 0xa9, .push q, .op 0x68, .op 0x88, .op 0xac].flatMap ScriptItem.wire := by
    simp [ScriptItem.wire, htlcBytes]
  rw [e]
  refine scriptItems_wire _ ?_
  simp only [List.forall_mem_cons, PlainItem]
  exact ⟨.inr (by decide), .inr (by decide), hx, .inr (by decide), .inr (by decide), .inr (by decide), hp, .inr (by decide), ht,
    .inr (by decide), .inr (by decide), .inr (by decide), .inr (by decide), hq, .inr (by decide), .inr (by decide), .inr (by decide), by simp⟩

/-- The condition of the hash time-lock script on the stack. -/
def htlcStack (w : World) (v : Bool) (code x p t q : Bytes) (st : List Bytes) : Option (List Bytes) :=
  match st with
  | [] => none
  | c :: st =>
    if truthy c then match st with
      | secret :: key :: sig :: rest =>
        if w.sha256 secret = x ∧ w.hash160 key = p then some (ofBool (w.checkSig v code sig key) :: rest) else none
      | _ => none
    else match st with
      | key :: sig :: rest =>
        if w.lockTime t = true ∧ w.hash160 key = q then some (ofBool (w.checkSig v code sig key) :: rest) else none
      | _ => none

theorem eval_htlc (w : World) (v : Bool) {x p t q : Bytes} (hx : 1 ≤ x.length ∧ x.length ≤ 520) (hp : 1 ≤ p.length ∧ p.length ≤ 520)
    (ht : 1 ≤ t.length ∧ t.length ≤ 520) (hq : 1 ≤ q.length ∧ q.length ≤ 520) (hl : (htlcBytes x p t q).length ≤ 10000) (st : List Bytes) :
    evalScript w v (htlcBytes x p t q) st = htlcStack w v (htlcBytes x p t q) x p t q st := by
  rw [evalScript_items hl (htlc_items ⟨hx.1, by omega⟩ ⟨hp.1, by omega⟩ ⟨ht.1, by omega⟩ ⟨hq.1, by omega⟩)]
  generalize htlcBytes x p t q = code
  have h1 : ¬ 520 < x.length := by omega
  have h2 : ¬ 520 < p.length := by omega
  have h3 : ¬ 520 < t.length := by omega
  have h4 : ¬ 520 < q.length := by omega
  unfold htlcStack
  match st with
  | [] => simp [runItems, runItem]
  | c :: st =>
    by_cases hc : truthy c = true
    · simp only [hc, if_true]
      match st with
      | [] => simp [runItems, runItem, runOp, hc]
      | [secret] =>
        by_cases e : x = w.sha256 secret
        · subst e; simp [runItems, runItem, runOp, hc, h1]
        · simp [runItems, runItem, runOp, hc, h1, e]
      | [secret, key] =>
        by_cases e : x = w.sha256 secret
        · subst e
          by_cases e' : p = w.hash160 key
          · subst e'; simp [runItems, runItem, runOp, hc, h1, h2, h3, h4]
          · simp [runItems, runItem, runOp, hc, h1, h2, h3, h4, e']
        · simp [runItems, runItem, runOp, hc, h1, e]
      | secret :: key :: sig :: rest =>
        by_cases e : x = w.sha256 secret
        · subst e
          by_cases e' : p = w.hash160 key
          · subst e'; simp [runItems, runItem, runOp, hc, h1, h2, h3, h4]
          · simp [runItems, runItem, runOp, hc, h1, h2, h3, h4, e', Ne.symm e']
        · simp [runItems, runItem, runOp, hc, h1, e, Ne.symm e]
    · have hc' : truthy c = false := by simpa using hc
      simp only [hc', if_false]
      match st with
      | [] => cases e : w.lockTime t <;> simp [runItems, runItem, runOp, hc', h1, h2, h3, e]
      | [key] =>
        by_cases e' : q = w.hash160 key
        · subst e'; cases e : w.lockTime t <;> simp [runItems, runItem, runOp, hc', h1, h2, h3, h4, e]
        · cases e : w.lockTime t <;> simp [runItems, runItem, runOp, hc', h1, h2, h3, h4, e, e']
      | key :: sig :: rest =>
        by_cases e' : q = w.hash160 key
        · subst e'; cases e : w.lockTime t <;> simp [runItems, runItem, runOp, hc', h1, h2, h3, h4, e]
        · cases e : w.lockTime t <;> simp [runItems, runItem, runOp, hc', h1, h2, h3, h4, e, e', Ne.symm e']

theorem p2sh_items {h : Bytes} (hl : h.length = 20) : scriptItems (p2shScript h) = some [.op 0xa9, .push h, .op 0x87] := by
  have e : p2shScript h = [ScriptItem.op 0xa9, .push h, .op 0x87].flatMap ScriptItem.wire := by
    simp only [p2shScript, List.flatMap_cons, List.flatMap_nil, ScriptItem.wire, minimalPush, hl]
    rw [if_pos (by decide)]
    simp
  rw [e]
  refine scriptItems_wire _ ?_
  simp only [List.forall_mem_cons, PlainItem, hl]
  exact ⟨.inr (by decide), by decide, .inr (by decide), by simp⟩

/-- What a pay-to-script-hash script itself does. -/
theorem eval_p2sh (w : World) (v : Bool) {h : Bytes} (hl : h.length = 20) (st : List Bytes) :
    evalScript w v (p2shScript h) st = match st with
      | x :: rest => some (ofBool (h == w.hash160 x) :: rest)
      | [] => none := by
  rw [evalScript_items (by simp [p2shScript, hl]) (p2sh_items hl)]
  have h520 : ¬ 520 < h.length := by omega
  match st with
  | [] => simp [runItems, runItem, runOp]
  | x :: rest => simp [runItems, runItem, runOp, h520]

/-- What a version 0 witness output itself does: two pushes. -/
theorem eval_witness (w : World) (v : Bool) {prog : Bytes} (h1 : 1 ≤ prog.length) (h2 : prog.length ≤ 75) (st : List Bytes) :
    evalScript w v (0 :: UInt8.ofNat prog.length :: prog) st = some (prog :: [] :: st) := by
  have e : (0 :: UInt8.ofNat prog.length :: prog) = [ScriptItem.op 0, .push prog].flatMap ScriptItem.wire := by
    simp only [List.flatMap_cons, List.flatMap_nil, ScriptItem.wire, minimalPush]
    rw [if_pos h2]
    simp
  have hi : scriptItems (0 :: UInt8.ofNat prog.length :: prog) = some [.op 0, .push prog] := by
    rw [e]
    refine scriptItems_wire _ ?_
    simp only [List.forall_mem_cons, PlainItem]
    exact ⟨.inl trivial, ⟨h1, by omega⟩, by simp⟩
  rw [evalScript_items (by simp only [List.length_cons]; omega) hi]
  have h520 : ¬ 520 < prog.length := by omega
  simp [runItems, runItem, runOp, h520]

theorem p2pkh_kind {h : Bytes} (hl : h.length = 20) : witnessProgram (p2pkhScript h) = none ∧ isP2sh (p2pkhScript h) = false := by
  constructor
  · simp [witnessProgram, p2pkhScript]
  · simp [isP2sh, p2pkhScript, hl]

theorem p2sh_kind {h : Bytes} (hl : h.length = 20) : witnessProgram (p2shScript h) = none ∧ isP2sh (p2shScript h) = true := by
  constructor
  · simp [witnessProgram, p2shScript]
  · have : ([0xa9, 0x14] ++ h ++ [0x87] : Bytes).drop 22 = [0x87] := by
      rw [List.drop_append_of_le_length (by simp [hl]), List.drop_of_length_le (by simp [hl])]
      rfl
    simp only [isP2sh, p2shScript, this]
    simp [hl]

theorem witness_kind {prog : Bytes} (h1 : 2 ≤ prog.length) (h2 : prog.length ≤ 40) :
    witnessProgram (0 :: UInt8.ofNat prog.length :: prog) = some (0, prog) := by
  have e : (UInt8.ofNat prog.length).toNat = prog.length := by rw [UInt8.toNat_ofNat']; omega
  simp [witnessProgram, e, h1, h2]

/-- A script of pushes leaves on the stack what it found there and elements of at most 520 bytes. -/
theorem pushes_small (w : World) (v : Bool) (code : Bytes) : ∀ (is : List ScriptItem) (st st' : List Bytes) (fl : List Bool),
    (is.all fun i => match i with | .push _ => true | .op b => decide (b.toNat ≤ 96)) = true → (∀ x ∈ st, x.length ≤ 520) →
    runItems w v code is (st, []) = some (st', fl) → ∀ x ∈ st', x.length ≤ 520 := by
  intro is
  induction is with
  | nil =>
    intro st st' fl _ hst h
    simp only [runItems, Option.some.injEq, Prod.mk.injEq] at h
    rw [← h.1]; exact hst
  | cons i is ih =>
    intro st st' fl hp hst h
    simp only [List.all_cons, Bool.and_eq_true] at hp
    obtain ⟨hp1, hp2⟩ := hp
    cases i with
    | push d =>
      by_cases hd : d.length ≤ 520
      · rw [run_push hd] at h
        refine ih _ _ _ hp2 ?_ h
        intro x hx
        simp only [List.all_nil, if_true, List.mem_cons] at hx
        rcases hx with rfl | hx
        · exact hd
        · exact hst x hx
      · have : 520 < d.length := by omega
        rw [run_push_big this] at h
        cases h
    | op b =>
      simp only [decide_eq_true_eq] at hp1
      rw [run_op (by omega) _ _ _ rfl] at h
      have key : ∀ r, runOp w v code b.toNat st = some r → ∀ x ∈ r, x.length ≤ 520 := by
        intro r hr
        unfold runOp at hr
        by_cases c1 : b.toNat = 0
        · rw [if_pos c1] at hr
          cases hr
          intro x hx
          rcases List.mem_cons.1 hx with rfl | hx
          · simp
          · exact hst x hx
        rw [if_neg c1] at hr
        by_cases c2 : b.toNat = 79
        · rw [if_pos c2] at hr
          cases hr
          intro x hx
          rcases List.mem_cons.1 hx with rfl | hx
          · simp
          · exact hst x hx
        rw [if_neg c2] at hr
        by_cases c3 : 81 ≤ b.toNat ∧ b.toNat ≤ 96
        · rw [if_pos c3] at hr
          cases hr
          intro x hx
          rcases List.mem_cons.1 hx with rfl | hx
          · simp
          · exact hst x hx
        rw [if_neg c3] at hr
        rw [if_neg (by omega), if_neg (by omega), if_neg (by omega), if_neg (by omega), if_neg (by omega), if_neg (by omega),
          if_neg (by omega), if_neg (by omega), if_neg (by omega), if_neg (by omega), if_neg (by omega), if_neg (by omega)] at hr
        cases hr
      cases hr : runOp w v code b.toNat st with
      | none => rw [hr] at h; cases h
      | some r =>
        rw [hr, Option.bind_some] at h
        exact ih _ _ _ hp2 (key r hr) h

theorem eval_pushOnly_small {w : World} {v : Bool} {s : Bytes} {st : List Bytes} (hp : pushOnly s = true)
    (h : evalScript w v s [] = some st) : ∀ x ∈ st, x.length ≤ 520 := by
  unfold pushOnly at hp
  unfold evalScript at h
  split at h
  · cases h
  · split at h
    · cases h
    · rename_i items hi
      rw [hi] at hp
      split at h
      · rename_i st' hr
        cases h
        exact pushes_small w v s items [] _ _ hp (by simp) hr
      · cases h

/-- Pushes do not look at the script they are in. -/
theorem pushes_code (w : World) (v : Bool) (code code' : Bytes) : ∀ (is : List ScriptItem) (st : List Bytes),
    (is.all fun i => match i with | .push _ => true | .op b => decide (b.toNat ≤ 96)) = true →
    runItems w v code is (st, []) = runItems w v code' is (st, []) := by
  intro is
  induction is with
  | nil => intro st _; rfl
  | cons i is ih =>
    intro st hp
    simp only [List.all_cons, Bool.and_eq_true] at hp
    obtain ⟨hp1, hp2⟩ := hp
    cases i with
    | push d =>
      by_cases hd : d.length ≤ 520
      · rw [run_push hd, run_push hd]
        exact ih _ hp2
      · rw [run_push_big (by omega), run_push_big (by omega)]
    | op b =>
      simp only [decide_eq_true_eq] at hp1
      rw [run_op (by omega) _ _ _ rfl, run_op (by omega) _ _ _ rfl]
      have key : runOp w v code b.toNat st = runOp w v code' b.toNat st := by
        unfold runOp
        have h1 : b.toNat ≠ 172 := by omega
        have h2 : b.toNat ≠ 173 := by omega
        have h3 : b.toNat ≠ 174 := by omega
        simp only [h1, h2, h3, if_false]
      rw [key]
      cases runOp w v code' b.toNat st with
      | none => rfl
      | some r => exact ih r hp2

/-- The flags of conditionals do not change in pushes. -/
theorem pushes_flags (w : World) (v : Bool) (code : Bytes) : ∀ (is : List ScriptItem) (st st' : List Bytes) (fl : List Bool),
    (is.all fun i => match i with | .push _ => true | .op b => decide (b.toNat ≤ 96)) = true →
    runItems w v code is (st, []) = some (st', fl) → fl = [] := by
  intro is
  induction is with
  | nil =>
    intro st st' fl _ h
    simp only [runItems, Option.some.injEq, Prod.mk.injEq] at h
    exact h.2.symm
  | cons i is ih =>
    intro st st' fl hp h
    simp only [List.all_cons, Bool.and_eq_true] at hp
    obtain ⟨hp1, hp2⟩ := hp
    cases i with
    | push d =>
      by_cases hd : d.length ≤ 520
      · rw [run_push hd] at h
        exact ih _ _ _ hp2 h
      · rw [run_push_big (by omega)] at h; cases h
    | op b =>
      simp only [decide_eq_true_eq] at hp1
      rw [run_op (by omega) _ _ _ rfl] at h
      cases hr : runOp w v code b.toNat st with
      | none => rw [hr] at h; cases h
      | some r =>
        rw [hr, Option.bind_some] at h
        exact ih _ _ _ hp2 h

theorem items_append_push {x b : Bytes} {is : List ScriptItem} (hx : scriptItems x = some is) (hb1 : 1 ≤ b.length)
    (hb2 : b.length < 65536) : scriptItems (x ++ minimalPush b) = some (is ++ [.push b]) := by
  have hpb : scriptItems (minimalPush b) = some [.push b] := by
    have := scriptItems_wire [.push b] (by simpa [PlainItem] using ⟨hb1, hb2⟩)
    simpa [ScriptItem.wire] using this
  rw [scriptItems_append _ x is (Nat.le_refl _) hx, hpb]
  rfl

/-- Evaluation of pushes followed by one more. -/
theorem eval_append_push (w : World) (v : Bool) {x b : Bytes} (hp : pushOnly x = true) (hb1 : 1 ≤ b.length)
    (hb2 : b.length < 65536) (hl : (x ++ minimalPush b).length ≤ 10000) :
    pushOnly (x ++ minimalPush b) = true ∧
    evalScript w v (x ++ minimalPush b) [] = if b.length ≤ 520 then (evalScript w v x []).map (b :: ·) else none := by
  unfold pushOnly at hp
  cases hx : scriptItems x with
  | none => rw [hx] at hp; cases hp
  | some is =>
    rw [hx] at hp
    have hi := items_append_push hx hb1 hb2
    constructor
    · unfold pushOnly
      rw [hi]
      simp only [List.all_append, hp]
      rfl
    · rw [evalScript_items hl hi, evalScript_items (by rw [List.length_append] at hl; omega) hx, runItems_append,
        pushes_code w v _ x is [] hp]
      cases hr : runItems w v x is ([], []) with
      | none => simp
      | some p =>
        obtain ⟨st, fl⟩ := p
        have := pushes_flags w v x is _ _ _ hp hr
        subst this
        rw [Option.bind_some]
        by_cases c : b.length ≤ 520
        · rw [run_push c, if_pos c]; rfl
        · rw [run_push_big (by omega), if_neg c]

/-- Pushes without operations. -/
theorem eval_pushes (w : World) (v : Bool) (code : Bytes) (ds : List Bytes) (h : ∀ d ∈ ds, 1 ≤ d.length ∧ d.length ≤ 520)
    (hc : code = ds.flatMap minimalPush) (hl : code.length ≤ 10000) : evalScript w v code [] = some ds.reverse ∧ pushOnly code = true := by
  have e : code = (ds.map ScriptItem.push).flatMap ScriptItem.wire := by
    rw [hc, List.flatMap_map]
    rfl
  have hi : scriptItems code = some (ds.map ScriptItem.push) := by
    rw [e]
    refine scriptItems_wire _ ?_
    intro i hi
    obtain ⟨d, hd, rfl⟩ := List.mem_map.1 hi
    have := h d hd
    exact ⟨this.1, by omega⟩
  have run : ∀ (ds : List Bytes) (st : List Bytes), (∀ d ∈ ds, d.length ≤ 520) →
      runItems w v code (ds.map ScriptItem.push) (st, []) = some (ds.reverse ++ st, []) := by
    intro ds
    induction ds with
    | nil => intro st _; rfl
    | cons d ds ih =>
      intro st hd
      rw [List.map_cons, run_push (hd d (by simp))]
      simp only [List.all_nil, if_true]
      rw [ih _ (fun x hx => hd x (by simp [hx]))]
      simp
  constructor
  · rw [evalScript_items hl hi, run ds [] (fun d hd => (h d hd).2)]
    simp
  · unfold pushOnly
    rw [hi]
    simp

end Verif
