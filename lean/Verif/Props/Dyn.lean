import Verif.Model.Dyn
import Verif.Lemmas.Tx
import Verif.Spec.WireTx

/-! Property C114: the constructors on arguments of any type. -/

namespace Verif.Props
open Verif Spec

/-! ### steps -/

theorem validate_ok {v : Val} {n : Option Nat} {u : Unit} : v.validate n = .ok u ↔ ∃ b, v.content = some b ∧ ∀ k, n = some k → b.length = k := by
  unfold Val.validate
  cases h : v.content with
  | none => simp
  | some b =>
    cases n with
    | none => simp
    | some k => simp [check]

theorem validate_error {v : Val} {n : Option Nat} {e : PyErr} (h : v.validate n = .error e) : e = .valueError := by
  unfold Val.validate check at h
  split at h
  · cases h; rfl
  · split at h
    · cases h
    · split at h
      · cases h
      · cases h; rfl

theorem iadd_ok {s : Bytes} {v : Val} {r : Bytes} : Val.iadd s v = .ok r ↔ ∃ b, v.content = some b ∧ r = s ++ b := by
  unfold Val.iadd
  cases h : v.content with
  | none => simp
  | some b => simp [eq_comm]

theorem len_content {v : Val} {b : Bytes} (h : v.content = some b) : v.len = .ok b.length := by
  cases v <;> simp [Val.content] at h <;> subst h <;> rfl

theorem iaddAll_ok {l : List Val} {bs : List Bytes} (h : l.map Val.content = bs.map some) (s : Bytes) : Val.iaddAll s l = .ok (s ++ bs.flatten) := by
  induction l generalizing bs s with
  | nil => cases bs with
    | nil => simp [Val.iaddAll]
    | cons _ _ => simp at h
  | cons v l ih => cases bs with
    | nil => simp at h
    | cons b bs =>
      simp only [List.map_cons, List.cons.injEq] at h
      unfold Val.iaddAll
      rw [iadd_ok.2 ⟨b, h.1, rfl⟩, ok_bind, ih h.2]
      simp

theorem instances_content {c : Cls} {l : List Val} (h : l.all (Val.isInstance c) = true) : ∃ bs : List Bytes, l.map Val.content = bs.map some := by
  induction l with
  | nil => exact ⟨[], rfl⟩
  | cons v l ih =>
    rw [List.all_cons, Bool.and_eq_true] at h
    obtain ⟨bs, hb⟩ := ih h.2
    have h1 := h.1
    cases v <;> simp [Val.isInstance] at h1
    next c' attrs b => exact ⟨b :: bs, by simp [hb, Val.content]⟩

/-- A list or a tuple. -/
def IsSeq (v : Val) (l : List Val) : Prop := v = .list l ∨ v = .tuple l

theorem IsSeq.iter {v : Val} {l : List Val} (h : IsSeq v l) : v.iter = .ok l ∧ v.len = .ok l.length := by
  rcases h with rfl | rfl <;> exact ⟨rfl, rfl⟩

theorem len_of_iter {v : Val} {l : List Val} (h : v.iter = .ok l) : v.len = .ok l.length := by
  cases v <;> simp [Val.iter] at h <;> subst h <;> simp [Val.len]

/-- What can be iterated over so that every element is an object, and is not empty, is a list or a tuple. -/
theorem isSeq_of_instances {v : Val} {c : Cls} {l : List Val} (h : v.iter = .ok l) (hl : l ≠ []) (hc : l.all (Val.isInstance c) = true) : IsSeq v l := by
  have bytesCase : ∀ b : Bytes, (b.map fun x => Val.int x.toNat) = l → False := by
    intro b e
    cases b with
    | nil => exact hl e.symm
    | cons x xs => rw [← e] at hc; simp [Val.isInstance] at hc
  cases v with
  | none => cases h
  | int n => cases h
  | str s =>
    have e := Except.ok.inj h
    exfalso
    cases s with
    | nil => exact hl e.symm
    | cons x xs => rw [← e] at hc; simp [Val.isInstance] at hc
  | bytes b => exact absurd (Except.ok.inj h) (bytesCase b)
  | bytearray b => exact absurd (Except.ok.inj h) (bytesCase b)
  | obj c a b => exact absurd (Except.ok.inj h) (bytesCase b)
  | list l' => exact .inl (by rw [Except.ok.inj h])
  | tuple l' => exact .inr (by rw [Except.ok.inj h])

/-! ### the parts -/

/-- The value is bytes-like: `bytes`, `bytearray` or an object of a class derived from `ByteData`. -/
def Byteslike (v : Val) (b : Bytes) : Prop := v.content = some b

/-- The value is `bytes` or `bytearray`. -/
def RawBytes (v : Val) : Prop := ∃ b, v = .bytes b ∨ v = .bytearray b

theorem add_ok {v w : Val} : (∃ r, Val.add v w = .ok r) ↔ RawBytes v ∧ RawBytes w := by
  constructor
  · rintro ⟨r, h⟩
    unfold Val.add at h
    split at h
    · exact ⟨⟨_, .inl rfl⟩, _, .inl rfl⟩
    · exact ⟨⟨_, .inl rfl⟩, _, .inr rfl⟩
    · exact ⟨⟨_, .inr rfl⟩, _, .inl rfl⟩
    · exact ⟨⟨_, .inr rfl⟩, _, .inr rfl⟩
    · cases h
  · rintro ⟨⟨a, rfl | rfl⟩, b, rfl | rfl⟩ <;> exact ⟨_, rfl⟩

theorem add_error {v w : Val} {e : PyErr} (h : Val.add v w = .error e) : e = .typeError := by
  unfold Val.add at h
  split at h <;> cases h
  rfl

theorem add_content {v w r : Val} {a b : Bytes} (h : Val.add v w = .ok r) (ha : v.content = some a) (hb : w.content = some b) : r.content = some (a ++ b) := by
  unfold Val.add at h
  split at h <;> cases h <;> simp [Val.content] at ha hb ⊢ <;> rw [ha, hb]

/-- C114: `Outpoint(tx_id, index)` accepts exactly bytes-like values of 32 and 4 bytes, and raises ValueError for all others. -/
theorem C114_outpoint (a b : Val) :
    (∀ v, Dyn.outpoint a b = .ok v ↔ ∃ x y, Byteslike a x ∧ Byteslike b y ∧ x.length = 32 ∧ y.length = 4 ∧ v = .obj .outpoint [a, b] (x ++ y)) ∧
    ∀ e, Dyn.outpoint a b = .error e → e = .valueError := by
  constructor
  · intro v
    unfold Dyn.outpoint
    simp only [bind_ok_iff, validate_ok, iadd_ok, Except.ok.injEq]
    constructor
    · rintro ⟨-, ⟨x, hx, lx⟩, -, ⟨y, hy, ly⟩, s1, ⟨x', hx', rfl⟩, s2, ⟨y', hy', rfl⟩, rfl⟩
      rw [hx] at hx'; cases hx'
      rw [hy] at hy'; cases hy'
      exact ⟨x, y, hx, hy, lx 32 rfl, ly 4 rfl, rfl⟩
    · rintro ⟨x, y, hx, hy, lx, ly, rfl⟩
      exact ⟨(), ⟨x, hx, fun k e => by cases e; exact lx⟩, (), ⟨y, hy, fun k e => by cases e; exact ly⟩, _, ⟨x, hx, rfl⟩, _, ⟨y, hy, rfl⟩, rfl⟩
  · intro e h
    unfold Dyn.outpoint at h
    cases h1 : a.validate (some 32) with
    | error e1 => rw [h1] at h; cases h; exact validate_error h1
    | ok _ =>
      rw [h1, ok_bind] at h
      cases h2 : b.validate (some 4) with
      | error e2 => rw [h2] at h; cases h; exact validate_error h2
      | ok _ =>
        rw [h2, ok_bind] at h
        obtain ⟨x, hx, -⟩ := validate_ok.1 h1
        obtain ⟨y, hy, -⟩ := validate_ok.1 h2
        rw [iadd_ok.2 ⟨x, hx, rfl⟩, ok_bind, iadd_ok.2 ⟨y, hy, rfl⟩] at h
        cases h

example : Dyn.outpoint (.bytearray (List.replicate 32 1)) (.bytes [0, 0, 0, 0]) =
    .ok (.obj .outpoint [.bytearray (List.replicate 32 1), .bytes [0, 0, 0, 0]] (List.replicate 32 1 ++ [0, 0, 0, 0])) ∧
    Dyn.outpoint (.str (pystr "00")) (.int 0) = .error .valueError := ⟨rfl, rfl⟩

theorem validate_cases (v : Val) (n : Option Nat) :
    (∃ b, v.content = some b ∧ (∀ k, n = some k → b.length = k) ∧ v.validate n = .ok ()) ∨
    (¬ ∃ b, v.content = some b ∧ ∀ k, n = some k → b.length = k) ∧ v.validate n = .error .valueError := by
  cases h : v.validate n with
  | ok u => obtain ⟨b, h1, h2⟩ := validate_ok.1 h; exact .inl ⟨b, h1, h2, rfl⟩
  | error e =>
    rw [validate_error h]
    refine .inr ⟨fun h' => ?_, rfl⟩
    have := (validate_ok (u := ())).2 h'
    rw [h] at this; cases this

/-- C114: `TxIn(outpoint, stack_script, redeem_script, sequence)` accepts exactly: a bytes-like value of 36 bytes (not only an `Outpoint`), two scripts that are `bytes` or
`bytearray`, of together at most 1650 bytes, and a bytes-like value of 4 bytes. The object's bytes are those of an input on the wire. If everything else is right but a script is a
`ByteData` object, TypeError is raised, although `validate_bytes` has accepted it; in all other cases ValueError. -/
theorem C114_txIn (o s r q : Val) :
    (∀ v, Dyn.txIn o s r q = .ok v ↔ ∃ bo bs br bq sig, Byteslike o bo ∧ Byteslike s bs ∧ Byteslike r br ∧ Byteslike q bq ∧ RawBytes s ∧ RawBytes r ∧
      bo.length = 36 ∧ bs.length + br.length ≤ 1650 ∧ bq.length = 4 ∧ RawBytes sig ∧ Byteslike sig (bs ++ br) ∧ Val.add s r = .ok sig ∧
      v = .obj .txIn [o, s, r, sig, q] (wireIn (bo.take 32) (bo.drop 32) (bs ++ br) bq)) ∧
    (Dyn.txIn o s r q = .error .typeError ↔ ∃ bo bs br bq, Byteslike o bo ∧ Byteslike s bs ∧ Byteslike r br ∧ Byteslike q bq ∧
      bo.length = 36 ∧ bs.length + br.length ≤ 1650 ∧ bq.length = 4 ∧ ¬ (RawBytes s ∧ RawBytes r)) ∧
    ∀ e, Dyn.txIn o s r q = .error e → e = .valueError ∨ e = .typeError := by
  have main : (∃ bo bs br bq, Byteslike o bo ∧ Byteslike s bs ∧ Byteslike r br ∧ Byteslike q bq ∧ bo.length = 36 ∧ bs.length + br.length ≤ 1650 ∧ bq.length = 4 ∧
        Dyn.txIn o s r q = (Val.add s r).map fun sig => .obj .txIn [o, s, r, sig, q] (wireIn (bo.take 32) (bo.drop 32) (bs ++ br) bq)) ∨
      (¬ ∃ bo bs br bq, Byteslike o bo ∧ Byteslike s bs ∧ Byteslike r br ∧ Byteslike q bq ∧ bo.length = 36 ∧ bs.length + br.length ≤ 1650 ∧ bq.length = 4) ∧
        Dyn.txIn o s r q = .error .valueError := by
    unfold Dyn.txIn
    rcases validate_cases o (some 36) with ⟨bo, ho, lo, eo⟩ | ⟨ho, eo⟩
    case inr => exact .inr ⟨fun ⟨bo, _, _, _, h, _, _, _, l, _⟩ => ho ⟨bo, h, fun k e => by cases e; exact l⟩, by rw [eo]; rfl⟩
    rcases validate_cases s none with ⟨bs, hs, -, es⟩ | ⟨hs, es⟩
    case inr => exact .inr ⟨fun ⟨_, bs, _, _, _, h, _⟩ => hs ⟨bs, h, fun k e => by cases e⟩, by rw [eo, es]; rfl⟩
    rcases validate_cases r none with ⟨br, hr, -, er⟩ | ⟨hr, er⟩
    case inr => exact .inr ⟨fun ⟨_, _, br, _, _, _, h, _⟩ => hr ⟨br, h, fun k e => by cases e⟩, by rw [eo, es, er]; rfl⟩
    rcases validate_cases q (some 4) with ⟨bq, hq, lq, eq⟩ | ⟨hq, eq⟩
    case inr => exact .inr ⟨fun ⟨_, _, _, bq, _, _, _, h, _, _, l⟩ => hq ⟨bq, h, fun k e => by cases e; exact l⟩, by rw [eo, es, er, eq]; rfl⟩
    rw [eo, es, er, eq, len_content hs, len_content hr]
    simp only [ok_bind, check_bind]
    by_cases hl : bs.length + br.length ≤ 1650
    · left
      refine ⟨bo, bs, br, bq, ho, hs, hr, hq, lo 36 rfl, hl, lq 4 rfl, ?_⟩
      rw [if_pos (by omega), VarInt.make_len (by omega), iadd_ok.2 ⟨bo, ho, rfl⟩]
      simp only [ok_bind]
      rw [iadd_ok.2 ⟨bs, hs, rfl⟩]
      simp only [ok_bind]
      rw [iadd_ok.2 ⟨br, hr, rfl⟩]
      simp only [ok_bind]
      rw [iadd_ok.2 ⟨bq, hq, rfl⟩]
      simp only [ok_bind]
      cases Val.add s r with
      | error e => rfl
      | ok sig =>
        simp only [ok_bind, Except.map, wireIn, varBytes, List.take_append_drop, List.length_append, List.append_assoc, List.nil_append]
    · right
      refine ⟨fun ⟨_, bs', br', _, _, h1, h2, _, _, h, _⟩ => hl ?_, by rw [if_neg (by omega)]⟩
      unfold Byteslike at h1 h2
      rw [hs] at h1; rw [hr] at h2; cases h1; cases h2; exact h
  rcases main with ⟨bo, bs, br, bq, ho, hs, hr, hq, lo, hl, lq, e⟩ | ⟨hn, e⟩
  · rw [e]
    cases ha : Val.add s r with
    | error x =>
      have hx := add_error ha
      have hraw : ¬ (RawBytes s ∧ RawBytes r) := fun h => by obtain ⟨y, hy⟩ := add_ok.2 h; rw [ha] at hy; cases hy
      refine ⟨fun v => ⟨fun h => (by cases h), ?_⟩, ⟨fun _ => ⟨bo, bs, br, bq, ho, hs, hr, hq, lo, hl, lq, hraw⟩, fun _ => by rw [hx]; rfl⟩, ?_⟩
      · rintro ⟨_, _, _, _, _, _, _, _, _, h1, h2, _⟩; exact absurd ⟨h1, h2⟩ hraw
      · rintro e' h; cases h; exact .inr hx
    | ok sig =>
      obtain ⟨h1, h2⟩ := add_ok.1 ⟨sig, ha⟩
      have hsig : RawBytes sig := by
        unfold Val.add at ha
        split at ha <;> cases ha <;> first | exact ⟨_, .inl rfl⟩ | exact ⟨_, .inr rfl⟩
      refine ⟨fun v => ⟨fun h => ?_, ?_⟩, ⟨fun h => (by cases h), ?_⟩, fun e' h => (by cases h)⟩
      · cases h
        exact ⟨bo, bs, br, bq, sig, ho, hs, hr, hq, h1, h2, lo, hl, lq, hsig, add_content ha hs hr, rfl, rfl⟩
      · rintro ⟨bo', bs', br', bq', sig', ho', hs', hr', hq', _, _, _, _, _, _, _, hsig', rfl⟩
        unfold Byteslike at *
        rw [ho] at ho'; rw [hs] at hs'; rw [hr] at hr'; rw [hq] at hq'
        cases ho'; cases hs'; cases hr'; cases hq'; cases hsig'
        rfl
      · rintro ⟨_, _, _, _, _, _, _, _, _, _, _, h⟩; exact absurd ⟨h1, h2⟩ h
  · rw [e]
    refine ⟨fun v => ⟨fun h => (by cases h), ?_⟩, ⟨fun h => (by cases h), ?_⟩, fun e' h => (by cases h; exact .inl rfl)⟩
    · rintro ⟨bo, bs, br, bq, _, ho, hs, hr, hq, _, _, lo, hl, lq, _⟩; exact absurd ⟨bo, bs, br, bq, ho, hs, hr, hq, lo, hl, lq⟩ hn
    · rintro ⟨bo, bs, br, bq, ho, hs, hr, hq, lo, hl, lq, _⟩; exact absurd ⟨bo, bs, br, bq, ho, hs, hr, hq, lo, hl, lq⟩ hn

/-- C114: `TxOut(value, output_script)` accepts exactly bytes-like values, the first of 8 bytes, and raises ValueError for all others. -/
theorem C114_txOut (a b : Val) :
    (∀ v, Dyn.txOut a b = .ok v ↔ ∃ x y, Byteslike a x ∧ Byteslike b y ∧ x.length = 8 ∧ y.length < 2 ^ 64 ∧ v = .obj .txOut [a, b] (wireOut x y)) ∧
    ∀ e, Dyn.txOut a b = .error e → e = .valueError := by
  have main : (∃ x y, Byteslike a x ∧ Byteslike b y ∧ x.length = 8 ∧ y.length < 2 ^ 64 ∧ Dyn.txOut a b = .ok (.obj .txOut [a, b] (wireOut x y))) ∨
      (¬ ∃ x y, Byteslike a x ∧ Byteslike b y ∧ x.length = 8 ∧ y.length < 2 ^ 64) ∧ Dyn.txOut a b = .error .valueError := by
    unfold Dyn.txOut
    rcases validate_cases a (some 8) with ⟨x, hx, lx, ex⟩ | ⟨hx, ex⟩
    case inr => exact .inr ⟨fun ⟨x, _, h, _, l, _⟩ => hx ⟨x, h, fun k e => by cases e; exact l⟩, by rw [ex]; rfl⟩
    rcases validate_cases b none with ⟨y, hy, -, ey⟩ | ⟨hy, ey⟩
    case inr => exact .inr ⟨fun ⟨_, y, _, h, _⟩ => hy ⟨y, h, fun k e => by cases e⟩, by rw [ex, ey]; rfl⟩
    rw [ex, ey, iadd_ok.2 ⟨x, hx, rfl⟩, len_content hy]
    simp only [ok_bind]
    by_cases hl : y.length < 2 ^ 64
    · left
      refine ⟨x, y, hx, hy, lx 8 rfl, hl, ?_⟩
      rw [VarInt.make_len hl]
      simp only [ok_bind]
      rw [iadd_ok.2 ⟨y, hy, rfl⟩]
      simp only [ok_bind, wireOut, varBytes, List.append_assoc, List.nil_append]
    · right
      refine ⟨fun ⟨_, y', _, h, _, l⟩ => hl ?_, by rw [VarInt.make_len_error hl]; rfl⟩
      unfold Byteslike at h
      rw [hy] at h; cases h; exact l
  rcases main with ⟨x, y, hx, hy, lx, ly, e⟩ | ⟨hn, e⟩
  · rw [e]
    refine ⟨fun v => ⟨fun h => by cases h; exact ⟨x, y, hx, hy, lx, ly, rfl⟩, ?_⟩, fun e' h => (by cases h)⟩
    rintro ⟨x', y', hx', hy', _, _, rfl⟩
    unfold Byteslike at *
    rw [hx] at hx'; rw [hy] at hy'; cases hx'; cases hy'; rfl
  · rw [e]
    refine ⟨fun v => ⟨fun h => (by cases h), ?_⟩, fun e' h => (by cases h; rfl)⟩
    rintro ⟨x, y, hx, hy, lx, ly, -⟩; exact absurd ⟨x, y, hx, hy, lx, ly⟩ hn

/-- C114: `WitnessStackItem(item)` accepts exactly bytes-like values, and raises ValueError for all others. -/
theorem C114_item (a : Val) :
    (∀ v, Dyn.item a = .ok v ↔ ∃ x, Byteslike a x ∧ x.length < 2 ^ 64 ∧ v = .obj .item [a] (varBytes x)) ∧
    ∀ e, Dyn.item a = .error e → e = .valueError := by
  have main : (∃ x, Byteslike a x ∧ x.length < 2 ^ 64 ∧ Dyn.item a = .ok (.obj .item [a] (varBytes x))) ∨
      (¬ ∃ x, Byteslike a x ∧ x.length < 2 ^ 64) ∧ Dyn.item a = .error .valueError := by
    unfold Dyn.item
    rcases validate_cases a none with ⟨y, hy, -, ey⟩ | ⟨hy, ey⟩
    case inr => exact .inr ⟨fun ⟨y, h, _⟩ => hy ⟨y, h, fun k e => by cases e⟩, by rw [ey]; rfl⟩
    rw [ey, len_content hy]
    simp only [ok_bind]
    by_cases hl : y.length < 2 ^ 64
    · left
      refine ⟨y, hy, hl, ?_⟩
      rw [VarInt.make_len hl]
      simp only [ok_bind]
      rw [iadd_ok.2 ⟨y, hy, rfl⟩]
      rfl
    · right
      refine ⟨fun ⟨y', h, l⟩ => hl ?_, by rw [VarInt.make_len_error hl]; rfl⟩
      unfold Byteslike at h
      rw [hy] at h; cases h; exact l
  rcases main with ⟨x, hx, lx, e⟩ | ⟨hn, e⟩
  · rw [e]
    refine ⟨fun v => ⟨fun h => by cases h; exact ⟨x, hx, lx, rfl⟩, ?_⟩, fun e' h => (by cases h)⟩
    rintro ⟨x', hx', _, rfl⟩
    unfold Byteslike at *
    rw [hx] at hx'; cases hx'; rfl
  · rw [e]
    refine ⟨fun v => ⟨fun h => (by cases h), ?_⟩, fun e' h => (by cases h; rfl)⟩
    rintro ⟨x, hx, lx, -⟩; exact absurd ⟨x, hx, lx⟩ hn

end Verif.Props
