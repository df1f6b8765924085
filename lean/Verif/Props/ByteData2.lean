import Verif.Model.ByteData
import Verif.Model.Tx
import Verif.Lemmas.Bytes
import Verif.Spec.PyLiteral

/-! # C101: reading, searching and printing byte objects -/

namespace Verif.Props
open Verif

/-- C101: indexing agrees with iteration, from both ends, and raises IndexError everywhere else. -/
theorem C101_index (d : ByteData) :
    (∀ k (h : k < d.iter.length), d.index k = .ok d.iter[k]) ∧
    (∀ k (_ : 1 ≤ k) (h : k ≤ d.iter.length), d.index (-(k : Int)) = .ok (d.iter[d.iter.length - k]'(by omega))) ∧
    ∀ i : Int, (d.len : Int) ≤ i ∨ i < -(d.len : Int) → d.index i = .error .indexError := by
  simp only [ByteData.iter, ByteData.index, ByteData.len, getItem, pyIndex]
  refine ⟨fun k h => ?_, fun k h1 h => ?_, fun i h => ?_⟩
  · rw [if_pos (by omega), if_pos (by omega)]
    simp [List.getElem?_eq_getElem h]
  · rw [if_neg (by omega), if_pos (by omega)]
    have : (-(k : Int) + d.data.length).toNat = d.data.length - k := by omega
    simp only [this]
    rw [List.getElem?_eq_getElem (by omega)]
  · rcases h with h | h
    · rw [if_pos (by omega), if_neg (by omega)]
    · rw [if_neg (by omega), if_neg (by omega)]

example : (⟨[1, 2, 3], false, true⟩ : ByteData).index (-1) = .ok 3 ∧ (⟨[1, 2, 3], false, true⟩ : ByteData).index 3 = .error .indexError := by
  decide

/-- The position `i` of a sequence of `len` elements is not before the bound `a`; a negative bound counts from the end. -/
def FromBound (len : Nat) (a : Option Int) (i : Nat) : Prop :=
  match a with
  | none => True
  | some a => if a < 0 then a + len ≤ i else a ≤ i

instance (len : Nat) (a : Option Int) (i : Nat) : Decidable (FromBound len a i) := by
  unfold FromBound; cases a <;> infer_instance

/-- The position `i` is before the bound `a`. -/
def BeforeBound (len : Nat) (a : Option Int) (i : Nat) : Prop :=
  match a with
  | none => True
  | some a => if a < 0 then (i : Int) < a + len else i < a

instance (len : Nat) (a : Option Int) (i : Nat) : Decidable (BeforeBound len a i) := by
  unfold BeforeBound; cases a <;> infer_instance

theorem filter_range (n lo hi : Nat) (h : hi ≤ n) :
    (List.range n).filter (fun i => decide (lo ≤ i) && decide (i < hi)) = (List.range hi).drop lo := by
  obtain ⟨m, rfl⟩ := Nat.exists_eq_add_of_le h
  rw [List.range_add, List.filter_append]
  have h2 : ((List.range m).map (hi + ·)).filter (fun i => decide (lo ≤ i) && decide (i < hi)) = [] := by
    rw [List.filter_eq_nil_iff]
    intro a ha
    simp only [List.mem_map] at ha
    obtain ⟨x, _, rfl⟩ := ha
    simp
  rw [h2, List.append_nil]
  by_cases hl : lo ≤ hi
  · obtain ⟨k, rfl⟩ := Nat.exists_eq_add_of_le hl
    rw [List.range_add, List.filter_append, List.drop_append_of_le_length (by simp)]
    have e1 : (List.range lo).filter (fun i => decide (lo ≤ i) && decide (i < lo + k)) = [] := by
      rw [List.filter_eq_nil_iff]
      intro a ha
      simp only [List.mem_range] at ha
      simp; omega
    have e2 : ((List.range k).map (lo + ·)).filter (fun i => decide (lo ≤ i) && decide (i < lo + k)) = (List.range k).map (lo + ·) := by
      rw [List.filter_eq_self]
      intro a ha
      simp only [List.mem_map, List.mem_range] at ha
      obtain ⟨x, hx, rfl⟩ := ha
      simp; omega
    rw [e1, e2]
    simp
  · rw [List.drop_eq_nil_of_le (by simp; omega), List.filter_eq_nil_iff]
    intro a ha
    simp only [List.mem_range] at ha
    simp; omega

/-- C101: a slice has the elements at the positions between its bounds, in order; no bound raises. -/
theorem C101_slice (d : ByteData) (start stop : Option Int) :
    (d.slice start stop).map some =
      ((List.range d.len).filter fun i => decide (FromBound d.len start i) && decide (BeforeBound d.len stop i)).map fun i => d.iter[i]? := by
  have key : (d.slice start stop).map some =
      (((List.range d.len).filter fun i => decide ((start.map (sliceBound d.len)).getD 0 ≤ i) &&
        decide (i < (stop.map (sliceBound d.len)).getD d.len)).map fun i => d.iter[i]?) := by
    have hh : (stop.map (sliceBound d.len)).getD d.len ≤ d.len := by
      cases stop with
      | none => exact Nat.le_refl _
      | some a => simp only [Option.map_some, Option.getD_some, sliceBound]; split <;> omega
    rw [filter_range _ _ _ hh]
    simp only [ByteData.slice, pySlice, ByteData.iter, ByteData.len] at hh ⊢
    generalize (start.map (sliceBound d.data.length)).getD 0 = lo
    generalize (stop.map (sliceBound d.data.length)).getD d.data.length = hi at hh ⊢
    apply List.ext_getElem (by simp; omega)
    intro i h1 h2
    simp only [List.length_map, List.length_drop, List.length_take] at h1
    simp only [List.getElem_map, List.getElem_drop, List.getElem_take, List.getElem_range]
    rw [List.getElem?_eq_getElem (by omega)]
  rw [key]
  congr 1
  apply List.filter_congr
  intro i hi
  rw [List.mem_range] at hi
  congr 1
  · rw [decide_eq_decide]
    cases start with
    | none => simp [FromBound]
    | some a =>
      simp only [Option.map_some, Option.getD_some, sliceBound, FromBound]
      split <;> omega
  · rw [decide_eq_decide]
    cases stop with
    | none => simp [BeforeBound, hi]
    | some a =>
      simp only [Option.map_some, Option.getD_some, sliceBound, BeforeBound]
      split <;> omega

example : (⟨[1, 2, 3, 4], true, false⟩ : ByteData).slice (some (-3)) (some 100) = [2, 3, 4] := by decide

/-- `sub` occurs in `b` at position `k`. -/
def OccursAt (sub b : Bytes) (k : Nat) : Prop := ∃ p s, b = p ++ sub ++ s ∧ p.length = k

theorem findFrom_some {sub b : Bytes} {k r : Nat} (h : findFrom sub k b = some r) :
    k ≤ r ∧ OccursAt sub b (r - k) ∧ ∀ j < r - k, ¬ OccursAt sub b j := by
  induction b generalizing k with
  | nil =>
    simp only [findFrom] at h
    split at h
    · next hp =>
      cases h
      refine ⟨Nat.le_refl _, ⟨[], [], ?_, by simp⟩, by intro j hj; omega⟩
      simpa using hp
    · cases h
  | cons b bs ih =>
    simp only [findFrom] at h
    split at h
    · next hp =>
      cases h
      rw [List.isPrefixOf_iff_prefix] at hp
      obtain ⟨s, hs⟩ := hp
      exact ⟨Nat.le_refl _, ⟨[], s, by simp [hs], by simp⟩, by intro j hj; omega⟩
    · next hp =>
      obtain ⟨h1, ⟨p, s, h2, h3⟩, h4⟩ := ih h
      refine ⟨by omega, ⟨b :: p, s, by simp [h2], by simp; omega⟩, ?_⟩
      rintro j hj ⟨p', s', e, rfl⟩
      cases p' with
      | nil => exact hp (by rw [List.isPrefixOf_iff_prefix]; exact ⟨s', by simpa using e.symm⟩)
      | cons x p' =>
        simp only [List.cons_append, List.cons.injEq] at e
        simp only [List.length_cons] at hj
        exact h4 p'.length (by omega) ⟨p', s', e.2, rfl⟩

theorem findFrom_none {sub b : Bytes} {k : Nat} (h : findFrom sub k b = none) : ∀ j, ¬ OccursAt sub b j := by
  induction b generalizing k with
  | nil =>
    simp only [findFrom] at h
    split at h
    · cases h
    · next hp =>
      rintro j ⟨p, s, e, _⟩
      have : p ++ sub ++ s = [] := e.symm
      simp at this
      exact hp (by simp [this])
  | cons b bs ih =>
    simp only [findFrom] at h
    split at h
    · cases h
    · next hp =>
      rintro j ⟨p', s', e, rfl⟩
      cases p' with
      | nil => exact hp (by rw [List.isPrefixOf_iff_prefix]; exact ⟨s', by simpa using e.symm⟩)
      | cons x p' =>
        simp only [List.cons_append, List.cons.injEq] at e
        exact ih h p'.length ⟨p', s', e.2, rfl⟩

/-- C101: `find` gives the first position at which the bytes occur, whatever kind of object they come in, and -1 if there is none. -/
theorem C101_find (d : ByteData) (v : PyVal) (sub : Bytes) (hv : v.asBytes = some sub) :
    ∃ r, d.find v = .ok r ∧ (r = -1 ∧ (∀ j, ¬ OccursAt sub d.data j) ∨
      ∃ k : Nat, r = k ∧ OccursAt sub d.data k ∧ ∀ j < k, ¬ OccursAt sub d.data j) := by
  have key : d.find v = .ok (match findFrom sub 0 d.data with | some k => (k : Int) | none => -1) := by
    cases v with
    | bytes b => simp only [PyVal.asBytes, Option.some.injEq] at hv; subst hv; rfl
    | bytearray b => simp only [PyVal.asBytes, Option.some.injEq] at hv; subst hv; rfl
    | byteData b => simp only [PyVal.asBytes, Option.some.injEq] at hv; subst hv; rfl
    | other => cases hv
  rw [key]
  refine ⟨_, rfl, ?_⟩
  cases h : findFrom sub 0 d.data with
  | none => exact .inl ⟨rfl, findFrom_none h⟩
  | some k =>
    obtain ⟨_, h2, h3⟩ := findFrom_some h
    exact .inr ⟨k, rfl, by simpa using h2, by simpa using h3⟩

example : (⟨[1, 2, 3, 2, 3], false, true⟩ : ByteData).find (.bytearray [2, 3]) = .ok 1 ∧
    (⟨[1, 2, 3], false, true⟩ : ByteData).find (.bytes [3, 4]) = .ok (-1) := by decide

/-- C101, the part of `in` that holds: integers are found exactly when they are elements. -/
theorem C101_in_partial (d : ByteData) (n : Int) : d.contains (.int n) = .ok true ↔ ∃ x ∈ d.data, (x.toNat : Int) = n := by
  simp [ByteData.contains, ByteData.iter]

example : (⟨[1, 2, 3], false, true⟩ : ByteData).contains (.int 2) = .ok true := by decide

/-- C101 fails for `in`: `b in d` is False for every `bytes` object, also when it occurs in `d`, and raises TypeError for every byte object
of the library unless `d` is empty. (For `bytes` in place of `d` it is True when `b` occurs.) -/
theorem C101_in_false :
    (∀ (d : ByteData) (b : Bytes), d.contains (.val (.bytes b)) = .ok false ∧ d.contains (.val (.bytearray b)) = .ok false) ∧
    (∀ (d e : ByteData), d.data ≠ [] → d.contains (.val (.byteData e)) = .error .typeError) ∧
    ∃ (d : ByteData) (b : Bytes), OccursAt b d.data 1 ∧ d.contains (.val (.bytes b)) = .ok false := by
  refine ⟨fun d b => ⟨rfl, rfl⟩, fun d e h => ?_, ⟨[1, 2, 3], false, true⟩, [2, 3], ⟨[1], [], rfl, rfl⟩, rfl⟩
  simp [ByteData.contains, ByteData.iter, h]

theorem fromHex_upper (b : Bytes) : fromHex (Bech32.upper (toHex b)) = .ok b := by
  have key : ∀ n < 16, hexVal (Bech32.upperC (hexDigit n)) = some n ∧ isAsciiSpace (Bech32.upperC (hexDigit n)) = false := by decide
  unfold Bech32.upper
  induction b with
  | nil => simp [toHex, fromHex]
  | cons x xs ih =>
    have hx := x.toNat_lt
    have h1 : x.toNat / 16 < 16 := by omega
    have h2 : x.toNat % 16 < 16 := by omega
    have h3 : 16 * (x.toNat / 16) + x.toNat % 16 = x.toNat := by omega
    simp [toHex, fromHex, key _ h1, key _ h2, ih, h3]

/-- C101: formatting. A code with `x` or `X` gives hexadecimal digits, lower case if there is an `x`, two for each byte, that every
`from_hex` reads as the same bytes; the empty code gives the `str` of the buffer; every other code raises TypeError. -/
theorem C101_format (d : ByteData) (code : PyStr) :
    ('x' ∈ code ∨ 'X' ∈ code → ∃ s, d.format code = .ok s ∧ s.length = 2 * d.len ∧
      (∀ c ∈ s, c ∈ pystr "0123456789abcdef" ∨ 'x' ∉ code ∧ c ∈ pystr "0123456789ABCDEF") ∧
      ∀ (α : Type) (fromBytes : Bytes → Py α), ByteData.fromHex fromBytes s = fromBytes d.toBytes) ∧
    ('x' ∉ code → 'X' ∉ code → d.format code = if code = [] then .ok d.str else .error .typeError) := by
  have low : ∀ b : Bytes, ∀ c ∈ toHex b, c ∈ pystr "0123456789abcdef" := by
    have key : ∀ n < 16, hexDigit n ∈ pystr "0123456789abcdef" := by decide
    intro b
    induction b with
    | nil => simp [toHex]
    | cons x xs ih =>
      have hx := x.toNat_lt
      intro c hc
      simp only [toHex, List.mem_cons] at hc
      rcases hc with rfl | rfl | hc
      · exact key _ (by omega)
      · exact key _ (by omega)
      · exact ih c hc
  have up : ∀ c ∈ pystr "0123456789abcdef", Bech32.upperC c ∈ pystr "0123456789ABCDEF" := by decide
  constructor
  · intro h
    by_cases hx : 'x' ∈ code
    · refine ⟨toHex d.data, by simp [ByteData.format, hx, ByteData.hex], by simp [ByteData.len], fun c hc => .inl (low _ c hc), fun α f => ?_⟩
      simp [ByteData.fromHex, fromHex_toHex, ByteData.toBytes]
    · have hX : 'X' ∈ code := h.resolve_left hx
      refine ⟨Bech32.upper (toHex d.data), by simp [ByteData.format, hx, hX, ByteData.hex], by simp [ByteData.len, Bech32.upper],
        fun c hc => .inr ⟨hx, ?_⟩, fun α f => ?_⟩
      · simp only [Bech32.upper, List.mem_map] at hc
        obtain ⟨c', hc', rfl⟩ := hc
        exact up _ (low _ _ hc')
      · simp [ByteData.fromHex, fromHex_upper, ByteData.toBytes]
  · intro hx hX
    simp [ByteData.format, hx, hX]

example : (⟨[0xab, 0x01], false, true⟩ : ByteData).format (pystr "x") = .ok (pystr "ab01") ∧
    (⟨[0xab, 0x01], false, true⟩ : ByteData).format (pystr "X") = .ok (pystr "AB01") ∧
    (⟨[0xab, 0x01], false, true⟩ : ByteData).format (pystr "s") = .error .typeError := by decide

/-- C101: what `hex()` of a transaction shows, `Tx.from_hex` parses as `Tx.from_bytes` does its bytes; also in upper case, and also when
white space is put around it. -/
theorem C101_tx_hex (E : Env) (b : Bytes) (sp : PyStr) (hsp : ∀ c ∈ sp, isAsciiSpace c = true) :
    Tx.fromHex E (sp ++ toHex b) = Tx.fromBytes E b ∧ Tx.fromHex E (sp ++ Bech32.upper (toHex b)) = Tx.fromBytes E b := by
  have key : ∀ s, fromHex (sp ++ s) = fromHex s := by
    intro s
    induction sp with
    | nil => rfl
    | cons c cs ih =>
      have hc := hsp c (by simp)
      rw [List.cons_append, fromHex.eq_def]
      simp only [hc, if_true]
      exact ih (fun x hx => hsp x (by simp [hx]))
  constructor
  · simp [Tx.fromHex, key, fromHex_toHex]
  · simp [Tx.fromHex, key, fromHex_upper]

example : ∀ c ∈ pystr " \n", isAsciiSpace c = true := by decide

/-! ### repr -/

/-- `s` is a form of the byte `a` in a literal with quote `q`. -/
def isForm (q a : Nat) (s : PyStr) : Bool :=
  match s with
  | ['\\', 'x', h, l] => match Spec.hexDigitValue h, Spec.hexDigitValue l with
    | some x, some y => 16 * x + y == a
    | _, _ => false
  | ['\\', c] => c != 'x' && Spec.simpleEscape.lookup c == some (UInt8.ofNat a)
  | [c] => c != Char.ofNat q && decide (c.toNat < 128) && c != '\n' && c != '\r' && c != '\\' && c.toNat == a
  | _ => false

/-- How each byte is printed, as a table: between quotes `q`, quotes `e` being escaped. -/
theorem reprByte_forms : ∀ q ∈ [34, 39], ∀ e ∈ [34, 39], ∀ a < 256, e = q ∨ a ≠ q → isForm q a (reprByte e (UInt8.ofNat a)) = true := by
  decide +kernel

theorem readLiteralBody_byte {q e : Nat} (hq : q ∈ [34, 39]) (he : e ∈ [34, 39]) (x : UInt8) (hx : e = q ∨ x.toNat ≠ q) (cs : PyStr) :
    Spec.readLiteralBody (Char.ofNat q) (reprByte e x ++ cs) =
      (Spec.readLiteralBody (Char.ofNat q) cs).map fun p => (x :: p.1, p.2) := by
  have h := reprByte_forms q hq e he x.toNat x.toNat_lt hx
  rw [UInt8.ofNat_toNat] at h
  generalize reprByte e x = s at h
  unfold isForm at h
  split at h
  · next a b =>
    split at h
    · next u v hu hv =>
      simp only [List.cons_append, List.nil_append, Spec.readLiteralBody, hu, hv, Option.bind_eq_bind, Option.bind_some, beq_iff_eq.1 h, UInt8.ofNat_toNat]
      cases Spec.readLiteralBody (Char.ofNat q) cs <;> rfl
    · cases h
  · next c _ =>
    simp only [Bool.and_eq_true, bne_iff_ne, ne_eq, beq_iff_eq, UInt8.ofNat_toNat] at h
    simp only [List.cons_append, List.nil_append]
    rw [Spec.readLiteralBody]
    · simp only [h.2]
      cases Spec.readLiteralBody (Char.ofNat q) cs <;> rfl
    · exact fun a b cs' e _ => h.1 e
  · next c =>
    simp only [Bool.and_eq_true, bne_iff_ne, ne_eq, beq_iff_eq, decide_eq_true_iff] at h
    obtain ⟨⟨⟨⟨⟨h1, h2⟩, h3⟩, h4⟩, h5⟩, h6⟩ := h
    simp only [List.cons_append, List.nil_append]
    rw [Spec.readLiteralBody]
    · rw [if_neg h1, if_pos ⟨h2, h3, h4, h5⟩, h6, UInt8.ofNat_toNat]
      cases Spec.readLiteralBody (Char.ofNat q) cs <;> rfl
    · exact fun _ _ _ e => absurd e h5
    · exact fun _ _ e => absurd e h5
  · cases h

theorem reprQuote_mem (b : Bytes) : reprQuote b ∈ [34, 39] := by unfold reprQuote; split <;> simp

theorem reprEscape_mem (k : Bool) (b : Bytes) : (if k then 39 else reprQuote b) ∈ [34, 39] := by
  cases k
  · exact reprQuote_mem b
  · simp

/-- The quote around the literal is escaped or does not occur. -/
theorem reprEscape_ok (k : Bool) (b : Bytes) : ∀ x ∈ b, (if k then 39 else reprQuote b) = reprQuote b ∨ x.toNat ≠ reprQuote b := by
  intro x hx
  cases k
  · exact .inl rfl
  · by_cases h : (b.contains 39 && !b.contains 34) = true
    · right
      rw [show reprQuote b = 34 by unfold reprQuote; rw [if_pos h]]
      intro e
      simp only [Bool.and_eq_true, Bool.not_eq_true', List.contains_eq_mem, decide_eq_true_iff, decide_eq_false_iff_not] at h
      refine h.2 ?_
      rw [show (34 : UInt8) = x from UInt8.toNat_inj.1 e.symm]
      exact hx
    · left
      rw [show reprQuote b = 39 by unfold reprQuote; rw [if_neg h]]
      rfl

/-- A printed buffer is read back, whatever follows. -/
theorem readLiteral_repr (k : Bool) (b : Bytes) (r : PyStr) : Spec.readLiteral (reprLiteral k b ++ r) = some (b, r) := by
  have hq := reprQuote_mem b
  have key : ∀ l : Bytes, (∀ x ∈ l, x ∈ b) → Spec.readLiteralBody (Char.ofNat (reprQuote b))
      (l.flatMap (reprByte (if k then 39 else reprQuote b)) ++ (Char.ofNat (reprQuote b) :: r)) = some (l, r) := by
    intro l hl
    induction l with
    | nil =>
      rcases List.mem_cons.1 hq with e | e
      · rw [e]; rfl
      · rw [List.mem_singleton.1 e]; rfl
    | cons x l ih =>
      rw [List.flatMap_cons, List.append_assoc, readLiteralBody_byte hq (reprEscape_mem k b) x (reprEscape_ok k b x (hl x (by simp))),
        ih fun y hy => hl y (by simp [hy])]
      rfl
  have hc : Char.ofNat (reprQuote b) = '\'' ∨ Char.ofNat (reprQuote b) = '"' := by
    rcases List.mem_cons.1 hq with e | e
    · rw [e]; exact .inr rfl
    · rw [List.mem_singleton.1 e]; exact .inl rfl
  unfold reprLiteral Spec.readLiteral
  simp only [List.cons_append, List.append_assoc, List.nil_append]
  rw [if_pos hc]
  exact key b fun _ h => h

theorem reprLiteral_inj {k : Bool} {a b : Bytes} {r s : PyStr} (h : reprLiteral k a ++ r = reprLiteral k b ++ s) : a = b ∧ r = s := by
  have := readLiteral_repr k a r
  rw [h, readLiteral_repr] at this
  cases this
  exact ⟨rfl, rfl⟩

/-- C101: the printed form of an object shows all of its bytes: two objects of one class with the same printed form have the same bytes and are both frozen or both not. -/
theorem C101_repr (name : PyStr) (d e : ByteData) (h : d.repr name = e.repr name) : d.data = e.data ∧ d.isBytearray = e.isBytearray := by
  simp only [ByteData.repr, List.append_cancel_left_eq] at h
  unfold ByteData.str at h
  split at h <;> split at h
  · next h1 h2 =>
    simp only [List.append_assoc, List.append_cancel_left_eq] at h
    exact ⟨(reprLiteral_inj h).1, by rw [h1, h2]⟩
  · next h1 h2 => simp [reprLiteral, reprQuote] at h; exact absurd h.1 (by split <;> decide)
  · next h1 h2 => simp [reprLiteral, reprQuote] at h; exact absurd h.1 (by split <;> decide)
  · next h1 h2 =>
    have : reprLiteral false d.data ++ [] = reprLiteral false e.data ++ [] := by rw [List.append_nil, List.append_nil]; exact h
    exact ⟨(reprLiteral_inj this).1, by simp only [Bool.not_eq_true] at h1 h2; rw [h1, h2]⟩

/-- C101: the printed form is ASCII text without control characters. -/
theorem C101_repr_ascii (d : ByteData) : ∀ c ∈ d.str, 32 ≤ c.toNat ∧ c.toNat < 127 := by
  have key : ∀ q ∈ [34, 39], (∀ a < 256, ∀ c ∈ reprByte q (UInt8.ofNat a), 32 ≤ c.toNat ∧ c.toNat < 127) ∧
      32 ≤ (Char.ofNat q).toNat ∧ (Char.ofNat q).toNat < 127 := by decide +kernel
  have rb : ∀ k b, ∀ c ∈ reprLiteral k b, 32 ≤ c.toNat ∧ c.toNat < 127 := by
    intro k b c hc
    have k2 := (key _ (reprQuote_mem b)).2
    have k1 := (key _ (reprEscape_mem k b)).1
    simp only [reprLiteral, List.mem_cons, List.mem_append, List.mem_flatMap, List.not_mem_nil, or_false] at hc
    rcases hc with rfl | rfl | ⟨x, _, hx⟩ | rfl
    · decide
    · exact k2
    · exact k1 x.toNat x.toNat_lt c (by rw [UInt8.ofNat_toNat]; exact hx)
    · exact k2
  have h1 : ∀ c ∈ pystr "bytearray(", 32 ≤ c.toNat ∧ c.toNat < 127 := by decide
  have h2 : ∀ c ∈ pystr ")", 32 ≤ c.toNat ∧ c.toNat < 127 := by decide
  intro c hc
  unfold ByteData.str at hc
  split at hc
  · rw [List.mem_append, List.mem_append] at hc
    rcases hc with (hc | hc) | hc
    · exact h1 c hc
    · exact rb _ _ c hc
    · exact h2 c hc
  · exact rb _ _ c hc

example : (⟨[0x61, 39], true, false⟩ : ByteData).repr (pystr "VarInt") = pystr "VarInt: bytearray(b\"a\\'\")" := by decide +kernel

example : (⟨[0x61, 39, 0, 92, 10, 0xff], false, true⟩ : ByteData).repr (pystr "Tx") = pystr "Tx: b\"a'\\x00\\\\\\n\\xff\"" := by decide +kernel

/-- C101: what is printed after the name of the class is a bytes literal of Python with the bytes of the object as value, in `bytearray(...)` if the
object is not frozen. -/
theorem C101_repr_literal (name : PyStr) (d : ByteData) :
    ∃ lit, d.repr name = name ++ pystr ": " ++ (if d.isBytearray then pystr "bytearray(" ++ lit ++ pystr ")" else lit) ∧
      Spec.readLiteral lit = some (d.toBytes, []) := by
  refine ⟨reprLiteral d.isBytearray d.data, ?_, by simpa [ByteData.toBytes] using readLiteral_repr d.isBytearray d.data []⟩
  unfold ByteData.repr ByteData.str
  cases d.isBytearray <;> rfl

example : Spec.readLiteral (pystr "b\"a'\\x00\\\\\\n\\xff\"") = some ([0x61, 39, 0, 92, 10, 0xff], []) := by decide +kernel

end Verif.Props
