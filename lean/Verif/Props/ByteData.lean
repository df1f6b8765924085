import Verif.Lemmas.Bytes
import Verif.Model.Shared

/-! Properties C35, C36: `ByteData` of `tx/shared.py`. -/

namespace Verif.Props
open Verif

/-- The operations a user can perform on a `ByteData` object. -/
inductive Op where
  | iadd (x : PyVal)
  | setattr (w : AttrWrite)
  | freeze

/-- One operation: outcome and new object. -/
def step (d : ByteData) : Op → Py Unit × ByteData
  | .iadd x => d.iadd x
  | .setattr w => d.setattr w
  | .freeze => d.makeImmutable

/-- The object after a sequence of operations (exceptions are caught by the caller and execution goes on). -/
def run (d : ByteData) (ops : List Op) : ByteData := ops.foldl (fun d op => (step d op).2) d

/-! ## C35 -/

/-- C35: after any sequence of `+=` on a new object, the contents are the concatenation of the bytes-like operands
(other operands raise TypeError and change nothing); nothing else changes. -/
theorem C35_accumulates (xs : List PyVal) :
    let d := run ByteData.new (xs.map .iadd)
    d.toBytes = (xs.filterMap PyVal.asBytes).flatten ∧ d.len = ((xs.filterMap PyVal.asBytes).map List.length).sum ∧
    d.hex = toHex (xs.filterMap PyVal.asBytes).flatten := by
  have key : ∀ (xs : List PyVal) (d : ByteData), d.isBytearray = true →
      (run d (xs.map .iadd)).data = d.data ++ (xs.filterMap PyVal.asBytes).flatten := by
    intro xs
    induction xs with
    | nil => intro d _; simp [run]
    | cons x xs ih =>
      intro d hd
      have : run d ((x :: xs).map .iadd) = run (d.iadd x).2 (xs.map .iadd) := rfl
      rw [this, ih]
      · cases x <;> simp [ByteData.iadd, hd, List.filterMap_cons, PyVal.asBytes]
      · cases x <;> simp [ByteData.iadd, hd]
  have h := key xs ByteData.new rfl
  simp only [ByteData.new, List.nil_append] at h
  refine ⟨?_, ?_, ?_⟩
  · exact h
  · rw [ByteData.len, ← List.length_flatten]; exact congrArg List.length h
  · exact congrArg toHex h

/-- C35: `_make_immutable` on an object that is not frozen succeeds and keeps the contents. -/
theorem C35_freeze (d : ByteData) (h : d.immutable = false) :
    d.makeImmutable.1 = .ok () ∧ d.makeImmutable.2.toBytes = d.toBytes ∧ d.makeImmutable.2.hex = d.hex := by
  simp [ByteData.makeImmutable, h, ByteData.toBytes, ByteData.hex]

/-- C35: once frozen, whatever sequence of operations follows, every one of them raises and the object never changes
again. -/
theorem C35_frozen_forever (d : ByteData) (h : d.immutable = false) (ops : List Op) :
    let f := d.makeImmutable.2
    run f ops = f ∧ ∀ op, ∃ e, (step (run f ops) op).1 = .error e := by
  intro f
  have himm : f.immutable = true ∧ f.isBytearray = false := by
    simp [f, ByteData.makeImmutable, h]
  have hstep : ∀ op, (step f op).2 = f ∧ ∃ e, (step f op).1 = .error e := by
    intro op
    cases op with
    | iadd x => cases x <;> simp [step, ByteData.iadd, himm]
    | setattr w => simp [step, ByteData.setattr, himm]
    | freeze => simp [step, ByteData.makeImmutable, himm]
  have hrun : run f ops = f := by
    induction ops with
    | nil => rfl
    | cons op ops ih =>
      have : run f (op :: ops) = run (step f op).2 ops := rfl
      rw [this, (hstep op).1, ih]
  exact ⟨hrun, fun op => by rw [hrun]; exact (hstep op).2⟩

/-- C35: which exception: TypeError for attribute writes, AttributeError for `+=` of bytes. -/
theorem C35_frozen_errors (d : ByteData) (h : d.immutable = false) (w : AttrWrite) (b : Bytes) :
    (step d.makeImmutable.2 (.setattr w)).1 = .error .typeError ∧
    (step d.makeImmutable.2 (.iadd (.bytes b))).1 = .error .attributeError := by
  simp [step, ByteData.makeImmutable, h, ByteData.setattr, ByteData.iadd]

example : (run ByteData.new [.iadd (.bytes [1, 2]), .iadd .other, .iadd (.bytearray [3]), .freeze,
    .iadd (.bytes [9])]).toBytes = [1, 2, 3] := by decide

/-! ## C36 -/

/-- C36: comparison with any bytes-like value depends only on the bytes; `==` and `!=` are complementary. -/
theorem C36_eq_iff (d : ByteData) (x : PyVal) (b : Bytes) (hx : x.asBytes = some b) :
    d.eq x = .ok (decide (d.toBytes = b)) ∧ d.ne x = .ok (decide (d.toBytes ≠ b)) := by
  have key : ∀ y : Bytes, (!(d.data != y)) = decide (d.data = y) ∧ (d.data != y) = decide (d.data ≠ y) := by
    intro y; by_cases h : d.data = y <;> simp [h]
  cases x <;> simp only [PyVal.asBytes, Option.some.injEq, reduceCtorEq] at hx <;> subst hx <;>
    simp only [ByteData.eq, ByteData.ne, ByteData.toBytes, Except.ok.injEq] <;> exact key _

/-- C36: anything else raises TypeError, for `==` and `!=`. -/
theorem C36_type_error (d : ByteData) (x : PyVal) (hx : x.asBytes = none) :
    d.eq x = .error .typeError ∧ d.ne x = .error .typeError := by
  cases x <;> simp [PyVal.asBytes] at hx
  simp [ByteData.eq, ByteData.ne]

/-- C36: between ByteData objects, equality is an equivalence relation, regardless of being frozen or not. -/
theorem C36_equivalence (a b c : ByteData) :
    a.eq (.byteData a) = .ok true ∧
    a.eq (.byteData b) = b.eq (.byteData a) ∧
    (a.eq (.byteData b) = .ok true → b.eq (.byteData c) = .ok true → a.eq (.byteData c) = .ok true) ∧
    a.eq (.byteData a.makeImmutable.2) = .ok true := by
  have key : ∀ x y : ByteData, x.eq (.byteData y) = .ok (decide (x.data = y.data)) := fun x y =>
    (C36_eq_iff x (.byteData y) y.data rfl).1
  refine ⟨by simp [key], by simp [key, eq_comm], ?_, ?_⟩
  · simp only [key, Except.ok.injEq, decide_eq_true_eq]; exact Eq.trans
  · simp only [key, Except.ok.injEq, decide_eq_true_eq]
    unfold ByteData.makeImmutable; split <;> rfl

example : (ByteData.mk [1] false true).eq (.bytes [1]) = .ok true ∧ (ByteData.mk [1] false true).eq .other =
    .error .typeError := by decide

end Verif.Props
