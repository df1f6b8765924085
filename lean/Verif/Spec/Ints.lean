import Verif.Py

/-! Specification of integer encodings, independent of the model: values of byte strings as explicit sums. -/

namespace Verif.Spec

/-- Value of a little-endian byte string: the sum of `b[i] * 256^i`. -/
def leValue (b : Bytes) : Nat :=
  ((List.range b.length).map fun i => (b[i]?.getD 0).toNat * 256 ^ i).sum

/-- Value of a big-endian byte string (Horner). -/
def beValue (b : Bytes) : Nat := b.foldl (fun a x => 256 * a + x.toNat) 0

/-- Value of a little-endian two's-complement byte string: the top bit has negative weight. -/
def leSignedValue (b : Bytes) : Int :=
  match b.getLast? with
  | none => 0
  | some top => if 128 ≤ top.toNat then (leValue b : Int) - (256 ^ b.length : Nat) else leValue b

/-- Value of a Bitcoin script number: little-endian magnitude, top bit of the last byte is the sign. -/
def scriptNumValue (b : Bytes) : Int :=
  match b.getLast? with
  | none => 0
  | some top =>
    if 128 ≤ top.toNat then -((leValue b : Int) - (128 * 256 ^ (b.length - 1) : Nat)) else leValue b

/-- Bitcoin's minimality rule for script numbers: the last byte carries magnitude bits, unless it is only there for the
sign of a preceding byte with the top bit set. -/
def scriptNumMinimal (b : Bytes) : Prop :=
  match b.reverse with
  | [] => True
  | [top] => top.toNat % 128 ≠ 0
  | top :: next :: _ => top.toNat % 128 ≠ 0 ∨ 128 ≤ next.toNat

end Verif.Spec
