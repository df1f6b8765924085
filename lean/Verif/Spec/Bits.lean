/-! # Independent specification: bit regrouping

Digits of a fixed width are read as the concatenation of their bits, most significant first. -/

namespace Verif

/-- The `w` low bits of `v`, most significant first. -/
def toBits : Nat → Nat → List Bool
  | 0, _ => []
  | w + 1, v => v.testBit w :: toBits w v

/-- The bit string of a list of `w`-bit digits. -/
def bitsOf (w : Nat) (ds : List Nat) : List Bool := ds.flatMap (toBits w)

/-- All digits fit in `w` bits. -/
def Digits (w : Nat) (ds : List Nat) : Prop := ∀ d ∈ ds, d < 2 ^ w

/-- `r` (width `t`) carries the bits of `d` (width `f`) followed by fewer than `t` zero bits. -/
def Regroups (f t : Nat) (d r : List Nat) : Prop :=
  Digits f d ∧ Digits t r ∧ ∃ k < t, bitsOf t r = bitsOf f d ++ List.replicate k false

end Verif
