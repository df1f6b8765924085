import Verif.Py

/-! # Independent specification: error patterns, letter case, witness programs -/

namespace Verif

/-- Number of positions where two lists differ (Hamming distance for lists of equal length). -/
def diffs {α : Type} [DecidableEq α] : List α → List α → Nat
  | x :: xs, y :: ys => (if x = y then 0 else 1) + diffs xs ys
  | _, _ => 0

/-- Every letter in lower case (Lean's `Char.toLower`). -/
def lowerCased (s : PyStr) : PyStr := s.map Char.toLower
/-- Every letter in upper case (Lean's `Char.toUpper`). -/
def upperCased (s : PyStr) : PyStr := s.map Char.toUpper

/-- A legal witness version and program (BIP 141, BIP 173). -/
def LegalProgram (v : Nat) (len : Nat) : Prop :=
  v ≤ 16 ∧ 2 ≤ len ∧ len ≤ 40 ∧ (v = 0 → len = 20 ∨ len = 32)

end Verif
