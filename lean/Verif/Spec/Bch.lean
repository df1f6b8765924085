import Mathlib.RingTheory.AdjoinRoot
import Verif.Spec.Bits
import Verif.Spec.Segwit

/-! # The checksums of Bech32 and cashaddr as their specifications give them: BCH codes over the field with 32 elements

BIP 173: `GF(32)` is `GF(2)[a] / (a^5 + a^3 + 1)`, a symbol of five bits stands for the polynomial in `a` with these coefficients, and
a sequence of symbols for the polynomial with these coefficients, the first symbol at the highest power. -/

namespace Verif.Spec
open Polynomial

/-- `a^5 + a^3 + 1` -/
noncomputable def gfModulus : (ZMod 2)[X] := X ^ 5 + X ^ 3 + 1

/-- The field of 32 elements. -/
abbrev GF32 : Type := AdjoinRoot gfModulus

/-- The field element with the five low bits of `v` as coefficients. -/
noncomputable def gf (v : Nat) : GF32 := ∑ i ∈ Finset.range 5, if v.testBit i then AdjoinRoot.root gfModulus ^ i else 0

/-- The polynomial with the symbols as coefficients, the highest power first. -/
noncomputable def symbolPoly (vs : List Nat) : GF32[X] := vs.foldl (fun p v => p * X + C (gf v)) 0

/-- BIP 173: `x^6 + {29}x^5 + {22}x^4 + {20}x^3 + {21}x^2 + {29}x + {18}`. -/
noncomputable def bech32Gen : GF32[X] :=
  X ^ 6 + C (gf 29) * X ^ 5 + C (gf 22) * X ^ 4 + C (gf 20) * X ^ 3 + C (gf 21) * X ^ 2 + C (gf 29) * X + C (gf 18)

/-- The cashaddr specification: `x^8 + {19}x^7 + {3}x^6 + {25}x^5 + {11}x^4 + {25}x^3 + {3}x^2 + {19}x + {1}`. -/
noncomputable def cashGen : GF32[X] :=
  X ^ 8 + C (gf 19) * X ^ 7 + C (gf 3) * X ^ 6 + C (gf 25) * X ^ 5 + C (gf 11) * X ^ 4 + C (gf 25) * X ^ 3 + C (gf 3) * X ^ 2 +
    C (gf 19) * X + C (gf 1)

/-- The symbols of a human-readable part: the high bits of the characters, a zero, the low five bits. -/
def bech32Hrp (hrp : PyStr) : List Nat := hrp.map (·.toNat / 32) ++ 0 :: hrp.map (·.toNat % 32)

/-- The symbols of a cashaddr prefix: the low five bits of the characters and a zero. -/
def cashHrp (pre : PyStr) : List Nat := pre.map (·.toNat % 32) ++ [0]

/-- BIP 173: the data (checksum included) is valid for the human-readable part. The remainder is to be 1, with a symbol 1 put in front. -/
def IsBech32Code (hrp : PyStr) (data : List Nat) : Prop := bech32Gen ∣ symbolPoly (1 :: bech32Hrp hrp ++ data) - 1

/-- The same for cashaddr. -/
def IsCashCode (pre : PyStr) (payload : List Nat) : Prop := cashGen ∣ symbolPoly (1 :: cashHrp pre ++ payload) - 1

/-- The character of a symbol below 32. -/
def bechChar (d : Nat) : Char := "qpzry9x8gf2tvdw0s3jn54khce6mua7l".toList.getD d '?'

/-- BIP 173: `s` is the address of version `v` and program `prog`: in one case, at most 90 characters, human-readable part, `1`, the symbols
of version, program (padded with fewer than five zero bits) and checksum. -/
def IsSegwitAddress (hrp : PyStr) (v : Nat) (prog : Bytes) (s : PyStr) : Prop :=
  (lowerCased s = s ∨ upperCased s = s) ∧ s.length ≤ 90 ∧ LegalProgram v prog.length ∧
  ∃ r c, Regroups 8 5 (prog.map UInt8.toNat) r ∧ Digits 5 c ∧ c.length = 6 ∧ IsBech32Code hrp (v :: r ++ c) ∧
    lowerCased s = hrp ++ '1' :: (v :: r ++ c).map bechChar

end Verif.Spec
