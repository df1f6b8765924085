import Verif.Spec.Ints

/-! Specification of base58 (independent of the conversion algorithm): equal big-endian values, equal numbers of
leading zero symbols. -/

namespace Verif.Spec

/-- The Bitcoin base58 alphabet, in digit order. -/
def b58Alphabet : PyStr := "123456789ABCDEFGHJKLMNPQRSTUVWXYZabcdefghijkmnopqrstuvwxyz".toList

/-- Value of a digit character. -/
def b58Digit (c : Char) : Nat := b58Alphabet.idxOf c

/-- Value of a string of digits, most significant first. -/
def b58Value (s : PyStr) : Nat := s.foldl (fun a c => 58 * a + b58Digit c) 0

/-- `s` is the base58 representation of the byte string `d`. -/
structure IsBase58 (d : Bytes) (s : PyStr) : Prop where
  alphabet : ∀ c ∈ s, c ∈ b58Alphabet
  zeros : (s.takeWhile (· == '1')).length = (d.takeWhile (· == 0)).length
  value : b58Value s = beValue d

end Verif.Spec
