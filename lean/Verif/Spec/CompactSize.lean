import Verif.Spec.Ints

/-! Bitcoin's CompactSize ("varint") encoding, written directly from the protocol documentation. -/

namespace Verif.Spec

/-- `b` is the CompactSize encoding of `n`: marker byte by range, then a fixed-width little-endian number. -/
def IsCompactSize (n : Nat) (b : Bytes) : Prop :=
  (n < 253 ∧ b.length = 1 ∧ leValue b = n) ∨
  (253 ≤ n ∧ n < 2 ^ 16 ∧ ∃ d, b = 0xfd :: d ∧ d.length = 2 ∧ leValue d = n) ∨
  (2 ^ 16 ≤ n ∧ n < 2 ^ 32 ∧ ∃ d, b = 0xfe :: d ∧ d.length = 4 ∧ leValue d = n) ∨
  (2 ^ 32 ≤ n ∧ n < 2 ^ 64 ∧ ∃ d, b = 0xff :: d ∧ d.length = 8 ∧ leValue d = n)

/-- A byte string that starts with a complete number in CompactSize framing, canonical or not: marker and number. -/
def CompactSizeFrame (n : Nat) (frame : Bytes) : Prop :=
  (n < 253 ∧ frame.length = 1 ∧ leValue frame = n) ∨
  (∃ d, frame = 0xfd :: d ∧ d.length = 2 ∧ leValue d = n) ∨
  (∃ d, frame = 0xfe :: d ∧ d.length = 4 ∧ leValue d = n) ∨
  (∃ d, frame = 0xff :: d ∧ d.length = 8 ∧ leValue d = n)

end Verif.Spec
