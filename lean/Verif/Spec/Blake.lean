import Verif.Py

/-! The BLAKE specification (SHA-3 proposal BLAKE, version 1.4): BLAKE-224, -256, -384 and -512, on plain bytes and independent of the model.
The constants are computed rather than copied: the initial values from square roots of primes, the word constants from digits of π. -/

namespace Verif.Spec.Blake

/-! ### constants -/

/-- The integer part of the square root of `n < 2^(2k)`, bit by bit. -/
def isqrt (n : Nat) : Nat → Nat → Nat
  | 0, r => r
  | k + 1, r => isqrt n k (if (r + 2 ^ k) ^ 2 ≤ n then r + 2 ^ k else r)

/-- The first `bits` bits of the fractional part of the square root of `p`. -/
def sqrtFrac (bits p : Nat) : Nat := isqrt (p * 2 ^ (2 * bits)) (bits + 4) 0 % 2 ^ bits

/-- `scale * arctan (1/x)`: the first `n` terms of the Taylor series from term `k` on. -/
def arctanInv (x : Nat) : Nat → Nat → Int → Int
  | 0, _, _ => 0
  | n + 1, k, pow => (if k % 2 = 0 then 1 else -1) * (pow / (2 * k + 1 : Nat)) + arctanInv x n (k + 1) (pow / (x * x : Nat))

/-- The first 1024 bits of the fractional part of π, by Machin's formula with 64 guard bits. -/
def piFrac : Nat :=
  let scale : Int := 2 ^ 1088
  ((16 * arctanInv 5 250 0 (scale / 5) - 4 * arctanInv 239 80 0 (scale / 239)).toNat / 2 ^ 64) % 2 ^ 1024

/-- Word `i` of `w` bits of the fractional part of π. -/
def piWord (w i : Nat) : Nat := piFrac / 2 ^ (1024 - w * (i + 1)) % 2 ^ w

/-- The permutations σ. -/
def sigma (r i : Nat) : Nat :=
  (([[0, 1, 2, 3, 4, 5, 6, 7, 8, 9, 10, 11, 12, 13, 14, 15],
    [14, 10, 4, 8, 9, 15, 13, 6, 1, 12, 0, 2, 11, 7, 5, 3],
    [11, 8, 12, 0, 5, 2, 15, 13, 10, 14, 3, 6, 7, 1, 9, 4],
    [7, 9, 3, 1, 13, 12, 11, 14, 2, 6, 5, 10, 4, 0, 15, 8],
    [9, 0, 5, 7, 2, 4, 10, 15, 14, 1, 11, 12, 6, 8, 3, 13],
    [2, 12, 6, 10, 0, 11, 8, 3, 4, 13, 7, 5, 15, 14, 1, 9],
    [12, 5, 1, 15, 14, 13, 4, 10, 0, 7, 6, 3, 9, 2, 8, 11],
    [13, 11, 7, 14, 12, 1, 3, 9, 5, 0, 15, 4, 8, 6, 2, 10],
    [6, 15, 14, 9, 11, 3, 0, 8, 12, 2, 13, 7, 1, 4, 10, 5],
    [10, 2, 8, 4, 7, 6, 1, 5, 15, 11, 9, 14, 3, 12, 13, 0]] : List (List Nat))[r % 10]?.getD [])[i]?.getD 0

/-- A member of the family, with words of `w` bits. -/
structure Params (w : Nat) where
  rounds : Nat
  rot1 : Nat
  rot2 : Nat
  rot3 : Nat
  rot4 : Nat
  iv : Nat → Nat
  /-- the last padding bit -/
  padBit : Nat
  outBytes : Nat

def primes : List Nat := [2, 3, 5, 7, 11, 13, 17, 19, 23, 29, 31, 37, 41, 43, 47, 53]

def p256 : Params 32 := ⟨14, 16, 12, 8, 7, fun i => sqrtFrac 32 (primes[i]?.getD 0), 1, 32⟩
def p224 : Params 32 := ⟨14, 16, 12, 8, 7, fun i => sqrtFrac 64 (primes[i + 8]?.getD 0) % 2 ^ 32, 0, 28⟩
def p512 : Params 64 := ⟨16, 32, 25, 16, 11, fun i => sqrtFrac 64 (primes[i]?.getD 0), 1, 64⟩
def p384 : Params 64 := ⟨16, 32, 25, 16, 11, fun i => sqrtFrac 64 (primes[i + 8]?.getD 0), 0, 48⟩

/-! ### the compression function -/

/-- A number from bytes, most significant first. -/
def beValue (b : Bytes) : Nat := b.foldl (fun n x => 256 * n + x.toNat) 0

/-- The `k` bytes of a number, most significant first. -/
def beBytes (k n : Nat) : Bytes := (List.range k).map fun i => UInt8.ofNat (n / 256 ^ (k - 1 - i) % 256)

/-- A column or diagonal of the state. -/
structure Quad (w : Nat) where
  a : BitVec w
  b : BitVec w
  c : BitVec w
  d : BitVec w

/-- `k`-th component. -/
def Quad.get {w : Nat} (q : Quad w) (k : Nat) : BitVec w := if k = 0 then q.a else if k = 1 then q.b else if k = 2 then q.c else q.d

variable {w : Nat}

/-- Word constants. -/
def con (w i : Nat) : BitVec w := BitVec.ofNat w (piWord w i)

/-- The function `G_i` of round `r`. -/
def g (p : Params w) (m : Nat → BitVec w) (r i : Nat) (q : Quad w) : Quad w :=
  let j := sigma r (2 * i)
  let k := sigma r (2 * i + 1)
  let a := q.a + q.b + (m j ^^^ con w k)
  let d := (q.d ^^^ a).rotateRight p.rot1
  let c := q.c + d
  let b := (q.b ^^^ c).rotateRight p.rot2
  let a := a + b + (m k ^^^ con w j)
  let d := (d ^^^ a).rotateRight p.rot3
  let c := c + d
  let b := (b ^^^ c).rotateRight p.rot4
  ⟨a, b, c, d⟩

/-- `G` on the four columns of the 4 × 4 state (word `4 * row + column`). -/
def columns (p : Params w) (m : Nat → BitVec w) (r : Nat) (v : Nat → BitVec w) : Nat → BitVec w := fun k =>
  let i := k % 4
  (g p m r i ⟨v i, v (4 + i), v (8 + i), v (12 + i)⟩).get (k / 4)

/-- `G` on the four diagonals. -/
def diagonals (p : Params w) (m : Nat → BitVec w) (r : Nat) (v : Nat → BitVec w) : Nat → BitVec w := fun k =>
  let i := (k % 4 + 4 - k / 4) % 4
  (g p m r (4 + i) ⟨v i, v (4 + (i + 1) % 4), v (8 + (i + 2) % 4), v (12 + (i + 3) % 4)⟩).get (k / 4)

/-- All rounds. -/
def rounds (p : Params w) (m : Nat → BitVec w) (n : Nat) (v : Nat → BitVec w) : Nat → BitVec w :=
  (List.range n).foldl (fun v r => diagonals p m r (columns p m r v)) v

/-- The initial state from chain value, salt and counter (low and high word). -/
def initial (h s : Nat → BitVec w) (t : Nat) : Nat → BitVec w := fun k =>
  if k < 8 then h k
  else if k < 12 then s (k - 8) ^^^ con w (k - 8)
  else if k < 14 then BitVec.ofNat w t ^^^ con w (k - 8)
  else BitVec.ofNat w (t / 2 ^ w) ^^^ con w (k - 8)

/-- The compression function. -/
def compress (p : Params w) (h s m : Nat → BitVec w) (t : Nat) : Nat → BitVec w := fun k =>
  let v := rounds p m p.rounds (initial h s t)
  h k ^^^ s (k % 4) ^^^ v k ^^^ v (k + 8)

/-! ### the hash function -/

/-- The block size in bytes: 16 words. -/
def blockBytes (w : Nat) : Nat := 2 * w

/-- The number of padding bytes: the bits `1 0...0 b`, at least one byte, up to the last `2 w` bits of a block. -/
def padLen (w n : Nat) : Nat := 1 + (2 * blockBytes w - w / 4 - 1 - n % blockBytes w) % blockBytes w

/-- The padded message: the padding bits as bytes, then the bit length in two words. -/
def padded (p : Params w) (m : Bytes) : Bytes :=
  m ++ beBytes (padLen w m.length) (2 ^ (8 * padLen w m.length - 1) + p.padBit) ++ beBytes (w / 4) (8 * m.length)

/-- The counter of block `i`: the number of message bits hashed with it, or 0 if it contains none. -/
def counter (w n i : Nat) : Nat := if 8 * n ≤ 8 * blockBytes w * i then 0 else min (8 * n) (8 * blockBytes w * (i + 1))

/-- Word `j` of block `i`. -/
def word (w : Nat) (x : Bytes) (i j : Nat) : BitVec w :=
  BitVec.ofNat w (beValue ((x.drop (blockBytes w * i + w / 8 * j)).take (w / 8)))

/-- The chain value after `k` blocks of the padded message `x` of a message of `n` bytes. -/
def chain (p : Params w) (s : Nat → BitVec w) (x : Bytes) (n : Nat) : Nat → Nat → BitVec w
  | 0 => fun i => BitVec.ofNat w (p.iv i)
  | k + 1 => compress p (chain p s x n k) s (word w x k) (counter w n k)

/-- The hash of a message with a salt. -/
def hashSalted (p : Params w) (s : Nat → BitVec w) (m : Bytes) : Bytes :=
  let x := padded p m
  let h := chain p s x m.length (x.length / blockBytes w)
  (((List.range 8).map fun i => beBytes (w / 8) (h i).toNat).flatten).take p.outBytes

/-- The hash of a message. -/
def hash (p : Params w) (m : Bytes) : Bytes := hashSalted p (fun _ => 0) m

end Verif.Spec.Blake
