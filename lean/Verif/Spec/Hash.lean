import Verif.Model.Utils

/-! # SHA-256, RIPEMD-160 and BLAKE2b

The functions of `hashlib` that the library calls, from FIPS 180-4, the RIPEMD-160 paper and RFC 7693. No theorem depends on them: theorems quantify
over all hash functions with the right digest lengths. They serve to run the model on the vectors of the library's tests (`Verif/Vectors`), and to
show that the assumption on lengths holds of the real functions.

Words are natural numbers below `2^32` or `2^64`. -/

namespace Verif.Spec

/-- Sum modulo `2^32`. -/
def add32 (x y : Nat) : Nat := (x + y) % 0x100000000

/-- Rotation of a 32-bit word to the right. -/
def rotr32 (n x : Nat) : Nat := ((x <<< 32 ||| x) >>> n) % 0x100000000

/-- Sum modulo `2^64`. -/
def add64 (x y : Nat) : Nat := (x + y) % 0x10000000000000000

/-- Rotation of a 64-bit word to the right. -/
def rotr64 (n x : Nat) : Nat := ((x <<< 64 ||| x) >>> n) % 0x10000000000000000

/-- Cuts a list into pieces of `k`, the last may be shorter; `fuel` bounds the number of pieces. -/
def chunks (k : Nat) : Nat → List UInt8 → List (List UInt8)
  | 0, _ => []
  | fuel + 1, l => l.take k :: chunks k fuel (l.drop k)

/-- Big-endian number. -/
def beNat (l : List UInt8) : Nat := l.foldl (fun n b => n * 256 + b.toNat) 0

/-- Little-endian number. -/
def leNat (l : List UInt8) : Nat := l.foldr (fun b n => b.toNat + n * 256) 0

/-- `k` little-endian bytes. -/
def leDigits : Nat → Nat → List UInt8
  | 0, _ => []
  | k + 1, n => UInt8.ofNat (n % 256) :: leDigits k (n / 256)

/-- `k` big-endian bytes. -/
def beDigits (k n : Nat) : List UInt8 := (leDigits k n).reverse

theorem leDigits_length (k n : Nat) : (leDigits k n).length = k := by
  induction k generalizing n with
  | zero => rfl
  | succ k ih => simp [leDigits, ih]

/-- The padding of SHA-256 and RIPEMD-160: a one bit, zeros, and the number of bits in eight bytes. -/
def mdPad (len : List UInt8) (n : Nat) : List UInt8 := 0x80 :: (List.replicate ((119 - n % 64) % 64) 0 ++ len)

/-! ### SHA-256 -/

/-- The first 32 bits of the fractional parts of the cube roots of the first 64 primes. -/
def sha256K : List Nat := [
  0x428a2f98, 0x71374491, 0xb5c0fbcf, 0xe9b5dba5, 0x3956c25b, 0x59f111f1, 0x923f82a4, 0xab1c5ed5,
  0xd807aa98, 0x12835b01, 0x243185be, 0x550c7dc3, 0x72be5d74, 0x80deb1fe, 0x9bdc06a7, 0xc19bf174,
  0xe49b69c1, 0xefbe4786, 0x0fc19dc6, 0x240ca1cc, 0x2de92c6f, 0x4a7484aa, 0x5cb0a9dc, 0x76f988da,
  0x983e5152, 0xa831c66d, 0xb00327c8, 0xbf597fc7, 0xc6e00bf3, 0xd5a79147, 0x06ca6351, 0x14292967,
  0x27b70a85, 0x2e1b2138, 0x4d2c6dfc, 0x53380d13, 0x650a7354, 0x766a0abb, 0x81c2c92e, 0x92722c85,
  0xa2bfe8a1, 0xa81a664b, 0xc24b8b70, 0xc76c51a3, 0xd192e819, 0xd6990624, 0xf40e3585, 0x106aa070,
  0x19a4c116, 0x1e376c08, 0x2748774c, 0x34b0bcb5, 0x391c0cb3, 0x4ed8aa4a, 0x5b9cca4f, 0x682e6ff3,
  0x748f82ee, 0x78a5636f, 0x84c87814, 0x8cc70208, 0x90befffa, 0xa4506ceb, 0xbef9a3f7, 0xc67178f2]

/-- The state: eight words. -/
structure Words8 where
  a : Nat
  b : Nat
  c : Nat
  d : Nat
  e : Nat
  f : Nat
  g : Nat
  h : Nat

def sha256IV : Words8 := ⟨0x6a09e667, 0xbb67ae85, 0x3c6ef372, 0xa54ff53a, 0x510e527f, 0x9b05688c, 0x1f83d9ab, 0x5be0cd19⟩

def Words8.add (x y : Words8) : Words8 :=
  ⟨add32 x.a y.a, add32 x.b y.b, add32 x.c y.c, add32 x.d y.d, add32 x.e y.e, add32 x.f y.f, add32 x.g y.g, add32 x.h y.h⟩

/-- One round with the sum of the constant and the word of the schedule. -/
def sha256Step (s : Words8) (kw : Nat) : Words8 :=
  let t1 := add32 (s.h + (rotr32 6 s.e ^^^ rotr32 11 s.e ^^^ rotr32 25 s.e) + (s.e &&& s.f ^^^ (0xffffffff ^^^ s.e) &&& s.g)) kw
  let t2 := (rotr32 2 s.a ^^^ rotr32 13 s.a ^^^ rotr32 22 s.a) + (s.a &&& s.b ^^^ s.a &&& s.c ^^^ s.b &&& s.c)
  ⟨add32 t1 t2, s.a, s.b, s.c, add32 s.d t1, s.e, s.f, s.g⟩

/-- The rounds with the constants `ks`; `w` holds the next sixteen words of the schedule. -/
def sha256Rounds : List Nat → List Nat → Words8 → Words8
  | k :: ks, w :: ws, s =>
    let w1 := ws[0]?.getD 0
    let w14 := ws[13]?.getD 0
    let next := add32 (w + (rotr32 7 w1 ^^^ rotr32 18 w1 ^^^ w1 >>> 3) + ws[8]?.getD 0) (rotr32 17 w14 ^^^ rotr32 19 w14 ^^^ w14 >>> 10)
    sha256Rounds ks (ws ++ [next]) (sha256Step s (k + w))
  | _, _, s => s

def sha256Block (s : Words8) (block : List UInt8) : Words8 := s.add (sha256Rounds sha256K ((chunks 4 16 block).map beNat) s)

/-- SHA-256, for messages of less than `2^61` bytes. -/
def sha256 (m : List UInt8) : List UInt8 :=
  let p := m ++ mdPad (beDigits 8 (8 * m.length)) m.length
  let s := (chunks 64 (p.length / 64) p).foldl sha256Block sha256IV
  [s.a, s.b, s.c, s.d, s.e, s.f, s.g, s.h].flatMap (beDigits 4)

/-! ### RIPEMD-160 -/

/-- Which word each step of the left line takes. -/
def rmdR : List Nat := [0, 1, 2, 3, 4, 5, 6, 7, 8, 9, 10, 11, 12, 13, 14, 15, 7, 4, 13, 1, 10, 6, 15, 3, 12, 0, 9, 5, 2, 14, 11, 8,
  3, 10, 14, 4, 9, 15, 8, 1, 2, 7, 0, 6, 13, 11, 5, 12, 1, 9, 11, 10, 0, 8, 12, 4, 13, 3, 7, 15, 14, 5, 6, 2,
  4, 0, 5, 9, 7, 12, 2, 10, 14, 1, 3, 8, 11, 6, 15, 13]

/-- Which word each step of the right line takes. -/
def rmdR' : List Nat := [5, 14, 7, 0, 9, 2, 11, 4, 13, 6, 15, 8, 1, 10, 3, 12, 6, 11, 3, 7, 0, 13, 5, 10, 14, 15, 8, 12, 4, 9, 1, 2,
  15, 5, 1, 3, 7, 14, 6, 9, 11, 8, 12, 2, 10, 0, 4, 13, 8, 6, 4, 1, 3, 11, 15, 0, 5, 12, 2, 13, 9, 7, 10, 14,
  12, 15, 10, 4, 1, 5, 8, 7, 6, 2, 13, 14, 0, 3, 9, 11]

/-- The rotations of the left line. -/
def rmdS : List Nat := [11, 14, 15, 12, 5, 8, 7, 9, 11, 13, 14, 15, 6, 7, 9, 8, 7, 6, 8, 13, 11, 9, 7, 15, 7, 12, 15, 9, 11, 7, 13, 12,
  11, 13, 6, 7, 14, 9, 13, 15, 14, 8, 13, 6, 5, 12, 7, 5, 11, 12, 14, 15, 14, 15, 9, 8, 9, 14, 5, 6, 8, 6, 5, 12,
  9, 15, 5, 11, 6, 8, 13, 12, 5, 12, 13, 14, 11, 8, 5, 6]

/-- The rotations of the right line. -/
def rmdS' : List Nat := [8, 9, 9, 11, 13, 15, 15, 5, 7, 7, 8, 11, 14, 14, 12, 6, 9, 13, 15, 7, 12, 8, 9, 11, 7, 7, 12, 7, 6, 15, 13, 11,
  9, 7, 15, 11, 8, 6, 6, 14, 12, 13, 5, 14, 13, 13, 7, 5, 15, 5, 8, 11, 14, 14, 6, 14, 6, 9, 12, 9, 12, 5, 15, 8,
  8, 5, 12, 9, 12, 5, 14, 6, 8, 13, 6, 5, 15, 13, 11, 11]

def rmdK : List Nat := [0, 0x5a827999, 0x6ed9eba1, 0x8f1bbcdc, 0xa953fd4e]
def rmdK' : List Nat := [0x50a28be6, 0x5c4dd124, 0x6d703ef3, 0x7a6d76e9, 0]

/-- The functions of the five rounds. -/
def rmdF (j x y z : Nat) : Nat :=
  if j = 0 then x ^^^ y ^^^ z
  else if j = 1 then x &&& y ||| (0xffffffff ^^^ x) &&& z
  else if j = 2 then (x ||| (0xffffffff ^^^ y)) ^^^ z
  else if j = 3 then x &&& z ||| y &&& (0xffffffff ^^^ z)
  else x ^^^ (y ||| (0xffffffff ^^^ z))

structure Words5 where
  a : Nat
  b : Nat
  c : Nat
  d : Nat
  e : Nat

def rmdIV : Words5 := ⟨0x67452301, 0xefcdab89, 0x98badcfe, 0x10325476, 0xc3d2e1f0⟩

/-- The steps of a line: `f` is the function of each round, `ks` its constant; `n` counts the steps. -/
def rmdLine (f : Nat → Nat) (ks w : List Nat) : List Nat → List Nat → Nat → Words5 → Words5
  | r :: rs, s :: ss, n, x =>
    let t := add32 (rotr32 (32 - s) (add32 (x.a + rmdF (f (n / 16)) x.b x.c x.d + w[r]?.getD 0) (ks[n / 16]?.getD 0))) x.e
    rmdLine f ks w rs ss (n + 1) ⟨x.e, t, x.b, rotr32 22 x.c, x.d⟩
  | _, _, _, x => x

def rmdBlock (h : Words5) (block : List UInt8) : Words5 :=
  let w := (chunks 4 16 block).map leNat
  let x := rmdLine id rmdK w rmdR rmdS 0 h
  let y := rmdLine (4 - ·) rmdK' w rmdR' rmdS' 0 h
  ⟨add32 (h.b + x.c) y.d, add32 (h.c + x.d) y.e, add32 (h.d + x.e) y.a, add32 (h.e + x.a) y.b, add32 (h.a + x.b) y.c⟩

/-- RIPEMD-160, for messages of less than `2^61` bytes. -/
def ripemd160 (m : List UInt8) : List UInt8 :=
  let p := m ++ mdPad (leDigits 8 (8 * m.length)) m.length
  let h := (chunks 64 (p.length / 64) p).foldl rmdBlock rmdIV
  [h.a, h.b, h.c, h.d, h.e].flatMap (leDigits 4)

/-! ### BLAKE2b with a digest of 32 bytes -/

def blake2IV : List Nat := [0x6a09e667f3bcc908, 0xbb67ae8584caa73b, 0x3c6ef372fe94f82b, 0xa54ff53a5f1d36f1,
  0x510e527fade682d1, 0x9b05688c2b3e6c1f, 0x1f83d9abfb41bd6b, 0x5be0cd19137e2179]

def blake2Sigma : List (List Nat) := [
  [0, 1, 2, 3, 4, 5, 6, 7, 8, 9, 10, 11, 12, 13, 14, 15], [14, 10, 4, 8, 9, 15, 13, 6, 1, 12, 0, 2, 11, 7, 5, 3],
  [11, 8, 12, 0, 5, 2, 15, 13, 10, 14, 3, 6, 7, 1, 9, 4], [7, 9, 3, 1, 13, 12, 11, 14, 2, 6, 5, 10, 4, 0, 15, 8],
  [9, 0, 5, 7, 2, 4, 10, 15, 14, 1, 11, 12, 6, 8, 3, 13], [2, 12, 6, 10, 0, 11, 8, 3, 4, 13, 7, 5, 15, 14, 1, 9],
  [12, 5, 1, 15, 14, 13, 4, 10, 0, 7, 6, 3, 9, 2, 8, 11], [13, 11, 7, 14, 12, 1, 3, 9, 5, 0, 15, 4, 8, 6, 2, 10],
  [6, 15, 14, 9, 11, 3, 0, 8, 12, 2, 13, 7, 1, 4, 10, 5], [10, 2, 8, 4, 7, 6, 1, 5, 15, 11, 9, 14, 3, 12, 13, 0],
  [0, 1, 2, 3, 4, 5, 6, 7, 8, 9, 10, 11, 12, 13, 14, 15], [14, 10, 4, 8, 9, 15, 13, 6, 1, 12, 0, 2, 11, 7, 5, 3]]

/-- A column or diagonal. -/
structure Words4 where
  a : Nat
  b : Nat
  c : Nat
  d : Nat

def blake2G (v : Words4) (x y : Nat) : Words4 :=
  let a := add64 (v.a + v.b) x
  let d := rotr64 32 (v.d ^^^ a)
  let c := add64 v.c d
  let b := rotr64 24 (v.b ^^^ c)
  let a := add64 (a + b) y
  let d := rotr64 16 (d ^^^ a)
  let c := add64 c d
  ⟨a, rotr64 63 (b ^^^ c), c, d⟩

/-- The work vector, by columns. -/
structure Work where
  p : Words4
  q : Words4
  r : Words4
  s : Words4

/-- A round: the columns, then the diagonals. -/
def blake2Round (m : List Nat) (v : Work) (sigma : List Nat) : Work :=
  let g (i : Nat) : Nat := m[sigma[i]?.getD 0]?.getD 0
  let p := blake2G v.p (g 0) (g 1)
  let q := blake2G v.q (g 2) (g 3)
  let r := blake2G v.r (g 4) (g 5)
  let s := blake2G v.s (g 6) (g 7)
  let d0 := blake2G ⟨p.a, q.b, r.c, s.d⟩ (g 8) (g 9)
  let d1 := blake2G ⟨q.a, r.b, s.c, p.d⟩ (g 10) (g 11)
  let d2 := blake2G ⟨r.a, s.b, p.c, q.d⟩ (g 12) (g 13)
  let d3 := blake2G ⟨s.a, p.b, q.c, r.d⟩ (g 14) (g 15)
  ⟨⟨d0.a, d3.b, d2.c, d1.d⟩, ⟨d1.a, d0.b, d3.c, d2.d⟩, ⟨d2.a, d1.b, d0.c, d3.d⟩, ⟨d3.a, d2.b, d1.c, d0.d⟩⟩

/-- The compression function; `t` is the number of bytes so far, `last` whether the block is the last. -/
def blake2F (h : List Nat) (block : List UInt8) (t : Nat) (last : Bool) : List Nat :=
  let m := (chunks 8 16 block).map leNat
  let g (i : Nat) : Nat := h[i]?.getD 0
  let v (i : Nat) : Nat := blake2IV[i]?.getD 0
  let f := if last then 0xffffffffffffffff else 0
  let w := blake2Sigma.foldl (blake2Round m)
    ⟨⟨g 0, g 4, v 0, v 4 ^^^ t⟩, ⟨g 1, g 5, v 1, v 5⟩, ⟨g 2, g 6, v 2, v 6 ^^^ f⟩, ⟨g 3, g 7, v 3, v 7⟩⟩
  [g 0 ^^^ w.p.a ^^^ w.p.c, g 1 ^^^ w.q.a ^^^ w.q.c, g 2 ^^^ w.r.a ^^^ w.r.c, g 3 ^^^ w.s.a ^^^ w.s.c,
    g 4 ^^^ w.p.b ^^^ w.p.d, g 5 ^^^ w.q.b ^^^ w.q.d, g 6 ^^^ w.r.b ^^^ w.r.d, g 7 ^^^ w.s.b ^^^ w.s.d]

/-- All blocks; `t` counts bytes, `n` is the length of the message. -/
def blake2Blocks (n : Nat) : Nat → List Nat → List (List UInt8) → List Nat
  | _, h, [] => h
  | t, h, [b] => blake2F h (b ++ List.replicate (128 - b.length) 0) (t + b.length) true
  | t, h, b :: bs => blake2Blocks n (t + 128) (blake2F h b (t + 128) false) bs

/-- BLAKE2b without key, digest of 32 bytes, personalization of 16 bytes, for messages of less than `2^64` bytes. -/
def blake2b256 (person m : List UInt8) : List UInt8 :=
  let g (i : Nat) : Nat := blake2IV[i]?.getD 0
  let h := [g 0 ^^^ 0x01010020, g 1, g 2, g 3, g 4, g 5, g 6 ^^^ leNat (person.take 8), g 7 ^^^ leNat ((person.drop 8).take 8)]
  let h := blake2Blocks m.length 0 h (chunks 128 (max 1 ((m.length + 127) / 128)) m)
  (List.range 4).flatMap fun i => leDigits 8 (h[i]?.getD 0)

/-! ### The functions of `hashlib` -/

/-- What `hashlib` computes. -/
def hashlib : Hashes := ⟨sha256, ripemd160, blake2b256⟩

/-- The assumption of the theorems holds of them. -/
theorem hashlib_ok : hashlib.LengthOK where
  sha256 m := by simp [hashlib, sha256, beDigits, leDigits_length]
  rmd160 m := by simp [hashlib, ripemd160, leDigits_length]
  blake2b p m := by simp [hashlib, blake2b256, leDigits_length, List.range_succ]

/-- Words of bytes. -/
def ascii (s : String) : List UInt8 := s.toList.map fun c => UInt8.ofNat c.toNat

/-- 263 bytes. -/
def longMessage : List UInt8 := (List.range 256).map UInt8.ofNat ++ ascii "riemann"

set_option maxRecDepth 10000
/-! Published vectors and values computed with Python's `hashlib`. -/
example : sha256 [] = beDigits 32 0xe3b0c44298fc1c149afbf4c8996fb92427ae41e4649b934ca495991b7852b855 := by decide +kernel
example : sha256 (ascii "abc") = beDigits 32 0xba7816bf8f01cfea414140de5dae2223b00361a396177a9cb410ff61f20015ad := by decide +kernel
example : sha256 longMessage = beDigits 32 0xef81730dc2352da02ecdec6cad6b4311a0a867a3e425d5e4570e4c3082031233 := by decide +kernel
example : ripemd160 [] = beDigits 20 0x9c1185a5c5e9fc54612808977ee8f548b2258d31 := by decide +kernel
example : ripemd160 (ascii "abc") = beDigits 20 0x8eb208f7e05d987a9b044a8e98c6b087f15a0bfc := by decide +kernel
example : ripemd160 (ascii "abcdbcdecdefdefgefghfghighijhijkijkljklmklmnlmnomnopnopq") = beDigits 20 0x12a053384a9c0c88e405a06c27dcf49ada62eb2b := by decide +kernel
example : blake2b256 (ascii "ZcashPrevoutHash") [] = beDigits 32 0xd53a633bbecf82fe9e9484d8a0e727c73bb9e68c96e72dec30144f6a84afa136 := by decide +kernel
example : blake2b256 (ascii "ZcashPrevoutHash") ((List.range 128).map UInt8.ofNat) = beDigits 32 0x97acf9a7b2989a94d5856bcdef6d8518674a7c586c916213c9f184f220466818 := by decide +kernel
example : blake2b256 (ascii "ZcashPrevoutHash") longMessage = beDigits 32 0x66b2b7782d75bd70a448ad495ecfbd053481408fa77dbbfaef582cd4738daa1a := by decide +kernel

end Verif.Spec
