import Verif.Py

/-!
# BLAKE

`riemann/blake256.py`, class `BLAKE` with its four variants and `blake_hash`.

Simplifications, stated once:
* Words are `BitVec w`. In Python they are unbounded ints masked after every addition; the only unmasked word
  operation is `self.t >> WORDBITS`, which stays below `2^w` as long as fewer than `2^(2w)` bits are hashed.
* `struct.pack('!Q', x)` raises `struct.error` for `x ≥ 2^64`; here it truncates. Theorems about the length field assume
  a message shorter than `2^61` bytes.
* The argument of `update` is bytes; `updateText` and `finalText` below are for text.
-/

namespace Verif.Blake

/-- blake256.py:96-101. -/
def IV64 : List Nat :=
  [0x6A09E667F3BCC908, 0xBB67AE8584CAA73B, 0x3C6EF372FE94F82B, 0xA54FF53A5F1D36F1,
   0x510E527FADE682D1, 0x9B05688C2B3E6C1F, 0x1F83D9ABFB41BD6B, 0x5BE0CD19137E2179]

/-- blake256.py:103-108. -/
def IV48 : List Nat :=
  [0xCBBB9D5DC1059ED8, 0x629A292A367CD507, 0x9159015A3070DD17, 0x152FECD8F70E5939,
   0x67332667FFC00B31, 0x8EB44A8768581511, 0xDB0C2E0D64F98FA7, 0x47B5481DBEFA4FA4]

/-- blake256.py:112-117. -/
def IV32 : List Nat :=
  [0x6A09E667, 0xBB67AE85, 0x3C6EF372, 0xA54FF53A, 0x510E527F, 0x9B05688C, 0x1F83D9AB, 0x5BE0CD19]

/-- blake256.py:121-126. -/
def IV28 : List Nat :=
  [0xC1059ED8, 0x367CD507, 0x3070DD17, 0xF70E5939, 0xFFC00B31, 0x68581511, 0x64F98FA7, 0xBEFA4FA4]

/-- blake256.py:129-138. -/
def C64 : List Nat :=
  [0x243F6A8885A308D3, 0x13198A2E03707344, 0xA4093822299F31D0, 0x082EFA98EC4E6C89,
   0x452821E638D01377, 0xBE5466CF34E90C6C, 0xC0AC29B7C97C50DD, 0x3F84D5B5B5470917,
   0x9216D5D98979FB1B, 0xD1310BA698DFB5AC, 0x2FFD72DBD01ADFB7, 0xB8E1AFED6A267E96,
   0xBA7C9045F12C7F99, 0x24A19947B3916CF7, 0x0801F2E2858EFC16, 0x636920D871574E69]

/-- blake256.py:143-152. -/
def C32 : List Nat :=
  [0x243F6A88, 0x85A308D3, 0x13198A2E, 0x03707344, 0xA4093822, 0x299F31D0, 0x082EFA98, 0xEC4E6C89,
   0x452821E6, 0x38D01377, 0xBE5466CF, 0x34E90C6C, 0xC0AC29B7, 0xC97C50DD, 0x3F84D5B5, 0xB5470917]

/-- blake256.py:155-176. -/
def SIGMA : List (List Nat) := [
  [ 0, 1, 2, 3, 4, 5, 6, 7, 8, 9,10,11,12,13,14,15],
  [14,10, 4, 8, 9,15,13, 6, 1,12, 0, 2,11, 7, 5, 3],
  [11, 8,12, 0, 5, 2,15,13,10,14, 3, 6, 7, 1, 9, 4],
  [ 7, 9, 3, 1,13,12,11,14, 2, 6, 5,10, 4, 0,15, 8],
  [ 9, 0, 5, 7, 2, 4,10,15,14, 1,11,12, 6, 8, 3,13],
  [ 2,12, 6,10, 0,11, 8, 3, 4,13, 7, 5,15,14, 1, 9],
  [12, 5, 1,15,14,13, 4,10, 0, 7, 6, 3, 9, 2, 8,11],
  [13,11, 7,14,12, 1, 3, 9, 5, 0,15, 4, 8, 6, 2,10],
  [ 6,15,14, 9,11, 3, 0, 8,12, 2,13, 7, 1, 4,10, 5],
  [10, 2, 8, 4, 7, 6, 1, 5,15,11, 9,14, 3,12,13, 0],
  [ 0, 1, 2, 3, 4, 5, 6, 7, 8, 9,10,11,12,13,14,15],
  [14,10, 4, 8, 9,15,13, 6, 1,12, 0, 2,11, 7, 5, 3],
  [11, 8,12, 0, 5, 2,15,13,10,14, 3, 6, 7, 1, 9, 4],
  [ 7, 9, 3, 1,13,12,11,14, 2, 6, 5,10, 4, 0,15, 8],
  [ 9, 0, 5, 7, 2, 4,10,15,14, 1,11,12, 6, 8, 3,13],
  [ 2,12, 6,10, 0,11, 8, 3, 4,13, 7, 5,15,14, 1, 9],
  [12, 5, 1,15,14,13, 4,10, 0, 7, 6, 3, 9, 2, 8,11],
  [13,11, 7,14,12, 1, 3, 9, 5, 0,15, 4, 8, 6, 2,10],
  [ 6,15,14, 9,11, 3, 0, 8,12, 2,13, 7, 1, 4,10, 5],
  [10, 2, 8, 4, 7, 6, 1, 5,15,11, 9,14, 3,12,13, 0]]

/-- The four values accepted for `hashbitlen` (blake256.py:188). -/
inductive HashLen where
  | h224 | h256 | h384 | h512
  deriving DecidableEq, Repr

/-- `hashbitlen` as a number. -/
def HashLen.bits : HashLen → Nat
  | .h224 => 224 | .h256 => 256 | .h384 => 384 | .h512 => 512

/-- `WORDBITS` (blake256.py:209, 232). -/
def HashLen.wordBits : HashLen → Nat
  | .h224 => 32 | .h256 => 32 | .h384 => 64 | .h512 => 64

/-- `WORDBYTES` (blake256.py:208, 231). -/
def HashLen.wordBytes : HashLen → Nat
  | .h224 => 4 | .h256 => 4 | .h384 => 8 | .h512 => 8

/-- `BLKBYTES` (blake256.py:210, 233). -/
def HashLen.blkBytes : HashLen → Nat
  | .h224 => 64 | .h256 => 64 | .h384 => 128 | .h512 => 128

/-- `BLKBITS` (blake256.py:211, 234). -/
def HashLen.blkBits : HashLen → Nat
  | .h224 => 512 | .h256 => 512 | .h384 => 1024 | .h512 => 1024

/-- `ROUNDS` (blake256.py:212, 235). -/
def HashLen.rounds : HashLen → Nat
  | .h224 => 14 | .h256 => 14 | .h384 => 16 | .h512 => 16

/-- `cxx` (blake256.py:213, 236). -/
def HashLen.cxx : HashLen → List Nat
  | .h224 => C32 | .h256 => C32 | .h384 => C64 | .h512 => C64

/-- `(rot1, rot2, rot3, rot4)` (blake256.py:214-217, 237-240). -/
def HashLen.rots : HashLen → Nat × Nat × Nat × Nat
  | .h224 => (16, 12, 8, 7) | .h256 => (16, 12, 8, 7)
  | .h384 => (32, 25, 16, 11) | .h512 => (32, 25, 16, 11)

/-- initial chain value (blake256.py:221-224, 244-247). -/
def HashLen.iv : HashLen → List Nat
  | .h224 => IV28 | .h256 => IV32 | .h384 => IV48 | .h512 => IV64

/-- The instance attributes of `BLAKE` (blake256.py:191-197). `state` is the phase 1/2/3; `hash` is only set by
`final` (line 497). -/
structure State (V : HashLen) where
  h : List (BitVec V.wordBits)
  t : Int
  cache : Bytes
  salt : List (BitVec V.wordBits)
  state : Nat
  nullt : Nat
  hash : Bytes
  deriving DecidableEq, Repr

/-- blake256.py:183-247, `__init__` (for a valid `hashbitlen`). -/
def init (V : HashLen) : State V where
  h := V.iv.map (BitVec.ofNat _)
  t := 0
  cache := []
  salt := List.replicate 4 0
  state := 1
  nullt := 0
  hash := []

/-- Big-endian bytes to number, `struct.unpack('!L'/'!Q', b)` (blake256.py:512-518). -/
def beToNat (b : Bytes) : Nat := leToNat b.reverse

/-- Number to `k` big-endian bytes, `struct.pack('!L'/'!Q', x)` (blake256.py:520-530), truncating. -/
def natToBE (k n : Nat) : Bytes := (natToLE k n).reverse

/-- List read with default 0 (all indices used below are in range). -/
def rd {w : Nat} (l : List (BitVec w)) (i : Nat) : BitVec w := l[i]?.getD 0

/-- `SIGMA[round][i]`. -/
def sigma (r i : Nat) : Nat := ((SIGMA[r]?.getD [])[i]?).getD 0

/-- `cxx[i]` as a word. -/
def cword (V : HashLen) (i : Nat) : BitVec V.wordBits := BitVec.ofNat _ ((V.cxx)[i]?.getD 0)

/-- `(x >> r) | ((x << (WORDBITS - r)) & MASK)` (blake256.py:291 etc.). -/
def rotr {w : Nat} (x : BitVec w) (r : Nat) : BitVec w := (x >>> r) ||| (x <<< (w - r))

/-- blake256.py:280-306, the inner function `G(a, b, c, d, i)` of round `r`, acting on the work vector `v`. -/
def G (V : HashLen) (m : List (BitVec V.wordBits)) (r : Nat) (a b c d i : Nat)
    (v : List (BitVec V.wordBits)) : List (BitVec V.wordBits) :=
  let (rot1, rot2, rot3, rot4) := V.rots
  let va := rd v a
  let vb := rd v b
  let vc := rd v c
  let vd := rd v d
  let sri := sigma r i
  let sri1 := sigma r (i + 1)
  let va := (va + vb) + (rd m sri ^^^ cword V sri1)
  let x := vd ^^^ va
  let vd := rotr x rot1
  let vc := vc + vd
  let x := vb ^^^ vc
  let vb := rotr x rot2
  let va := (va + vb) + (rd m sri1 ^^^ cword V sri)
  let x := vd ^^^ va
  let vd := rotr x rot3
  let vc := vc + vd
  let x := vb ^^^ vc
  let vb := rotr x rot4
  (((v.set a va).set b vb).set c vc).set d vd

/-- blake256.py:309-318, one round: column step then diagonal step. -/
def round (V : HashLen) (m : List (BitVec V.wordBits)) (v : List (BitVec V.wordBits)) (r : Nat) :
    List (BitVec V.wordBits) :=
  let v := G V m r 0 4 8 12 0 v
  let v := G V m r 1 5 9 13 2 v
  let v := G V m r 2 6 10 14 4 v
  let v := G V m r 3 7 11 15 6 v
  let v := G V m r 0 5 10 15 8 v
  let v := G V m r 1 6 11 12 10 v
  let v := G V m r 2 7 8 13 12 v
  G V m r 3 4 9 14 14 v

/-- blake256.py:264, the message words of a block. -/
def msgWords (V : HashLen) (block : Bytes) : List (BitVec V.wordBits) :=
  (List.range 16).map fun i =>
    BitVec.ofNat _ (beToNat (slice block (i * V.wordBytes) (i * V.wordBytes + V.wordBytes)))

/-- blake256.py:267-275, the initial work vector. -/
def initV (V : HashLen) (s : State V) : List (BitVec V.wordBits) :=
  let tl : BitVec V.wordBits := BitVec.ofInt _ s.t
  let th : BitVec V.wordBits := BitVec.ofInt _ (s.t / (2 ^ V.wordBits : Nat))
  let hi := (List.range 8).map (rd s.h)
  let lo := (List.range 4).map fun i => cword V i ^^^ rd s.salt i
  hi ++ lo ++
    (if s.nullt = 0 then [cword V 4 ^^^ tl, cword V 5 ^^^ tl, cword V 6 ^^^ th, cword V 7 ^^^ th]
     else [cword V 4, cword V 5, cword V 6, cword V 7])

/-- blake256.py:251-324, `_compress`. -/
def compress (V : HashLen) (s : State V) (block : Bytes) : State V :=
  let m := msgWords V block
  let v := (List.range V.rounds).foldl (round V m) (initV V s)
  { s with h := (List.range 8).map fun i => rd s.h i ^^^ rd v i ^^^ rd v (i + 8) ^^^ rd s.salt (i % 4) }

/-- blake256.py:329-357, `addsalt`: an exception unless called before any `update`. (The Python code prepends
`chr(0)` to `bytes` when the salt is too short, which raises TypeError; modelled.) -/
def addsalt (V : HashLen) (s : State V) (salt : Bytes) : Py (State V) :=
  if s.state ≠ 1 then .error .exception
  else if salt.length < V.wordBytes * 4 then .error .typeError
  else
    let salt := lastN salt (V.wordBytes * 4)
    .ok { s with salt := (List.range 4).map fun i =>
      BitVec.ofNat _ (beToNat (slice salt (i * V.wordBytes) (i * V.wordBytes + V.wordBytes))) }

/-- blake256.py:407-411, the `while datalen >= BLKBYTES` loop of `update`; returns the state and the leftover data.
`fuel` bounds the number of iterations (`updateLoop_fuel` shows the bound is never the reason to stop). -/
def updateLoop (V : HashLen) : Nat → State V → Bytes → State V × Bytes
  | 0, s, data => (s, data)
  | fuel + 1, s, data =>
    if V.blkBytes ≤ data.length then
      updateLoop V fuel (compress V { s with t := s.t + V.blkBits } (data.take V.blkBytes)) (data.drop V.blkBytes)
    else (s, data)

/-- blake256.py:361-415, `update`. -/
def update (V : HashLen) (s : State V) (data : Bytes) : State V :=
  let s := { s with state := 2 }
  if data.length = 0 then s
  else
    let left := s.cache.length
    let fill := V.blkBytes - left
    let sd : State V × Bytes :=
      if left ≠ 0 ∧ fill ≤ data.length then
        let s1 := compress V { s with cache := s.cache ++ data.take fill, t := s.t + V.blkBits }
          (s.cache ++ data.take fill)
        ({ s1 with cache := [] }, data.drop fill)
      else (s, data)
    let sd := updateLoop V sd.2.length sd.1 sd.2
    if 0 < sd.2.length then { sd.1 with cache := sd.1.cache ++ sd.2 } else sd.1

/-- `PADDING = OZ + ZZ*128` (blake256.py:435). -/
def PADDING : Bytes := 0x80 :: List.replicate 128 0

/-- `self.hashbitlen in [224, 384]` (blake256.py:455, 479). -/
def HashLen.isShort : HashLen → Bool
  | .h224 => true | .h256 => false | .h384 => true | .h512 => false

/-- blake256.py:439-445, the encoded message length. -/
def msglen (V : HashLen) (s : State V) : Bytes :=
  let tt := (s.t + 8 * s.cache.length).toNat
  if V.blkBytes = 64 then natToBE 8 tt
  else natToBE 8 (tt / 2 ^ V.wordBits) ++ natToBE 8 (tt % 2 ^ V.wordBits)

/-- `sizewithout` (blake256.py:450). -/
def HashLen.sizewithout (V : HashLen) : Nat := V.blkBytes - (V.wordBits / 4 + 1)

/-- blake256.py:452-483, padding up to (not including) the length field. -/
def padStep (V : HashLen) (s : State V) : State V :=
  let sw := V.sizewithout
  if s.cache.length = sw then
    update V { s with t := s.t - 8 } (if V.isShort then [0x80] else [0x81])
  else
    let s :=
      if s.cache.length < sw then
        let s := if s.cache.length = 0 then { s with nullt := 1 } else s
        let n := sw - s.cache.length
        update V { s with t := s.t - 8 * n } (PADDING.take n)
      else
        let n := V.blkBytes - s.cache.length
        let s := update V { s with t := s.t - 8 * n } (PADDING.take n)
        let s := update V { s with t := s.t - 8 * (sw + 1 : Nat) } (slice PADDING 1 (sw + 1))
        { s with nullt := 1 }
    let s := update V s (if V.isShort then [0x00] else [0x01])
    { s with t := s.t - 8 }

/-- blake256.py:489-497, the digest bytes of a chain value. -/
def digestBytes (V : HashLen) (h : List (BitVec V.wordBits)) : Bytes :=
  (h.flatMap fun w => natToBE V.wordBytes w.toNat).take (V.bits / 8)

/-- blake256.py:419-502, `final` (= `digest`): new state and returned digest. -/
def final (V : HashLen) (s : State V) (data : Bytes) : State V × Bytes :=
  if s.state = 3 then (s, s.hash)
  else
    let s := if data.length ≠ 0 then update V s data else s
    let ml := msglen V s
    let s := padStep V s
    let s := update V { s with t := s.t - V.blkBytes } ml
    let hash := digestBytes V s.h
    ({ s with hash := hash, state := 3 }, hash)

/-- blake256.py:506-507, `hexdigest` (the digest part of the state change is that of `final`). -/
def hexdigest (V : HashLen) (s : State V) (data : Bytes) : State V × PyStr :=
  let r := final V s data
  (r.1, toHex r.2)

/-- `data.encode('UTF-8')`. -/
def utf8 (t : PyStr) : Bytes := t.flatMap String.utf8EncodeChar

/-- blake256.py:407-411, the loop of `update` for a text argument: `data` is the encoded text, but `datalen` was the length of the
text before it was encoded (line 373). Returns the state, the leftover data and the remaining `datalen`. -/
def updateTextLoop (V : HashLen) : Nat → State V → Bytes → Nat → State V × Bytes × Nat
  | 0, s, data, datalen => (s, data, datalen)
  | fuel + 1, s, data, datalen =>
    if V.blkBytes ≤ datalen then
      updateTextLoop V fuel (compress V { s with t := s.t + V.blkBits } (data.take V.blkBytes)) (data.drop V.blkBytes)
        (datalen - V.blkBytes)
    else (s, data, datalen)

/-- blake256.py:361-415, `update` with a `str` argument: line 373 takes the length in characters, line 380 encodes. -/
def updateText (V : HashLen) (s : State V) (text : PyStr) : State V :=
  let s := { s with state := 2 }
  let datalen := text.length
  if datalen = 0 then s
  else
    let data := utf8 text
    let left := s.cache.length
    let fill := V.blkBytes - left
    let sd : State V × Bytes × Nat :=
      if left ≠ 0 ∧ fill ≤ datalen then
        let s1 := compress V { s with cache := s.cache ++ data.take fill, t := s.t + V.blkBits }
          (s.cache ++ data.take fill)
        ({ s1 with cache := [] }, data.drop fill, datalen - fill)
      else (s, data, datalen)
    let sd := updateTextLoop V sd.2.2 sd.1 sd.2.1 sd.2.2
    if 0 < sd.2.2 then { sd.1 with cache := sd.1.cache ++ sd.2.1.take sd.2.2 } else sd.1

/-- blake256.py:419-502, `final` (= `digest`) with a `str` argument; what follows line 428 is that of `final`. -/
def finalText (V : HashLen) (s : State V) (text : PyStr) : State V × Bytes :=
  if s.state = 3 then (s, s.hash)
  else if text.length ≠ 0 then final V (updateText V s text) [] else final V s []

/-- blake256.py:538-539, `blake_hash`. -/
def blakeHash (data : Bytes) : Bytes := (final .h256 (init .h256) data).2

end Verif.Blake
