import Verif.Model.Utils

/-! # encoding/base58.py -/

namespace Verif.Base58

/-- encoding/base58.py:28, `BASE58_ALPHABET`. -/
def alphabet : List UInt8 :=
  [49, 50, 51, 52, 53, 54, 55, 56, 57, 65, 66, 67, 68, 69, 70, 71, 72, 74, 75, 76, 77, 78, 80, 81, 82, 83, 84, 85, 86,
   87, 88, 89, 90, 97, 98, 99, 100, 101, 102, 103, 104, 105, 106, 107, 109, 110, 111, 112, 113, 114, 115, 116, 117,
   118, 119, 120, 121, 122]

/-- encoding/base58.py:29, `BASE58_BASE`. -/
def base : Nat := alphabet.length

/-- encoding/base58.py:30, `BASE58_LOOKUP[c]`, `none` for a KeyError. -/
def lookup (c : UInt8) : Option Nat := alphabet.findIdx? (· == c)

/-- encoding/base58.py:114-138, `to_long`; the loop with state `(v, prefix)`. `lookup_f` raising is `none`. -/
def toLongLoop (base : Nat) (f : UInt8 → Option Nat) : Nat → Nat → Bytes → Py (Nat × Nat)
  | v, pre, [] => .ok (v, pre)
  | v, pre, c :: cs =>
    match f c with
    | none => .error .valueError
    | some x =>
      let v' := v * base + x
      toLongLoop base f v' (if v' = 0 then pre + 1 else pre) cs

/-- encoding/base58.py:114-138, `to_long`. -/
def toLong (base : Nat) (f : UInt8 → Option Nat) (s : Bytes) : Py (Nat × Nat) := toLongLoop base f 0 0 s

/-- encoding/base58.py:102-108, the loop of `from_long`: the digits, least significant first. `fuel` bounds the iterations (the
value itself suffices, since it at least halves each time). `charset` raising is `none`. -/
def fromLongLoop (base : Nat) (charset : Nat → Option UInt8) : Nat → Nat → Py Bytes
  | 0, _ => .ok []
  | fuel + 1, v =>
    if v > 0 then
      match charset (v % base) with
      | none => .error .valueError
      | some c => do
        let r ← fromLongLoop base charset fuel (v / base)
        .ok (c :: r)
    else .ok []

/-- encoding/base58.py:87-111, `from_long`. -/
def fromLong (v pre base : Nat) (charset : Nat → Option UInt8) : Py Bytes := do
  let ba ← fromLongLoop base charset v v
  match charset 0 with
  | none => .error .exception
  | some z => .ok (ba ++ List.replicate pre z).reverse

/-- `bytes.decode("utf8")` for ASCII bytes (all bytes `encode` produces are in the alphabet). -/
def asciiDecode (b : Bytes) : PyStr := b.map fun x => Char.ofNat x.toNat

/-- `str.encode("utf8")`. -/
def utf8Encode (s : PyStr) : Bytes := s.flatMap String.utf8EncodeChar

/-- encoding/base58.py:33-40, `encode`. -/
def encode (E : Env) (data : Bytes) (checksum : Bool := true) : Py PyStr := do
  let data := if checksum then data ++ (E.hash256 data).take 4 else data
  let (v, pre) ← toLong 256 (fun x => some x.toNat) data
  let out ← fromLong v pre base (fun v => alphabet[v]?)
  .ok (asciiDecode out)

/-- encoding/base58.py:43-56, `decode`. -/
def decode (E : Env) (s : PyStr) (checksum : Bool := true) : Py Bytes := do
  let (v, pre) ← toLong base lookup (utf8Encode s)
  let data ← fromLong v pre 256 (fun x => if x < 256 then some (UInt8.ofNat x) else none)
  if checksum then
    let theHash := lastN data 4
    let data := dropLastN data 4
    if (E.hash256 data).take 4 = theHash then .ok data else .error .valueError
  else .ok data

/-- encoding/base58.py:59-66, `encode_with_checksum`. -/
def encodeWithChecksum (E : Env) (data : Bytes) : Py PyStr := encode E data true

/-- encoding/base58.py:69-75, `decode_with_checksum`. -/
def decodeWithChecksum (E : Env) (s : PyStr) : Py Bytes := decode E s true

/-- encoding/base58.py:78-84, `has_checksum`. -/
def hasChecksum (E : Env) (s : PyStr) : Py Bool :=
  match decodeWithChecksum E s with
  | .ok _ => .ok true
  | .error .valueError => .ok false
  | .error e => .error e

end Verif.Base58
