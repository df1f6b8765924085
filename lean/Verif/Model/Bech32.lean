import Verif.Model.Utils

/-! # encoding/bech32.py -/

namespace Verif.Bech32

/-- encoding/bech32.py:28, `CHARSET` (also encoding/cashaddr.py:26). -/
def CHARSET : PyStr := pystr "qpzry9x8gf2tvdw0s3jn54khce6mua7l"

/-! ### convertbits (encoding/bech32.py:132-152) -/

/-- encoding/bech32.py:145-147, the inner `while bits >= tobits`: remaining `bits` and the emitted digits. `fuel` bounds the
iterations (initially `bits`; each one lowers `bits` by `tobits > 0`). -/
def emitLoop (tobits acc : Nat) : Nat → Nat → Nat × List Nat
  | 0, bits => (bits, [])
  | fuel + 1, bits =>
    if tobits ≤ bits then
      let bits := bits - tobits
      let r := emitLoop tobits acc fuel bits
      (r.1, ((acc >>> bits) &&& ((1 <<< tobits) - 1)) :: r.2)
    else (bits, [])

/-- encoding/bech32.py:139-147, the loop over the values with state `(acc, bits, ret)`; `none` is `return None`. (Values are
naturals here: `value < 0` cannot occur for the callers in this module.) -/
def convertLoop (frombits tobits : Nat) : Nat → Nat → List Nat → List Nat → Option (Nat × Nat × List Nat)
  | acc, bits, ret, [] => some (acc, bits, ret)
  | acc, bits, ret, value :: data =>
    if value >>> frombits ≠ 0 then none
    else
      let acc := ((acc <<< frombits) ||| value) &&& ((1 <<< (frombits + tobits - 1)) - 1)
      let bits := bits + frombits
      let r := emitLoop tobits acc bits bits
      convertLoop frombits tobits acc r.1 (ret ++ r.2) data

/-- encoding/bech32.py:132-152, `convertbits`. -/
def convertbits (data : List Nat) (frombits tobits : Nat) (pad : Bool := true) : Option (List Nat) :=
  match convertLoop frombits tobits 0 0 [] data with
  | none => none
  | some (acc, bits, ret) =>
    let maxv := (1 <<< tobits) - 1
    if pad then
      if bits ≠ 0 then some (ret ++ [(acc <<< (tobits - bits)) &&& maxv]) else some ret
    else if frombits ≤ bits ∨ (acc <<< (tobits - bits)) &&& maxv ≠ 0 then none
    else some ret

/-! ### checksum -/

/-- encoding/bech32.py:105, `generator`. -/
def generator : List (BitVec 30) := [0x3b6a57b2, 0x26508e6d, 0x1ea119fa, 0x3d4233dd, 0x2a1462b3]

/-- encoding/bech32.py:110-111: the XORs of the generators selected by the bits of `top`, the generators paired with
their indices. -/
def xorGens (top : BitVec 30) : List (BitVec 30) → Nat → BitVec 30 → BitVec 30
  | [], _, chk => chk
  | g :: gs, i, chk => xorGens top gs (i + 1) (chk ^^^ (if (top >>> i) &&& 1#30 ≠ 0 then g else 0))

/-- encoding/bech32.py:108-111, one iteration of `bech32_polymod`. `chk` never exceeds 30 bits, because every value is
below `2^30` (values are 5-bit digits, bytes, or character codes). -/
def polymodStep (chk : BitVec 30) (value : Nat) : BitVec 30 :=
  let top := chk >>> 25
  let chk := ((chk &&& 0x1ffffff#30) <<< 5) ^^^ BitVec.ofNat 30 value
  xorGens top generator 0 chk

/-- encoding/bech32.py:103-112, `bech32_polymod`. -/
def polymod (values : List Nat) : BitVec 30 := values.foldl polymodStep 1

/-- encoding/bech32.py:115-117, `bech32_hrp_expand`. -/
def hrpExpand (hrp : PyStr) : List Nat :=
  hrp.map (fun x => x.toNat >>> 5) ++ [0] ++ hrp.map (fun x => x.toNat &&& 31)

/-- encoding/bech32.py:120-122, `bech32_verify_checksum`. -/
def verifyChecksum (hrp : PyStr) (data : List Nat) : Bool := polymod (hrpExpand hrp ++ data) == 1

/-- encoding/bech32.py:125-129, `bech32_create_checksum`. -/
def createChecksum (hrp : PyStr) (data : List Nat) : List Nat :=
  let values := hrpExpand hrp ++ data
  let pm := polymod (values ++ [0, 0, 0, 0, 0, 0]) ^^^ 1
  (List.range 6).map fun i => ((pm >>> (5 * (5 - i))) &&& 31#30).toNat

/-- `''.join([CHARSET[d] for d in l])`, IndexError when out of range. -/
def charsetJoin : List Nat → Py PyStr
  | [] => .ok []
  | d :: ds => do
    let c ← getNat CHARSET d
    let r ← charsetJoin ds
    .ok (c :: r)

/-- encoding/bech32.py:79-82, `bech32_encode`. -/
def bech32Encode (hrp : PyStr) (data : List Nat) : Py PyStr := do
  let s ← charsetJoin (data ++ createChecksum hrp data)
  .ok (hrp ++ pystr "1" ++ s)

/-- `str.lower` of one ASCII character. -/
def lowerC (c : Char) : Char := if 65 ≤ c.toNat ∧ c.toNat ≤ 90 then Char.ofNat (c.toNat + 32) else c
/-- `str.upper` of one ASCII character. -/
def upperC (c : Char) : Char := if 97 ≤ c.toNat ∧ c.toNat ≤ 122 then Char.ofNat (c.toNat - 32) else c
/-- `s.lower()` for ASCII `s` (non-ASCII strings are rejected before it is called). -/
def lower (s : PyStr) : PyStr := s.map lowerC
/-- `s.upper()` for ASCII `s`. -/
def upper (s : PyStr) : PyStr := s.map upperC

/-- `s.rfind(c)`, `none` for -1. -/
def rfind (c : Char) (s : PyStr) : Option Nat :=
  match s.reverse.findIdx? (· == c) with
  | none => none
  | some i => some (s.length - 1 - i)

/-- encoding/bech32.py:85-100, `bech32_decode`; `none` is `(None, None)`. -/
def bech32Decode (bech : PyStr) : Option (PyStr × List Nat) :=
  if bech.any (fun x => x.toNat < 33 || 126 < x.toNat) || (lower bech != bech && upper bech != bech) then none
  else
    let bech := lower bech
    match rfind '1' bech with
    | none => none
    | some pos =>
      if pos < 1 ∨ bech.length < pos + 7 ∨ 90 < bech.length then none
      else if ¬ (bech.drop (pos + 1)).all (fun x => CHARSET.contains x) then none
      else
        let hrp := bech.take pos
        let data := (bech.drop (pos + 1)).map (fun x => CHARSET.idxOf x)
        if ¬ verifyChecksum hrp data then none
        else some (hrp, dropLastN data 6)

/-- encoding/bech32.py:56-68, `segwit_decode`; `none` is `(None, None)`. -/
def segwitDecode (hrp : PyStr) (addr : PyStr) : Option (Nat × List Nat) :=
  match bech32Decode addr with
  | none => none
  | some (hrpgot, data) =>
    if hrpgot ≠ hrp then none
    else match convertbits (data.drop 1) 5 8 false with
      | none => none
      | some decoded =>
        if decoded.length < 2 ∨ 40 < decoded.length then none
        else match data with
          | [] => none
          | v :: _ =>
            if 16 < v then none
            else if v = 0 ∧ decoded.length ≠ 20 ∧ decoded.length ≠ 32 then none
            else some (v, decoded)

/-- encoding/bech32.py:71-76, `segwit_encode`. -/
def segwitEncode (hrp : PyStr) (witver : Nat) (witprog : List Nat) : Py (Option PyStr) :=
  match convertbits witprog 8 5 with
  | none => .error .typeError
  | some d => do
    let ret ← bech32Encode hrp ([witver] ++ d)
    match segwitDecode hrp ret with
    | none => .ok none
    | some _ => .ok (some ret)

/-- encoding/bech32.py:31-37, `encode`. The result may be `None`. -/
def encode (net : Network) (data : Bytes) : Py (Option PyStr) :=
  match net.bech32Hrp with
  | none => .error .valueError
  | some hrp => do
    let v ← getNat data 0
    segwitEncode hrp v.toNat ((data.drop 2).map UInt8.toNat)

/-- encoding/bech32.py:40-53, `decode`. `bytearray.extend([None])` raises TypeError. -/
def decode (net : Network) (bech : PyStr) : Py Bytes :=
  match net.bech32Hrp with
  | none => .error .valueError
  | some hrp =>
    match segwitDecode hrp bech with
    | none => .error .typeError
    | some (v, h) => .ok (UInt8.ofNat v :: UInt8.ofNat h.length :: h.map UInt8.ofNat)

end Verif.Bech32
