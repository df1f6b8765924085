import Verif.Model.Dyn
import Verif.Model.Bech32
import Verif.Model.Cashaddr

/-! # encoding/bech32.py and encoding/cashaddr.py on arguments of any type

The same values and simplifications as in `Model/Dyn.lean`. -/

namespace Verif

namespace Val

/-- encoding/bech32.py:139-141 and encoding/cashaddr.py:119-121, the test of the values in the loop of `convertbits(data, 8, 5)`: only integers can be compared with 0 (TypeError), and
the first one that does not fit into 8 bits makes the result None. The rest of the loop (`Bech32.convertbits`) raises nothing. -/
def digits8 : List Val → Py (Option (List Nat))
  | [] => .ok (some [])
  | .int n :: vs =>
    if n < 0 ∨ n.toNat >>> 8 ≠ 0 then .ok Option.none
    else do
      let ds ← digits8 vs
      .ok (ds.map (n.toNat :: ·))
  | _ :: _ => .error .typeError

/-- encoding/bech32.py:79-82, `bech32_encode(hrp, [n] + d)` for an integer `n` and five-bit digits `d`. The checksum depends on the low 30 bits of `n` only (lines 108-111: `chk` is masked
before it is shifted, and five bits of `top` are read). A negative index counts from the end of `CHARSET`. -/
def bech32EncodeFrom (hrp : PyStr) (n : Int) (d : List Nat) : Py PyStr := do
  let c ← getItem Bech32.CHARSET n
  let s ← Bech32.charsetJoin (d ++ Bech32.createChecksum hrp ((n % 2 ^ 30).toNat :: d))
  .ok (hrp ++ pystr "1" ++ c :: s)

/-- encoding/bech32.py:31-37, `encode(data)`, and 71-76, `segwit_encode`. `[witver] + None` is a TypeError, and so is the exclusive or of line 109 if `data[0]` is no integer. -/
def bech32Encode (net : Network) (data : Val) : Py (Option PyStr) :=
  match net.bech32Hrp with
  | Option.none => .error .valueError
  | some hrp => do
    let xs ← data.iter
    let w ← getNat xs 0
    let ds ← digits8 (xs.drop 2)
    match ds with
    | Option.none => .error .typeError
    | some ds =>
      match Bech32.convertbits ds 8 5 with
      | Option.none => .error .typeError
      | some d =>
        match w with
        | .int n => do
          let ret ← bech32EncodeFrom hrp n d
          match Bech32.segwitDecode hrp ret with
          | Option.none => .ok Option.none
          | some _ => .ok (some ret)
        | _ => .error .typeError

/-- `ord(v)`: of a string, bytes or bytearray of length 1. -/
def ord : Val → Py Nat
  | .str [c] => .ok c.toNat
  | .bytes [b] => .ok b.toNat
  | .bytearray [b] => .ok b.toNat
  | _ => .error .typeError

/-- encoding/bech32.py:87-88 for the elements of a list or tuple: the result is (None, None) if the code of an element is out of range, which makes line 50 a TypeError; otherwise
`bech.lower` is evaluated. -/
def bech32DecodeList : List Val → Py Bytes
  | [] => .error .attributeError
  | v :: vs => do
    let n ← v.ord
    if n < 33 ∨ 126 < n then .error .typeError else bech32DecodeList vs

/-- encoding/bech32.py:40-53, `decode(bech)`. The elements of bytes have no `ord`; `b''.rfind('1')` is a TypeError. -/
def bech32Decode (net : Network) (bech : Val) : Py Bytes :=
  match net.bech32Hrp with
  | Option.none => .error .valueError
  | some _ =>
    match bech with
    | .str s => Bech32.decode net s
    | .bytes _ => .error .typeError
    | .bytearray _ => .error .typeError
    | .obj _ _ [] => .error .attributeError
    | .obj _ _ (_ :: _) => .error .typeError
    | .list l => bech32DecodeList l
    | .tuple l => bech32DecodeList l
    | .none => .error .typeError
    | .int _ => .error .typeError

/-- encoding/cashaddr.py:29-43, `encode(data)`. -/
def cashaddrEncode (net : Network) (data : Val) : Py PyStr :=
  match net.cashaddrPrefix with
  | Option.none => .error .valueError
  | some _ => do
    let xs ← data.iter
    let ds ← digits8 xs
    match ds with
    | Option.none => .error .typeError
    | some ds => Cashaddr.encode net (ds.map UInt8.ofNat)

/-- encoding/cashaddr.py:46-63, `decode(data)`. The `find` of bytes and of `ByteData` objects (tx/shared.py:119-126) does not take a string; other values have none. -/
def cashaddrDecode (net : Network) (data : Val) : Py Bytes :=
  match net.cashaddrPrefix with
  | Option.none => .error .valueError
  | some _ =>
    match data with
    | .str s => Cashaddr.decode net s
    | .bytes _ => .error .typeError
    | .bytearray _ => .error .typeError
    | .obj _ _ _ => .error .typeError
    | _ => .error .attributeError

end Val

end Verif
