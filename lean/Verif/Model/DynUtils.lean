import Verif.Model.DynAddr
import Verif.Model.DynParse
import Verif.Model.Base58

/-! # utils.py, encoding/base58.py and `VarInt` on arguments of any type

The same values and simplifications as in `Model/Dyn.lean`. Lengths given to `int.to_bytes` are assumed to fit into memory. -/

namespace Verif

namespace Val

/-- The bytes that `int.from_bytes(v, …)` makes of its argument: it may be bytes-like, or a list or tuple of integers; not a string. -/
def octets : Val → Py Bytes
  | .bytes b => .ok b
  | .bytearray b => .ok b
  | .obj _ _ b => .ok b
  | .list l => byteList l
  | .tuple l => byteList l
  | .str _ => .error .typeError
  | .int _ => .error .typeError
  | .none => .error .typeError

/-- utils.py:56-66, `le2i(v, signed)`. -/
def le2iOf (v signed : Val) : Py Int := do
  let b ← v.octets
  .ok (if signed.truthy then le2iSigned b else (Verif.le2i b : Int))

/-- utils.py:69-79, `be2i(v, signed)`. -/
def be2iOf (v signed : Val) : Py Int := do
  let b ← v.octets
  .ok (if signed.truthy then le2iSigned b.reverse else (Verif.be2i b : Int))

/-- utils.py:6-17, `i2le(v)`. The comparison of a `ByteData` object with 0 raises (tx/shared.py:51-70); other values than integers have no `bit_length`. -/
def i2leOf : Val → Py Bytes
  | .int n => i2le n
  | .obj _ _ _ => .error .typeError
  | _ => .error .attributeError

/-- utils.py:82-93, `i2be(v)`. -/
def i2beOf : Val → Py Bytes
  | .int n => i2be n
  | .obj _ _ _ => .error .typeError
  | _ => .error .attributeError

/-- utils.py:33-53, `i2le_script(v)`. -/
def i2leScriptOf : Val → Py PyStr
  | .int n => i2leScript n
  | .obj _ _ _ => .error .typeError
  | _ => .error .attributeError

/-- utils.py:20-30, `i2le_padded(v, length)`; the length must be an integer (TypeError) that is not negative (ValueError). The `to_bytes` of a `ByteData` object takes no arguments. -/
def i2lePaddedOf (v length : Val) : Py Bytes :=
  match v with
  | .int n => match length with
    | .int k => if k < 0 then .error .valueError else i2lePadded n k.toNat
    | _ => .error .typeError
  | .obj _ _ _ => .error .typeError
  | _ => .error .attributeError

/-- utils.py:96-106, `i2be_padded(v, length)`. -/
def i2bePaddedOf (v length : Val) : Py Bytes :=
  match v with
  | .int n => match length with
    | .int k => if k < 0 then .error .valueError else i2bePadded n k.toNat
    | _ => .error .typeError
  | .obj _ _ _ => .error .typeError
  | _ => .error .attributeError

/-- utils.py:109-111, `change_endianness(v)`, that is `v[::-1]`, which has the type of the value, and for a `ByteData` object is bytes. -/
def changeEndiannessOf : Val → Py Val
  | .bytes b => .ok (.bytes b.reverse)
  | .bytearray b => .ok (.bytearray b.reverse)
  | .obj _ _ b => .ok (.bytes b.reverse)
  | .str s => .ok (.str s.reverse)
  | .list l => .ok (.list l.reverse)
  | .tuple l => .ok (.tuple l.reverse)
  | .int _ => .error .typeError
  | .none => .error .typeError

/-- encoding/base58.py:114-138, the loop of `to_long` over the elements of a list or tuple, with `lookup_f` the identity: an element that cannot be added to a number is a ValueError. -/
def toLong : Int → Nat → List Val → Py (Int × Nat)
  | v, pre, [] => .ok (v, pre)
  | v, pre, .int c :: cs => toLong (v * 256 + c) (if v * 256 + c = 0 then pre + 1 else pre) cs
  | _, _, _ :: _ => .error .valueError

/-- encoding/base58.py:33-40, `encode(data, checksum)`. With a checksum, `data + hash256(data)[:4]` is a TypeError for all values but bytes and bytearrays: either `hash256` raises it
(on Decred it takes text, objects and values that are false), or the addition. `from_long` makes no digits of a negative number. -/
def base58Encode (E : Env) (data checksum : Val) : Py PyStr :=
  match data with
  | .bytes b => Base58.encode E b checksum.truthy
  | .bytearray b => Base58.encode E b checksum.truthy
  | v =>
    if checksum.truthy then .error .typeError
    else do
      let xs ← v.iter
      let (n, pre) ← toLong 0 0 xs
      let out ← Base58.fromLong n.toNat pre Base58.base (fun v => Base58.alphabet[v]?)
      .ok (Base58.asciiDecode out)

/-- encoding/base58.py:43-56, `decode(s, checksum)`; only strings have `encode`. -/
def base58Decode (E : Env) (s checksum : Val) : Py Bytes :=
  match s with
  | .str s => Base58.decode E s checksum.truthy
  | _ => .error .attributeError

/-- encoding/base58.py:78-84, `has_checksum(s)`. -/
def hasChecksum (E : Env) : Val → Py Bool
  | .str s => Base58.hasChecksum E s
  | _ => .error .attributeError

end Val

namespace Dyn

/-- tx/shared.py:166-194, `VarInt(number, length)`. Only integers can be compared with 0. A length that is neither None nor an integer cannot be compared in line 189, if the number has
no prefix; lines 178 and 181 compare it only if the number has more than two bytes, and that raises for `ByteData` objects. -/
def varInt (number length : Val) : Py Val :=
  match number with
  | .int n =>
    let made (l : Option Nat) : Py Val := do
      let v ← VarInt.make n l
      .ok (.obj .other [.int n] v.bytes)
    match length with
    | .none => made Option.none
    | .int l => made (some l.toNat)
    | l =>
      if n < 0 ∨ 0xffffffffffffffff < n then .error .valueError
      else if n ≤ 0xfc then .error .typeError
      else match l with
        | .obj _ _ _ => if n ≤ 0xffff then made Option.none else .error .typeError
        | _ => made Option.none
  | _ => .error .typeError

end Dyn

end Verif
