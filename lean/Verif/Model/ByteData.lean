import Verif.Model.Bech32
import Verif.Model.Shared

/-! # tx/shared.py:29-33, 83-98, 119-126, 151-153: reading, searching and printing a `ByteData`

`Model/Shared` has the operations that change or compare a `ByteData`. These are the operations that hand its contents out. They delegate
to `bytes` or `bytearray`, whose behaviour is written down here. Slices have step 1. -/

namespace Verif

/-- `iter(d)` (tx/shared.py:29-30): the integers of the buffer in order. -/
def ByteData.iter (d : ByteData) : List UInt8 := d.data

/-- `d[i]` for an integer (tx/shared.py:32-33). -/
def ByteData.index (d : ByteData) (i : Int) : Py UInt8 := getItem d.data i

/-- Where a slice bound falls in a sequence of `len` elements (CPython's `PySlice_AdjustIndices`, step 1). -/
def sliceBound (len : Nat) (i : Int) : Nat := if i < 0 then (i + len).toNat else min i.toNat len

/-- `b[start:stop]`, bounds possibly left out or negative. -/
def pySlice {α : Type} (b : List α) (start stop : Option Int) : List α :=
  (b.take ((stop.map (sliceBound b.length)).getD b.length)).drop ((start.map (sliceBound b.length)).getD 0)

/-- `d[start:stop]` (tx/shared.py:32-33); the result is a `bytearray` or `bytes` as the buffer is. -/
def ByteData.slice (d : ByteData) (start stop : Option Int) : Bytes := pySlice d.data start stop

/-- First position, counted from `k`, at which `sub` occurs. -/
def findFrom (sub : Bytes) (k : Nat) : Bytes → Option Nat
  | [] => if sub.isPrefixOf [] then some k else none
  | b :: bs => if sub.isPrefixOf (b :: bs) then some k else findFrom sub (k + 1) bs

/-- `d.find(substring)` (tx/shared.py:119-126); -1 when it does not occur. The substring may be a `ByteData`; for anything that is not
bytes-like `bytes.find` raises TypeError (an int is not considered here). -/
def ByteData.find (d : ByteData) (substring : PyVal) : Py Int :=
  match substring with
  | .byteData s => .ok (match findFrom s.toBytes 0 d.data with | some k => k | none => -1)
  | .bytes s => .ok (match findFrom s 0 d.data with | some k => k | none => -1)
  | .bytearray s => .ok (match findFrom s 0 d.data with | some k => k | none => -1)
  | .other => .error .typeError

/-- What one can look for with `in`. -/
inductive InArg where
  | int (n : Int)
  | val (v : PyVal)

/-- `v in d`: the class has no `__contains__`, so Python compares `v` with each element that `__iter__` (tx/shared.py:29-30) gives. An
int is never equal to a `bytes` or `bytearray`; to compare it with a `ByteData` Python calls `ByteData.__eq__` with the int, which raises
TypeError (tx/shared.py:62). `other` stands for an object that is equal to no int. -/
def ByteData.contains (d : ByteData) (v : InArg) : Py Bool :=
  match v with
  | .int n => .ok (d.iter.any fun x => (x.toNat : Int) = n)
  | .val (.byteData _) => if d.iter.isEmpty then .ok false else .error .typeError
  | .val _ => .ok false

/-- One byte in the `repr` of bytes, `q` being the quote that is escaped. -/
def reprByte (q : Nat) (b : UInt8) : PyStr :=
  let n := b.toNat
  if n = q ∨ n = 92 then ['\\', Char.ofNat n]
  else if n = 9 then ['\\', 't']
  else if n = 10 then ['\\', 'n']
  else if n = 13 then ['\\', 'r']
  else if n < 32 ∨ 127 ≤ n then ['\\', 'x', hexDigit (n / 16), hexDigit (n % 16)]
  else [Char.ofNat n]

/-- The quote in the `repr` of bytes: double if there are single quotes and no double ones. -/
def reprQuote (b : Bytes) : Nat := if b.contains 39 && !b.contains 34 then 34 else 39

/-- The literal in the `repr` of `bytes` or of a `bytearray`. In a `bytearray` single quotes are escaped even if the quotes around are double (CPython's
`bytearray_repr`). -/
def reprLiteral (array : Bool) (b : Bytes) : PyStr :=
  'b' :: Char.ofNat (reprQuote b) :: (b.flatMap (reprByte (if array then 39 else reprQuote b)) ++ [Char.ofNat (reprQuote b)])

/-- `str(self._bytes)`. -/
def ByteData.str (d : ByteData) : PyStr :=
  if d.isBytearray then pystr "bytearray(" ++ reprLiteral true d.data ++ pystr ")" else reprLiteral false d.data

/-- tx/shared.py:83-92, `__format__`. `bytes.__format__` is `object.__format__`: `str` for an empty code, else TypeError. -/
def ByteData.format (d : ByteData) (code : PyStr) : Py PyStr :=
  if code.contains 'x' then .ok d.hex
  else if code.contains 'X' then .ok (Bech32.upper d.hex)
  else if code = [] then .ok d.str
  else .error .typeError

/-- tx/shared.py:94-98, `__repr__`; `name` is the name of the class. -/
def ByteData.repr (name : PyStr) (d : ByteData) : PyStr := name ++ pystr ": " ++ d.str

/-- tx/shared.py:151-153, `from_hex`, for a class with the given `from_bytes`. -/
def ByteData.fromHex {α : Type} (fromBytes : Bytes → Py α) (hexString : PyStr) : Py α := do
  let b ← Verif.fromHex hexString
  fromBytes b

end Verif
