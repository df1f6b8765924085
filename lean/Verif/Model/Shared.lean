import Verif.Model.Utils

/-!
# tx/shared.py
-/

namespace Verif

/-- tx/shared.py:7. -/
def SIGHASH_ALL : Nat := 0x01
/-- tx/shared.py:8. -/
def SIGHASH_NONE : Nat := 0x02
/-- tx/shared.py:9. -/
def SIGHASH_SINGLE : Nat := 0x03
/-- tx/shared.py:10. -/
def SIGHASH_FORKID : Nat := 0x40
/-- tx/shared.py:11. -/
def SIGHASH_ANYONECANPAY : Nat := 0x80

/-! ### ByteData (tx/shared.py:14-159) -/

/-- The state of a `ByteData` object (tx/shared.py:24-27): the contents of `_bytes`, whether `_bytes` is a `bytearray` (else
`bytes`), and the private flag `__immutable`. -/
structure ByteData where
  data : Bytes
  isBytearray : Bool
  immutable : Bool
  deriving DecidableEq, Repr

/-- A Python value handed to a `ByteData` method, as far as `isinstance` distinguishes. -/
inductive PyVal where
  | bytes (b : Bytes)
  | bytearray (b : Bytes)
  | byteData (d : ByteData)
  | other
  deriving DecidableEq, Repr

/-- The bytes of a bytes-like value, `none` for anything else. -/
def PyVal.asBytes : PyVal → Option Bytes
  | .bytes b => some b
  | .bytearray b => some b
  | .byteData d => some d.data
  | .other => none

/-- tx/shared.py:26-27, `__init__`. -/
def ByteData.new : ByteData := ⟨[], true, false⟩

/-- tx/shared.py:35-49, `__iadd__`: outcome and new object state. `bytes` objects have no `extend` (AttributeError). -/
def ByteData.iadd (d : ByteData) (other : PyVal) : Py Unit × ByteData :=
  match other with
  | .bytes b => if d.isBytearray then (.ok (), { d with data := d.data ++ b }) else (.error .attributeError, d)
  | .bytearray b => if d.isBytearray then (.ok (), { d with data := d.data ++ b }) else (.error .attributeError, d)
  | .byteData o => if d.isBytearray then (.ok (), { d with data := d.data ++ o.data }) else (.error .attributeError, d)
  | .other => (.error .typeError, d)

/-- tx/shared.py:51-63, `__ne__`. -/
def ByteData.ne (d : ByteData) (other : PyVal) : Py Bool :=
  match other with
  | .bytes b => .ok (d.data != b)
  | .bytearray b => .ok (d.data != b)
  | .byteData o => .ok (d.data != o.data)
  | .other => .error .typeError

/-- tx/shared.py:65-70, `__eq__`. -/
def ByteData.eq (d : ByteData) (other : PyVal) : Py Bool :=
  match d.ne other with
  | .ok r => .ok (!r)
  | .error e => .error e

/-- tx/shared.py:72-76, `__len__`. -/
def ByteData.len (d : ByteData) : Nat := d.data.length

/-- tx/shared.py:100-104, `to_bytes`. -/
def ByteData.toBytes (d : ByteData) : Bytes := d.data

/-- tx/shared.py:106-110, `hex`. -/
def ByteData.hex (d : ByteData) : PyStr := toHex d.data

/-- Attributes one can assign: the buffer `_bytes` (to a bytearray or bytes), or any other attribute. -/
inductive AttrWrite where
  | bytesAttr (asBytearray : Bool) (b : Bytes)
  | otherAttr
  deriving DecidableEq, Repr

/-- tx/shared.py:78-81, `__setattr__`. (Assignment to the name-mangled private flag itself is not modelled.) -/
def ByteData.setattr (d : ByteData) (w : AttrWrite) : Py Unit × ByteData :=
  if d.immutable then (.error .typeError, d)
  else match w with
    | .bytesAttr k b => (.ok (), { d with data := b, isBytearray := k })
    | .otherAttr => (.ok (), d)

/-- tx/shared.py:112-117, `_make_immutable` (both assignments go through `__setattr__`). -/
def ByteData.makeImmutable (d : ByteData) : Py Unit × ByteData :=
  if d.immutable then (.error .typeError, d)
  else (.ok (), { d with isBytearray := false, immutable := true })

/-- tx/shared.py:128-149, `validate_bytes` for arguments that are bytes-like. `len = none` accepts any length. -/
def validateBytes (data : Bytes) (len : Option Nat) : Py Unit :=
  match len with
  | none => .ok ()
  | some n => check (data.length = n) .valueError

/-! ### VarInt (tx/shared.py:162-232) -/

/-- A `VarInt` object: its frozen bytes and `number`. -/
structure VarInt where
  bytes : Bytes
  number : Nat
  deriving DecidableEq, Repr

/-- tx/shared.py:166-194, `VarInt.__init__`. -/
def VarInt.make (number : Int) (length : Option Nat := none) : Py VarInt :=
  if number < 0 then .error .valueError
  else if number > 0xffffffffffffffff then .error .valueError
  else
    let pl : Bytes × Option Nat :=
      if number ≤ 0xfc then ([], length)
      else if number ≤ 0xffff ∨ length = some 3 then ([0xfd], some 3)
      else if number ≤ 0xffffffff ∨ length = some 5 then ([0xfe], some 5)
      else ([0xff], some 9)
    match i2le number with
    | .error e => .error e
    | .ok body =>
      let b := pl.1 ++ body
      match pl.2 with
      | none => .ok ⟨b, number.toNat⟩
      | some l => .ok ⟨b ++ List.replicate (l - b.length) 0, number.toNat⟩

/-- tx/shared.py:206-217: the number bytes and the `non_compact` flag, by the first byte. -/
def VarInt.split (first : UInt8) (b : Bytes) : Bytes × Bool :=
  if first.toNat ≤ 0xfc then (slice b 0 1, false)
  else if first = 0xfd then
    let num := slice b 1 3
    (num, lastN num 1 == [0x00])
  else if first = 0xfe then
    let num := slice b 1 5
    (num, lastN num 2 == [0x00, 0x00])
  else
    let num := slice b 1 9
    (num, lastN num 4 == [0x00, 0x00, 0x00, 0x00])

/-- tx/shared.py:199-232, `VarInt.from_bytes`. -/
def VarInt.fromBytes (net : Network) (b : Bytes) : Py VarInt :=
  match b with
  | [] => .error .indexError
  | first :: _ =>
    let (num, nonCompact) := VarInt.split first b
    if ¬ (num.length = 1 ∨ num.length = 2 ∨ num.length = 4 ∨ num.length = 8) then .error .valueError
    else if nonCompact ∧ (net.isOverwinter ∨ net.isSapling) then .error .valueError
    else VarInt.make (le2i num) (some (if nonCompact then num.length + 1 else 0))

/-- tx/shared.py:196-197, `VarInt.copy`. -/
def VarInt.copy (v : VarInt) : Py VarInt := VarInt.make v.number

end Verif
