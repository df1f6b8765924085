import Verif.Model.Networks
import Verif.Model.Blake256

/-!
# utils.py
-/

namespace Verif

/-- utils.py:6-17, `i2le`. -/
def i2le (number : Int) : Py Bytes :=
  if number = 0 then .ok [0x00]
  else toBytesLE number ((bitLength number + 7) / 8)

/-- utils.py:20-30, `i2le_padded`. -/
def i2lePadded (number : Int) (length : Nat) : Py Bytes := toBytesLE number length

/-- utils.py:43-51, the loop `for i in range(520)` of `i2le_script`, `fuel` iterations left, next length `i`. -/
def i2leScriptLoop (number : Int) : Nat → Nat → Py PyStr
  | 0, _ => .error .valueError
  | fuel + 1, i =>
    match toBytesLESigned number i with
    | .ok b => .ok (toHex b)
    | .error .overflowError => i2leScriptLoop number fuel (i + 1)
    | .error e => .error e

/-- utils.py:33-53, `i2le_script`. -/
def i2leScript (number : Int) : Py PyStr :=
  if number = 0 then .ok (pystr "00")
  else i2leScriptLoop number 520 0

/-- utils.py:56-66, `le2i` with `signed=False`. -/
def le2i (b : Bytes) : Nat := leToNat b

/-- utils.py:56-66, `le2i` with `signed=True`. -/
def le2iSigned (b : Bytes) : Int := leToIntSigned b

/-- utils.py:69-79, `be2i` with `signed=False`. -/
def be2i (b : Bytes) : Nat := leToNat b.reverse

/-- utils.py:82-93, `i2be`. -/
def i2be (number : Int) : Py Bytes :=
  if number = 0 then .ok [0x00]
  else toBytesBE number ((bitLength number + 7) / 8)

/-- utils.py:96-106, `i2be_padded`. -/
def i2bePadded (number : Int) (length : Nat) : Py Bytes := toBytesBE number length

/-- utils.py:109-111, `change_endianness`. -/
def changeEndianness (b : Bytes) : Bytes := b.reverse

/-- The `hashlib` primitives (SHA-256, RIPEMD-160, and BLAKE2b with `digest_size=32` and a `person` string),
uninterpreted. -/
structure Hashes where
  sha256 : Bytes → Bytes
  rmd160 : Bytes → Bytes
  blake2b : (person : Bytes) → (data : Bytes) → Bytes

/-- The only facts about the `hashlib` primitives that theorems may assume: digest lengths. -/
structure Hashes.LengthOK (H : Hashes) : Prop where
  sha256 : ∀ m, (H.sha256 m).length = 32
  rmd160 : ∀ m, (H.rmd160 m).length = 20
  blake2b : ∀ p m, (H.blake2b p m).length = 32

/-- Everything the code reads from outside its arguments: the current network and `hashlib`. -/
structure Env where
  net : Network
  H : Hashes

/-- utils.py:145-147, `blake256`. -/
def blake256 (msg : Bytes) : Bytes := Blake.blakeHash msg

/-- utils.py:128-135, `hash160`. -/
def Env.hash160 (E : Env) (msg : Bytes) : Bytes :=
  if E.net.isDecred then E.H.rmd160 (blake256 msg) else E.H.rmd160 (E.H.sha256 msg)

/-- utils.py:138-142, `hash256`. -/
def Env.hash256 (E : Env) (msg : Bytes) : Bytes :=
  if E.net.isDecred then blake256 (blake256 msg) else E.H.sha256 (E.H.sha256 msg)

end Verif
