import Verif.Model.Bech32

/-! # encoding/cashaddr.py -/

namespace Verif.Cashaddr
open Bech32 (CHARSET emitLoop)

/-- encoding/cashaddr.py:119-126, the loop over the values with state `(acc, bits, ret)`; `none` is `return None`. Values may be
`-1` here (`CHARSET.find` of a foreign character). -/
def convertLoop (frombits tobits : Nat) : Nat → Nat → List Nat → List Int → Option (Nat × Nat × List Nat)
  | acc, bits, ret, [] => some (acc, bits, ret)
  | acc, bits, ret, value :: data =>
    if value < 0 ∨ value.toNat >>> frombits ≠ 0 then none
    else
      let acc := ((acc <<< frombits) ||| value.toNat) &&& ((1 <<< (frombits + tobits - 1)) - 1)
      let bits := bits + frombits
      let r := emitLoop tobits acc bits bits
      convertLoop frombits tobits acc r.1 (ret ++ r.2) data

/-- encoding/cashaddr.py:113-132, `convertbits`. -/
def convertbits (data : List Int) (frombits tobits : Nat) (pad : Bool := true) : Option (List Nat) :=
  match convertLoop frombits tobits 0 0 [] data with
  | none => none
  | some (acc, bits, ret) =>
    let maxv := (1 <<< tobits) - 1
    if pad then
      if bits ≠ 0 then some (ret ++ [(acc <<< (tobits - bits)) &&& maxv]) else some ret
    else if frombits ≤ bits ∨ (acc <<< (tobits - bits)) &&& maxv ≠ 0 then none
    else some ret

/-- encoding/cashaddr.py:68-73, `generator`. -/
def generator : List (BitVec 40 × BitVec 40) :=
  [(0x01, 0x98f2bc8e61), (0x02, 0x79b76d99e2), (0x04, 0xf33e5fb3c4), (0x08, 0xae2eabe2a8), (0x10, 0x1e4f43e470)]

/-- encoding/cashaddr.py:77-79. -/
def xorGens (top : BitVec 40) : List (BitVec 40 × BitVec 40) → BitVec 40 → BitVec 40
  | [], chk => chk
  | g :: gs, chk => xorGens top gs (if top &&& g.1 ≠ 0 then chk ^^^ g.2 else chk)

/-- encoding/cashaddr.py:75-79, one iteration of `polymod`, on the low 40 bits of Python's `chk`. The next iteration only reads
these 40 bits (35 by the mask, 5 through `top & i[0]`), also when `chk` is negative after a value of `-1`. -/
def polymodStep (chk : BitVec 40) (value : Int) : BitVec 40 :=
  let top := chk >>> 35
  let chk := ((chk &&& 0x07ffffffff#40) <<< 5) ^^^ BitVec.ofInt 40 value
  xorGens top generator chk

/-- encoding/cashaddr.py:66-80, `polymod`, low 40 bits. -/
def polymod (values : List Int) : BitVec 40 := values.foldl polymodStep 1 ^^^ 1

/-- encoding/cashaddr.py:83-84, `prefix_expand`. -/
def prefixExpand (pre : PyStr) : List Int := pre.map (fun x => ((x.toNat &&& 0x1f : Nat) : Int)) ++ [0]

/-- encoding/cashaddr.py:87-92, `calculate_checksum`. -/
def calculateChecksum (pre : PyStr) (payload : List Int) : List Int :=
  let poly := polymod (prefixExpand pre ++ payload ++ [0, 0, 0, 0, 0, 0, 0, 0])
  (List.range 8).map fun i => (((poly >>> (5 * (7 - i))) &&& 0x1f#40).toNat : Int)

/-- encoding/cashaddr.py:95-96, `verify_checksum`. Python's `polymod` is negative, hence not 0, exactly when the last value
is negative; otherwise it is the 40-bit value. -/
def verifyChecksum (pre : PyStr) (payload : List Int) : Bool :=
  polymod (prefixExpand pre ++ payload) == 0 &&
    match payload.getLast? with
    | some v => decide (0 ≤ v)
    | none => true

/-- `CHARSET.find(letter)`. -/
def charsetFind (c : Char) : Int := if CHARSET.contains c then (CHARSET.idxOf c : Int) else -1

/-- encoding/cashaddr.py:99-103, `b32decode`. -/
def b32decode (s : PyStr) : List Int := s.map charsetFind

/-- encoding/cashaddr.py:106-110, `b32encode`. -/
def b32encode : List Int → Py PyStr
  | [] => .ok []
  | d :: ds => do
    let c ← getItem CHARSET d
    let r ← b32encode ds
    .ok (c :: r)

/-- encoding/cashaddr.py:29-43, `encode`. -/
def encode (net : Network) (data : Bytes) : Py PyStr :=
  match net.cashaddrPrefix with
  | none => .error .valueError
  | some pre =>
    match convertbits (data.map fun x => Int.ofNat x.toNat) 8 5 with
    | none => .error .typeError
    | some d => do
      let d : List Int := d.map Int.ofNat
      let payload ← b32encode (d ++ calculateChecksum pre d)
      .ok (pre ++ pystr ":" ++ payload)

/-- `s.split(':')`. -/
def splitColon : PyStr → List PyStr
  | [] => [[]]
  | c :: cs =>
    if c = ':' then [] :: splitColon cs
    else match splitColon cs with
      | [] => [[c]]
      | t :: ts => (c :: t) :: ts

/-- encoding/cashaddr.py:46-63, `decode`. Unpacking a split into other than two parts raises ValueError. -/
def decode (net : Network) (data : PyStr) : Py Bytes :=
  match net.cashaddrPrefix with
  | none => .error .valueError
  | some pre =>
    if ¬ startsWith data pre then .error .valueError
    else match splitColon data with
      | [pre', payload] =>
        let decoded := b32decode payload
        if ¬ verifyChecksum pre' decoded then .error .valueError
        else match convertbits decoded 5 8 with
          | none => .error .typeError
          | some converted => .ok ((dropLastN converted 6).map UInt8.ofNat)
      | _ => .error .valueError

end Verif.Cashaddr
