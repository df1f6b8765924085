import Verif.Model.DynBuilder

/-! # encoding/addresses.py, script/serialization.py and the scripts of tx/tx_builder.py on arguments of any type

The same values and simplifications as in `Model/Dyn.lean`. -/

namespace Verif

namespace Val

/-- utils.py:123-125, `sha256(v)`: `hashlib` takes bytes and bytearrays, and raises a TypeError for anything else (`ByteData` has no buffer). -/
def sha256 (E : Env) : Val → Py Bytes
  | .bytes b => .ok (E.H.sha256 b)
  | .bytearray b => .ok (E.H.sha256 b)
  | _ => .error .typeError

/-- utils.py:145-147 and blake256.py:419-429, 538-539, `blake256(v)`: nothing is hashed if `v` is false (line 428). Text is encoded (line 380); a slice of a `ByteData` object is bytes
(tx/shared.py:32-33). Numbers have no `len` (line 373); a list or a tuple is not added to the cache of bytes (line 415) nor unpacked (line 514). -/
def blake256 (v : Val) : Py Bytes :=
  if ¬ v.truthy then .ok (Verif.blake256 [])
  else match v with
    | .str s => .ok (Blake.finalText .h256 (Blake.init .h256) s).2
    | .bytes b => .ok (Verif.blake256 b)
    | .bytearray b => .ok (Verif.blake256 b)
    | .obj _ _ b => .ok (Verif.blake256 b)
    | _ => .error .typeError

/-- utils.py:128-135, `hash160(v)`. -/
def hash160 (E : Env) (v : Val) : Py Bytes :=
  if E.net.isDecred then do
    let h ← v.blake256
    .ok (E.H.rmd160 h)
  else do
    let h ← v.sha256 E
    .ok (E.H.rmd160 h)

/-- `len(v) == n and v.find(p) == 0`, with the bytes of `v` if so. The `find` of a string does not take bytes (TypeError); lists and tuples have none. -/
def found (v : Val) (n : Nat) (p : Bytes) : Py (Option Bytes) := do
  let l ← v.len
  if l = n then
    match v with
    | .bytes b => .ok (if startsWith b p then some b else Option.none)
    | .bytearray b => .ok (if startsWith b p then some b else Option.none)
    | .obj _ _ b => .ok (if startsWith b p then some b else Option.none)
    | .str _ => .error .typeError
    | _ => .error .attributeError
  else .ok Option.none

end Val

namespace Dyn
open Val

/-! ### encoding/addresses.py -/

/-- encoding/addresses.py:64-86, `make_sh_address(script_string, witness, cashaddr)`. `make_p2wsh_address`, `make_p2sh_address` and `make_legacy_p2sh_address` (lines 89-126) call it. -/
def makeShAddress (E : Env) (scriptString witness cashaddr : Val) : Py (Option PyStr) := do
  let scriptBytes ← scriptString.serialize E.net
  Addresses.serScriptToShAddress E scriptBytes witness.truthy cashaddr.truthy

/-- encoding/addresses.py:159-178, `make_pkh_address(pubkey, witness, cashaddr)`. `make_p2wpkh_address`, `make_p2pkh_address` and `make_legacy_p2pkh_address` (lines 181-214) call it. -/
def makePkhAddress (E : Env) (pubkey witness cashaddr : Val) : Py (Option PyStr) := do
  let pubkeyHash ← pubkey.hash160 E
  Addresses.makePkhAddress' E pubkeyHash witness.truthy cashaddr.truthy

/-- encoding/addresses.py:217-242, `parse(address)`: line 227 evaluates `address.encode`, and only a ValueError is caught there. -/
def parse (E : Env) : Val → Py Bytes
  | .str s => Addresses.parse E s
  | _ => .error .attributeError

/-- encoding/addresses.py:345-382, `parse_hash(address)`, which calls `parse` first. -/
def parseHash (E : Env) : Val → Py Bytes
  | .str s => Addresses.parseHash E s
  | _ => .error .attributeError

/-- The blocks `try: if …: return … except TypeError: pass` of encoding/addresses.py:317-332, and what follows. -/
def orElse (x : Py (Option (Option PyStr))) (rest : Py (Option PyStr)) : Py (Option PyStr) :=
  match x with
  | .ok (some a) => .ok a
  | .ok Option.none => rest
  | .error e => if e = .typeError then rest else .error e

/-- encoding/addresses.py:309-342, `from_output_script(output_script, cashaddr)`. -/
def fromOutputScript (E : Env) (v cashaddr : Val) : Py (Option PyStr) :=
  orElse (do
    let r ← v.found (E.net.p2wshPrefix.length + 32) E.net.p2wshPrefix
    match r with
    | some b => (Addresses.hashToShAddress E (lastN b 32) true cashaddr.truthy).map some
    | Option.none => .ok Option.none) <|
  orElse (do
    let r ← v.found (E.net.p2wpkhPrefix.length + 20) E.net.p2wpkhPrefix
    match r with
    | some b => (Addresses.makePkhAddress' E (lastN b 20) true cashaddr.truthy).map some
    | Option.none => .ok Option.none) <| do
  let r ← v.found 25 [0x76, 0xa9, 0x14]
  match r with
  | some b => Addresses.makePkhAddress' E (Verif.slice b 3 23) false cashaddr.truthy
  | Option.none =>
    let r ← v.found 23 [0xa9, 0x14]
    match r with
    | some b => Addresses.hashToShAddress E (Verif.slice b 2 22) false cashaddr.truthy
    | Option.none => .error .valueError

/-! ### tx/tx_builder.py -/

/-- tx/tx_builder.py:9-31, `make_sh_script_pubkey(script_bytes, witness)`. -/
def makeShScriptPubkey (E : Env) (scriptBytes witness : Val) : Py Bytes :=
  if witness.truthy then do
    let h ← scriptBytes.sha256 E
    .ok (E.net.p2wshPrefix ++ h)
  else do
    let h ← scriptBytes.hash160 E
    .ok ([0xa9, 0x14] ++ h ++ [0x87])

/-- `'{}'.format(n)`. -/
def decimal (n : Int) : PyStr := if n < 0 then '-' :: decStr n.natAbs else decStr n.natAbs

/-- tx/tx_builder.py:369-378, `make_script_sig(stack_script, redeem_script)`. The stack script is formatted into a string: a number becomes its digits. The text of any other value
begins with `None`, `b'`, `bytearray(b'`, `[` or `(` (that of a `ByteData` object is that of its bytes, tx/shared.py:83-92), so that its first token is no opcode and no hex: ValueError. -/
def makeScriptSig (E : Env) (stackScript redeemScript : Val) : Py Bytes := do
  let r ← redeemScript.serialize E.net
  match stackScript with
  | .str s => serialize E.net (s ++ ' ' :: toHex r)
  | .int n => serialize E.net (decimal n ++ ' ' :: toHex r)
  | _ => .error .valueError

/-! ### script/serialization.py -/

/-- script/serialization.py:86-134, the loop of `deserialize` on the elements of a list or a tuple. The slices of lines 95, 108 and 117 have no `hex`. -/
def deserializeList (net : Network) : List Val → Py (List PyStr)
  | [] => .ok []
  | .int n :: rest =>
    if n = 0xab then .error .notImplementedError
    else if n ≤ 75 ∧ n ≠ 0 then .error .attributeError
    else if n = 76 then
      match rest with
      | [] => .error .indexError
      | .int _ :: _ => .error .attributeError
      | _ :: _ => .error .typeError
    else if n = 77 then do
      let _ ← byteList (rest.take 2)
      .error .attributeError
    else if n = 78 then .error .notImplementedError
    else if n > 255 then .error .valueError
    else do
      let t ← opName net (UInt8.ofNat n.toNat)
      let ts ← deserializeList net rest
      .ok (t :: ts)
  | _ :: _ => .error .typeError

/-- script/serialization.py:75-136, `deserialize(v)`. The characters of a string cannot be compared with a number. -/
def deserialize (net : Network) (v : Val) : Py PyStr :=
  match v with
  | .bytes b => Verif.deserialize net b
  | .bytearray b => Verif.deserialize net b
  | .obj _ _ b => Verif.deserialize net b
  | .list l => do
    let ts ← deserializeList net l
    .ok (joinSpace ts)
  | .tuple l => do
    let ts ← deserializeList net l
    .ok (joinSpace ts)
  | .str s => if s = [] then .ok [] else .error .typeError
  | .none => .error .typeError
  | .int _ => .error .typeError

/-- script/serialization.py:139-150, `hex_deserialize(v)`. -/
def hexDeserialize (net : Network) : Val → Py PyStr
  | .str s => Verif.hexDeserialize net s
  | _ => .error .typeError

end Dyn

end Verif
