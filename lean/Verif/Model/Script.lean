import Verif.Model.Opcodes
import Verif.Model.Utils

/-! # script/serialization.py -/

namespace Verif

/-- `CODE_TO_INT[op]`, KeyError when absent. -/
def codeToIntOrKeyError (op : PyStr) : Py UInt8 :=
  match codeToInt op with
  | some b => .ok b
  | none => .error .keyError

/-- script/serialization.py:32-55: serialization of a data token. -/
def serializeData (token : PyStr) : Py Bytes := do
  let tokenBytes ← fromHex token
  if tokenBytes.length ≤ 75 then do
    let op ← codeToIntOrKeyError (opPushName tokenBytes.length)
    .ok (op :: tokenBytes)
  else if tokenBytes.length ≤ 255 then do
    let op ← codeToIntOrKeyError (pystr "OP_PUSHDATA1")
    let len ← i2le tokenBytes.length
    .ok (op :: (len ++ tokenBytes))
  else if tokenBytes.length ≤ 1000 then do
    let op ← codeToIntOrKeyError (pystr "OP_PUSHDATA2")
    let len ← i2lePadded tokenBytes.length 2
    .ok (op :: (len ++ tokenBytes))
  else .error .notImplementedError

/-- script/serialization.py:22-55: the loop body, the bytes one token contributes. -/
def serializeToken (net : Network) (token : PyStr) : Py Bytes :=
  if token = pystr "OP_CODESEPARATOR" ∨ token = pystr "OP_PUSHDATA4" then .error .notImplementedError
  else match net.codeToIntOverwrite token with
    | some b => .ok [b]
    | none => match codeToInt token with
      | some b => .ok [b]
      | none => serializeData token

/-- script/serialization.py:21-57: the loop over the tokens. -/
def serializeTokens (net : Network) : List PyStr → Py Bytes
  | [] => .ok []
  | t :: ts => do
    let a ← serializeToken net t
    let b ← serializeTokens net ts
    .ok (a ++ b)

/-- script/serialization.py:6-57, `serialize`. -/
def serialize (net : Network) (s : PyStr) : Py Bytes := serializeTokens net (pySplit s)

/-- script/serialization.py:60-72, `hex_serialize`. -/
def hexSerialize (net : Network) (s : PyStr) : Py PyStr := do
  let b ← serialize net s
  .ok (toHex b)

/-- script/serialization.py:125-133: the name of a non-push byte. -/
def opName (net : Network) (b : UInt8) : Py PyStr :=
  match net.intToCodeOverwrite b with
  | some t => .ok t
  | none => match intToCode b with
    | some t => .ok t
    | none => .error .valueError

/-- script/serialization.py:88-134: the `while` loop of `deserialize` on the not yet consumed suffix
`serialized_script[i:]`; `fuel` is an upper bound on the number of iterations (every iteration consumes a byte, so the
initial `len(serialized_script)` is never exhausted early). -/
def deserializeLoop (net : Network) : Nat → Bytes → Py (List PyStr)
  | _, [] => .ok []
  | 0, _ :: _ => .ok []
  | fuel + 1, cur :: rest =>
    if cur = 0xab then .error .notImplementedError
    else if cur.toNat ≤ 75 ∧ cur ≠ 0 then
      if rest.length < cur.toNat then .error .indexError
      else do
        let ts ← deserializeLoop net fuel (rest.drop cur.toNat)
        .ok (toHex (rest.take cur.toNat) :: ts)
    else if cur = 76 then
      match rest with
      | [] => .error .indexError
      | l :: rest' => do
        let ts ← deserializeLoop net fuel (rest'.drop l.toNat)
        .ok (toHex (rest'.take l.toNat) :: ts)
    else if cur = 77 then do
      let blobLen := le2i (rest.take 2)
      let ts ← deserializeLoop net fuel (rest.drop (2 + blobLen))
      .ok (toHex (slice rest 2 (2 + blobLen)) :: ts)
    else if cur = 78 then .error .notImplementedError
    else do
      let t ← opName net cur
      let ts ← deserializeLoop net fuel rest
      .ok (t :: ts)

/-- script/serialization.py:86-134: the list of tokens. -/
def deserializeTokens (net : Network) (b : Bytes) : Py (List PyStr) := deserializeLoop net b.length b

/-- script/serialization.py:75-136, `deserialize`. -/
def deserialize (net : Network) (b : Bytes) : Py PyStr := do
  let ts ← deserializeTokens net b
  .ok (joinSpace ts)

/-- script/serialization.py:139-150, `hex_deserialize`. -/
def hexDeserialize (net : Network) (h : PyStr) : Py PyStr := do
  let b ← fromHex h
  deserialize net b

end Verif
