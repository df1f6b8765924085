import Verif.Spec.Wire

/-! Signature hashing as the protocol defines it: the original algorithm (Bitcoin Core's `SignatureHash`, base version) and BIP143,
on a plain record of the fields, for every 32-bit hash type. -/

namespace Verif.Spec

/-- The fields of a transaction that signatures can cover. -/
structure SigTx where
  version : Bytes
  /-- outpoint (36 bytes) and sequence of each input -/
  ins : List (Bytes × Bytes)
  /-- each serialized output -/
  outs : List Bytes
  lockTime : Bytes
  deriving DecidableEq

/-- The base type: the low five bits. -/
def baseType (type : Nat) : Nat := type % 32
/-- The ANYONECANPAY bit 0x80. -/
def acpBit (type : Nat) : Bool := type / 128 % 2 == 1

def zeros32 : Bytes := List.replicate 32 0

/-- BIP143 item 2. -/
def hashPrevouts (hash : Bytes → Bytes) (t : SigTx) (type : Nat) : Bytes :=
  if acpBit type then zeros32 else hash (t.ins.map (·.1)).flatten

/-- BIP143 item 3. -/
def hashSequence (hash : Bytes → Bytes) (t : SigTx) (type : Nat) : Bytes :=
  if acpBit type || baseType type == 3 || baseType type == 2 then zeros32 else hash (t.ins.map (·.2)).flatten

/-- BIP143 item 8. -/
def hashOutputs (hash : Bytes → Bytes) (t : SigTx) (i type : Nat) : Bytes :=
  if baseType type ≠ 3 ∧ baseType type ≠ 2 then hash t.outs.flatten
  else if baseType type = 3 then
    match t.outs[i]? with
    | some o => hash o
    | none => zeros32
  else zeros32

/-- The BIP143 preimage for input `i` (outpoint `o`, sequence `s`), script code (with its length), and amount. -/
def bip143 (hash : Bytes → Bytes) (t : SigTx) (i : Nat) (o s scriptCode amount : Bytes) (type : Nat) : Bytes :=
  t.version ++ hashPrevouts hash t type ++ hashSequence hash t type ++ o ++ scriptCode ++ amount ++ s
    ++ hashOutputs hash t i type ++ t.lockTime ++ leBytes 4 type

/-- One input of the original algorithm's modified copy. -/
def legacyIn (i type : Nat) (script : Bytes) (j : Nat) (inp : Bytes × Bytes) : Bytes :=
  inp.1 ++ (if j = i then varBytes script else [0x00]) ++
    (if j ≠ i ∧ (baseType type = 2 ∨ baseType type = 3) then [0, 0, 0, 0] else inp.2)

/-- The inputs of the modified copy. -/
def legacyIns (t : SigTx) (i type : Nat) (script : Bytes) : List Bytes :=
  let all := t.ins.mapIdx (legacyIn i type script)
  if acpBit type then (all.drop i).take 1 else all

/-- The outputs of the modified copy: with SINGLE, `i + 1` of them, all but the last blank. -/
def legacyOuts (t : SigTx) (i type : Nat) : List Bytes :=
  if baseType type = 2 then []
  else if baseType type = 3 then List.replicate i (List.replicate 8 0xff ++ [0x00]) ++ (t.outs.drop i).take 1
  else t.outs

/-- The preimage of the original algorithm; the script is given without its length. -/
def legacyPreimage (t : SigTx) (i : Nat) (script : Bytes) (type : Nat) : Bytes :=
  wireLegacy t.version (legacyIns t i type script) (legacyOuts t i type) t.lockTime ++ leBytes 4 type

/-- The hash type word with a fork id (Bitcoin Cash's replay-protected sighash): the id in the upper 24 bits, bit 0x40. -/
def forkidType (forkid type : Nat) : Nat := forkid * 256 + type + 0x40

end Verif.Spec
