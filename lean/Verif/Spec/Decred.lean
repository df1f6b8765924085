import Verif.Spec.Sighash

/-! Decred: the wire format of transactions (dcrd `wire/msgtx.go`: serialization types full, prefix only, witness only, witness for signing)
and the signature hash (dcrd `txscript`, `CalcSignatureHash`), on plain bytes. -/

namespace Verif.Spec

/-- An input without its witness: outpoint (id, index, tree), sequence. -/
def dcrIn (txId index tree sequence : Bytes) : Bytes := txId ++ index ++ tree ++ sequence

/-- An output: value, script version, script. -/
def dcrOut (value version script : Bytes) : Bytes := value ++ version ++ varBytes script

/-- The witness of an input: value, block height, block index, signature script. -/
def dcrWitness (value height index script : Bytes) : Bytes := value ++ height ++ index ++ varBytes script

/-- Serialization type 0. -/
def dcrFull (version : Bytes) (ins outs : List Bytes) (lockTime expiry : Bytes) (wits : List Bytes) : Bytes :=
  version ++ vector ins ++ vector outs ++ lockTime ++ expiry ++ vector wits

/-- Serialization type 1: two bytes of version, two bytes of type. -/
def dcrPrefix (version : Bytes) (ins outs : List Bytes) (lockTime expiry : Bytes) : Bytes :=
  version.take 2 ++ leBytes 2 1 ++ vector ins ++ vector outs ++ lockTime ++ expiry

/-- Serialization type 2. -/
def dcrWitnessOnly (version : Bytes) (wits : List Bytes) : Bytes := version.take 2 ++ leBytes 2 2 ++ vector wits

/-- Serialization type 3: only the scripts. -/
def dcrWitnessSigning (version : Bytes) (scripts : List Bytes) : Bytes := version.take 2 ++ leBytes 2 3 ++ vector (scripts.map varBytes)

/-- The fields of a transaction that signatures can cover. -/
structure DcrSigTx where
  version : Bytes
  /-- outpoint and sequence -/
  ins : List (Bytes × Bytes)
  /-- value, script version, script -/
  outs : List (Bytes × Bytes × Bytes)
  lockTime : Bytes
  expiry : Bytes

/-- The inputs that are signed: with ANYONECANPAY only the one at the index. -/
def dcrSigned (t : DcrSigTx) (i type : Nat) : List (Bytes × Bytes) :=
  if acpBit type then (t.ins[i]?).toList else t.ins

/-- The position of the input being signed among those. -/
def dcrPosition (i type : Nat) : Nat := if acpBit type then 0 else i

/-- The signed inputs as hashed: with SINGLE and NONE the sequences of the other ones are zero. -/
def dcrSigIns (t : DcrSigTx) (i type : Nat) : List Bytes :=
  (dcrSigned t i type).mapIdx fun j x =>
    x.1 ++ (if (baseType type = 3 ∨ baseType type = 2) ∧ j ≠ dcrPosition i type then [0, 0, 0, 0] else x.2)

/-- The outputs as hashed: with SINGLE those up to the index, the others having value -1 and an empty script. -/
def dcrSigOuts (t : DcrSigTx) (i type : Nat) : List Bytes :=
  if baseType type = 3 then
    (t.outs.take (i + 1)).mapIdx fun j o => if j = i then dcrOut o.1 o.2.1 o.2.2 else dcrOut (List.replicate 8 0xff) o.2.1 []
  else if baseType type = 2 then []
  else t.outs.map fun o => dcrOut o.1 o.2.1 o.2.2

/-- The scripts as hashed: the given one at the position of the signed input, the others empty. -/
def dcrSigScripts (n k : Nat) (script : Bytes) : List Bytes := (List.range n).map fun j => if j = k then script else []

/-- The signature hash. -/
def dcrSighash (H : Bytes → Bytes) (t : DcrSigTx) (i : Nat) (script : Bytes) (type : Nat) : Bytes :=
  H (leBytes 4 type ++ H (dcrPrefix t.version (dcrSigIns t i type) (dcrSigOuts t i type) t.lockTime t.expiry)
    ++ H (dcrWitnessSigning t.version (dcrSigScripts (dcrSigned t i type).length (dcrPosition i type) script)))

end Verif.Spec
