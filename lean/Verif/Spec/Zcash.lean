import Verif.Spec.Sighash

/-! Zcash: the wire format of transactions (protocol specification, section 7.1: versions 1 to 4) and the signature hashes ZIP143 and
ZIP243, on plain bytes. -/

namespace Verif.Spec

/-- The joinsplit part of a version 2 or 3 or 4 transaction: the vector, then public key and signature when it is not empty. -/
def wireJoinsplits (js : List Bytes) (pk sig : Bytes) : Bytes := vector js ++ (if js = [] then [] else pk ++ sig)

/-- A version 1 transaction is a Bitcoin transaction; in version 2 the joinsplit part follows. -/
def wireSprout (version : Bytes) (ins outs : List Bytes) (lockTime : Bytes) (js : List Bytes) (pk sig : Bytes) : Bytes :=
  wireLegacy version ins outs lockTime ++ (if version = [0x02, 0x00, 0x00, 0x00] then wireJoinsplits js pk sig else [])

/-- A version 3 (Overwinter) transaction. -/
def wireOverwinter (ins outs : List Bytes) (lockTime expiry : Bytes) (js : List Bytes) (pk sig : Bytes) : Bytes :=
  [0x03, 0x00, 0x00, 0x80] ++ [0x70, 0x82, 0xc4, 0x03] ++ vector ins ++ vector outs ++ lockTime ++ expiry ++ wireJoinsplits js pk sig

/-- A version 4 (Sapling) transaction. -/
def wireSapling (ins outs : List Bytes) (lockTime expiry balance : Bytes) (spends outputs js : List Bytes) (pk sig binding : Bytes) :
    Bytes :=
  [0x04, 0x00, 0x00, 0x80] ++ [0x85, 0x20, 0x2f, 0x89] ++ vector ins ++ vector outs ++ lockTime ++ expiry ++ balance
    ++ vector spends ++ vector outputs ++ wireJoinsplits js pk sig ++ (if spends = [] ∧ outputs = [] then [] else binding)

/-! ### signature hashes -/

/-- ASCII "ZcashPrevoutHash". -/
def persPrevouts : Bytes := [0x5a, 0x63, 0x61, 0x73, 0x68, 0x50, 0x72, 0x65, 0x76, 0x6f, 0x75, 0x74, 0x48, 0x61, 0x73, 0x68]
/-- ASCII "ZcashSequencHash". -/
def persSequence : Bytes := [0x5a, 0x63, 0x61, 0x73, 0x68, 0x53, 0x65, 0x71, 0x75, 0x65, 0x6e, 0x63, 0x48, 0x61, 0x73, 0x68]
/-- ASCII "ZcashOutputsHash". -/
def persOutputs : Bytes := [0x5a, 0x63, 0x61, 0x73, 0x68, 0x4f, 0x75, 0x74, 0x70, 0x75, 0x74, 0x73, 0x48, 0x61, 0x73, 0x68]
/-- ASCII "ZcashJSplitsHash". -/
def persJoinsplits : Bytes := [0x5a, 0x63, 0x61, 0x73, 0x68, 0x4a, 0x53, 0x70, 0x6c, 0x69, 0x74, 0x73, 0x48, 0x61, 0x73, 0x68]
/-- ASCII "ZcashSSpendsHash". -/
def persSpends : Bytes := [0x5a, 0x63, 0x61, 0x73, 0x68, 0x53, 0x53, 0x70, 0x65, 0x6e, 0x64, 0x73, 0x48, 0x61, 0x73, 0x68]
/-- ASCII "ZcashSOutputHash". -/
def persShieldedOutputs : Bytes := [0x5a, 0x63, 0x61, 0x73, 0x68, 0x53, 0x4f, 0x75, 0x74, 0x70, 0x75, 0x74, 0x48, 0x61, 0x73, 0x68]
/-- ASCII "ZcashSigHash", then the consensus branch id (little-endian): 0x5ba81b19 for Overwinter, 0x76b809bb for Sapling. -/
def persSigHash (branch : Nat) : Bytes := [0x5a, 0x63, 0x61, 0x73, 0x68, 0x53, 0x69, 0x67, 0x48, 0x61, 0x73, 0x68] ++ leBytes 4 branch
/-- ASCII "ZcashComputehSig". -/
def persHsig : Bytes := [0x5a, 0x63, 0x61, 0x73, 0x68, 0x43, 0x6f, 0x6d, 0x70, 0x75, 0x74, 0x65, 0x68, 0x53, 0x69, 0x67]

/-- The fields of a version 3 or 4 transaction that signatures can cover. -/
structure ZSigTx where
  header : Bytes
  groupId : Bytes
  /-- outpoint and sequence of each input -/
  ins : List (Bytes × Bytes)
  outs : List Bytes
  js : List Bytes
  jsPubkey : Bytes
  /-- each spend description without its signature -/
  spends : List Bytes
  outputs : List Bytes
  lockTime : Bytes
  expiry : Bytes
  balance : Bytes

/-- The input being signed: outpoint, script code, amount, sequence. -/
structure ZInput where
  outpoint : Bytes
  scriptCode : Bytes
  amount : Bytes
  sequence : Bytes

variable (blake : Bytes → Bytes → Bytes)

def zHashPrevouts (t : ZSigTx) (type : Nat) : Bytes :=
  if acpBit type then zeros32 else blake persPrevouts (t.ins.map (·.1)).flatten

def zHashSequence (t : ZSigTx) (type : Nat) : Bytes :=
  if acpBit type || baseType type == 3 || baseType type == 2 then zeros32 else blake persSequence (t.ins.map (·.2)).flatten

def zHashOutputs (t : ZSigTx) (i type : Nat) : Bytes :=
  if baseType type ≠ 3 ∧ baseType type ≠ 2 then blake persOutputs t.outs.flatten
  else if baseType type = 3 then
    match t.outs[i]? with
    | some o => blake persOutputs o
    | none => zeros32
  else zeros32

def zHashJoinsplits (t : ZSigTx) : Bytes :=
  if t.js = [] then zeros32 else blake persJoinsplits (t.js.flatten ++ t.jsPubkey)

def zHashSpends (t : ZSigTx) : Bytes := if t.spends = [] then zeros32 else blake persSpends t.spends.flatten

def zHashShieldedOutputs (t : ZSigTx) : Bytes := if t.outputs = [] then zeros32 else blake persShieldedOutputs t.outputs.flatten

/-- The last part of the preimage: nothing when signing a joinsplit or shielded part. -/
def zInputPart (inp : Option ZInput) : Bytes :=
  match inp with
  | some x => x.outpoint ++ x.scriptCode ++ x.amount ++ x.sequence
  | none => []

/-- The ZIP143 preimage. -/
def zip143 (t : ZSigTx) (i : Nat) (inp : Option ZInput) (type : Nat) : Bytes :=
  t.header ++ t.groupId ++ zHashPrevouts blake t type ++ zHashSequence blake t type ++ zHashOutputs blake t i type
    ++ zHashJoinsplits blake t ++ t.lockTime ++ t.expiry ++ leBytes 4 type ++ zInputPart inp

/-- The ZIP243 preimage. -/
def zip243 (t : ZSigTx) (i : Nat) (inp : Option ZInput) (type : Nat) : Bytes :=
  t.header ++ t.groupId ++ zHashPrevouts blake t type ++ zHashSequence blake t type ++ zHashOutputs blake t i type
    ++ zHashJoinsplits blake t ++ zHashSpends blake t ++ zHashShieldedOutputs blake t
    ++ t.lockTime ++ t.expiry ++ t.balance ++ leBytes 4 type ++ zInputPart inp

/-- Signature hash of a version 3 transaction. -/
def sighash143 (t : ZSigTx) (i : Nat) (inp : Option ZInput) (type : Nat) : Bytes :=
  blake (persSigHash 0x5ba81b19) (zip143 blake t i inp type)

/-- Signature hash of a version 4 transaction. -/
def sighash243 (t : ZSigTx) (i : Nat) (inp : Option ZInput) (type : Nat) : Bytes :=
  blake (persSigHash 0x76b809bb) (zip243 blake t i inp type)

end Verif.Spec
