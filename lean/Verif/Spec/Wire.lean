import Verif.Py

/-! Specification of the Bitcoin wire format of transactions (legacy and BIP144), on plain bytes, independent of the model. -/

namespace Verif.Spec

/-- The `k` bytes of `n`, least significant first. -/
def leBytes (k n : Nat) : Bytes := (List.range k).map fun i => UInt8.ofNat (n / 256 ^ i % 256)

/-- Bitcoin's CompactSize. -/
def compactSize (n : Nat) : Bytes :=
  if n < 253 then leBytes 1 n
  else if n < 2 ^ 16 then 0xfd :: leBytes 2 n
  else if n < 2 ^ 32 then 0xfe :: leBytes 4 n
  else 0xff :: leBytes 8 n

/-- A byte string with its length in front. -/
def varBytes (b : Bytes) : Bytes := compactSize b.length ++ b

/-- A vector: the number of elements, then the elements. -/
def vector (xs : List Bytes) : Bytes := compactSize xs.length ++ xs.flatten

/-- An input: outpoint (id and index), script, sequence. -/
def wireIn (txId index script sequence : Bytes) : Bytes := txId ++ index ++ varBytes script ++ sequence

/-- An output: value and script. -/
def wireOut (value script : Bytes) : Bytes := value ++ varBytes script

/-- The witness of one input. -/
def wireWitness (items : List Bytes) : Bytes := vector (items.map varBytes)

/-- A transaction without witness data. -/
def wireLegacy (version : Bytes) (ins outs : List Bytes) (lockTime : Bytes) : Bytes :=
  version ++ vector ins ++ vector outs ++ lockTime

/-- A transaction in BIP144 format: marker and flag 00 01 after the version, witnesses (if any) before the lock time. -/
def wireSegwit (version : Bytes) (ins outs wits : List Bytes) (lockTime : Bytes) : Bytes :=
  version ++ [0x00, 0x01] ++ vector ins ++ vector outs ++ wits.flatten ++ lockTime

end Verif.Spec
