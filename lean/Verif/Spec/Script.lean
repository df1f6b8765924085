import Verif.Model.Networks

/-! Specification vocabulary for Bitcoin Script, independent of the serializer's code. -/

namespace Verif.Spec

/-- One element of a script: an opcode without data, or a data push. -/
inductive ScriptItem where
  | op (b : UInt8)
  | push (d : Bytes)
  deriving DecidableEq, Repr

/-- The shortest way to push `d` with a push opcode (direct, PUSHDATA1, PUSHDATA2). -/
def minimalPush (d : Bytes) : Bytes :=
  if d.length ≤ 75 then UInt8.ofNat d.length :: d
  else if d.length ≤ 255 then 0x4c :: UInt8.ofNat d.length :: d
  else 0x4d :: UInt8.ofNat (d.length % 256) :: UInt8.ofNat (d.length / 256) :: d

/-- The bytes of an item. -/
def ScriptItem.wire : ScriptItem → Bytes
  | .op b => [b]
  | .push d => minimalPush d

/-- Bytes that are data-free opcodes with a name the library knows: OP_0, OP_1NEGATE .. OP_NOP10 except OP_CODESEPARATOR,
OP_INVALIDOPCODE, and on networks that relocate OP_SHA256 (`extra`) 0xc0. -/
def IsOpByte (extra : Bool) (b : UInt8) : Prop :=
  (b = 0 ∨ (79 ≤ b.toNat ∧ b.toNat ≤ 185) ∨ b = 255 ∨ (extra = true ∧ b = 0xc0)) ∧ b ≠ 0xab

instance (extra : Bool) (b : UInt8) : Decidable (IsOpByte extra b) := by unfold IsOpByte; infer_instance

/-- Items the library can represent. -/
def ScriptItem.Valid (extra : Bool) : ScriptItem → Prop
  | .op b => IsOpByte extra b
  | .push d => 1 ≤ d.length ∧ d.length ≤ 1000

/-- Scripts made of named opcodes and minimal, non-empty pushes of at most 1000 bytes. -/
def MinimalScript (extra : Bool) (b : Bytes) : Prop :=
  ∃ items : List ScriptItem, (∀ i ∈ items, i.Valid extra) ∧ b = items.flatMap ScriptItem.wire

/-- Scripts in which every push opcode is followed by all of its data. -/
inductive PushesComplete : Bytes → Prop where
  | nil : PushesComplete []
  | direct (n : Nat) (d rest : Bytes) : 1 ≤ n → n ≤ 75 → d.length = n → PushesComplete rest →
      PushesComplete (UInt8.ofNat n :: (d ++ rest))
  | pushdata1 (l : UInt8) (d rest : Bytes) : d.length = l.toNat → PushesComplete rest →
      PushesComplete (0x4c :: l :: (d ++ rest))
  | pushdata2 (lo hi : UInt8) (d rest : Bytes) : d.length = lo.toNat + 256 * hi.toNat → PushesComplete rest →
      PushesComplete (0x4d :: lo :: hi :: (d ++ rest))
  | op (b : UInt8) (rest : Bytes) : b = 0 ∨ 79 ≤ b.toNat → PushesComplete rest → PushesComplete (b :: rest)

end Verif.Spec
