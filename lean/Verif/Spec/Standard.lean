import Verif.Spec.Script

/-! Specification vocabulary for standardness, independent of networks/standard.py. -/

namespace Verif.Spec

/-- Scripts that only push: complete pushes, OP_0, OP_1NEGATE, OP_RESERVED and OP_1 to OP_16 (Bitcoin's `IsPushOnly`). -/
inductive PushOnly : Bytes → Prop where
  | nil : PushOnly []
  | direct (n : Nat) (d rest : Bytes) : 1 ≤ n → n ≤ 75 → d.length = n → PushOnly rest → PushOnly (UInt8.ofNat n :: (d ++ rest))
  | pushdata1 (l : UInt8) (d rest : Bytes) : d.length = l.toNat → PushOnly rest → PushOnly (0x4c :: l :: (d ++ rest))
  | pushdata2 (lo hi : UInt8) (d rest : Bytes) : d.length = lo.toNat + 256 * hi.toNat → PushOnly rest →
      PushOnly (0x4d :: lo :: hi :: (d ++ rest))
  | op (b : UInt8) (rest : Bytes) : b = 0 ∨ (79 ≤ b.toNat ∧ b.toNat ≤ 96) → PushOnly rest → PushOnly (b :: rest)

/-- OP_m <keys> OP_n OP_CHECKMULTISIG. -/
def multisigScript (m : Nat) (keys : List Bytes) : Bytes :=
  UInt8.ofNat (80 + m) :: (keys.flatMap minimalPush ++ [UInt8.ofNat (80 + keys.length), 0xae])

/-- <key> OP_CHECKSIG. -/
def p2pkScript (key : Bytes) : Bytes := minimalPush key ++ [0xac]

end Verif.Spec
