import Verif.Model.Builder
import Verif.Lemmas.Overwinter
import Verif.Lemmas.Sapling
import Verif.Lemmas.Decred
import Verif.Props.Ints
import Verif.Props.Script
import Verif.Spec.Address

/-! Lemmas about the builders. -/

namespace Verif

open Spec Props

theorem i2lePadded_eq (n : Int) (k : Nat) :
    i2lePadded n k = if 0 ≤ n ∧ n < (256 ^ k : Nat) then .ok (natToLE k n.toNat) else .error .overflowError := rfl

theorem i2le_iff {n : Int} {k : Nat} {b : Bytes} : i2lePadded n k = .ok b ↔ b.length = k ∧ (leValue b : Int) = n :=
  C01_i2le_padded_spec n k b

theorem i2le_ok {n : Int} {k : Nat} (h : 0 ≤ n ∧ n < (256 ^ k : Nat)) : ∃ b, i2lePadded n k = .ok b ∧ b.length = k ∧ (leValue b : Int) = n := by
  obtain ⟨b, hb⟩ := ((C01_i2le_padded_range n k).1).2 h
  exact ⟨b, hb, i2le_iff.1 hb⟩

theorem i2le_error {n : Int} {k : Nat} (h : ¬ (0 ≤ n ∧ n < (256 ^ k : Nat))) : i2lePadded n k = .error .overflowError :=
  (C01_i2le_padded_range n k).2 h

theorem i2le_zero8 : i2lePadded 0 8 = .ok (List.replicate 8 0) := by decide

/-- names used by the output templates, on every network -/
theorem opName_template {net : Network} (hs : net.Supported) :
    opName net 0x00 = .ok (pystr "OP_0") ∧ opName net 0x6a = .ok (pystr "OP_RETURN") ∧ opName net 0x76 = .ok (pystr "OP_DUP") ∧
    opName net 0xa9 = .ok (pystr "OP_HASH160") ∧ opName net 0x88 = .ok (pystr "OP_EQUALVERIFY") ∧
    opName net 0xac = .ok (pystr "OP_CHECKSIG") ∧ opName net 0x87 = .ok (pystr "OP_EQUAL") ∧
    opName net 0xae = .ok (pystr "OP_CHECKMULTISIG") ∧
    opName net 0x51 = .ok (pystr "OP_1") ∧ opName net 0x52 = .ok (pystr "OP_2") ∧ opName net 0x53 = .ok (pystr "OP_3") := by
  rcases changes_cases net hs with ⟨h, -⟩ | ⟨h, -⟩
  · simp only [opName_congr (m := bitcoinMain) h]; decide +kernel
  · simp only [opName_congr (m := decredMain) h]; decide +kernel

theorem push20 {h : Bytes} (hl : h.length = 20) : 0x14 :: h = minimalPush h := by
  unfold minimalPush; rw [if_pos (by omega), hl]; rfl
theorem push32 {h : Bytes} (hl : h.length = 32) : 0x20 :: h = minimalPush h := by
  unfold minimalPush; rw [if_pos (by omega), hl]; rfl

theorem tokens_opReturn {net : Network} (hs : net.Supported) {d : Bytes} (hd : 1 ≤ d.length) (hd' : d.length ≤ 1000) :
    deserializeTokens net (0x6a :: minimalPush d) = .ok [pystr "OP_RETURN", toHex d] := by
  obtain ⟨-, h6a, -⟩ := opName_template hs
  rw [deserializeTokens_op net 0x6a _ false (by decide), h6a, ← List.append_nil (minimalPush d), deserializeTokens_push net d [] hd hd']
  rfl

theorem tokens_opReturn_empty {net : Network} (hs : net.Supported) :
    deserializeTokens net [0x6a, 0x00] = .ok [pystr "OP_RETURN", pystr "OP_0"] := by
  obtain ⟨h0, h6a, -⟩ := opName_template hs
  rw [deserializeTokens_op net 0x6a _ false (by decide), h6a, deserializeTokens_op net 0 _ false (by decide), h0]
  rfl

theorem tokens_p2pkh {net : Network} (hs : net.Supported) {h : Bytes} (hl : h.length = 20) :
    deserializeTokens net (p2pkhScript h) =
      .ok [pystr "OP_DUP", pystr "OP_HASH160", toHex h, pystr "OP_EQUALVERIFY", pystr "OP_CHECKSIG"] := by
  obtain ⟨-, -, h76, ha9, h88, hac, -⟩ := opName_template hs
  rw [show p2pkhScript h = 0x76 :: 0xa9 :: ((0x14 :: h) ++ [0x88, 0xac]) from by simp [p2pkhScript], push20 hl]
  rw [deserializeTokens_op net 0x76 _ false (by decide), h76, deserializeTokens_op net 0xa9 _ false (by decide), ha9,
    deserializeTokens_push net h _ (by omega) (by omega), deserializeTokens_op net 0x88 _ false (by decide), h88,
    deserializeTokens_op net 0xac _ false (by decide), hac]
  rfl

theorem tokens_p2sh {net : Network} (hs : net.Supported) {h : Bytes} (hl : h.length = 20) :
    deserializeTokens net (p2shScript h) = .ok [pystr "OP_HASH160", toHex h, pystr "OP_EQUAL"] := by
  obtain ⟨-, -, -, ha9, -, -, h87, -⟩ := opName_template hs
  rw [show p2shScript h = 0xa9 :: ((0x14 :: h) ++ [0x87]) from by simp [p2shScript], push20 hl]
  rw [deserializeTokens_op net 0xa9 _ false (by decide), ha9,
    deserializeTokens_push net h _ (by omega) (by omega), deserializeTokens_op net 0x87 _ false (by decide), h87]
  rfl

theorem tokens_p2wpkh {net : Network} (hs : net.Supported) {h : Bytes} (hl : h.length = 20) :
    deserializeTokens net (p2wpkhScript h) = .ok [pystr "OP_0", toHex h] := by
  obtain ⟨h0, -⟩ := opName_template hs
  rw [show p2wpkhScript h = 0x00 :: ((0x14 :: h) ++ []) from by simp [p2wpkhScript], push20 hl]
  rw [deserializeTokens_op net 0 _ false (by decide), h0, deserializeTokens_push net h _ (by omega) (by omega)]
  rfl

theorem tokens_p2wsh {net : Network} (hs : net.Supported) {h : Bytes} (hl : h.length = 32) :
    deserializeTokens net (p2wshScript h) = .ok [pystr "OP_0", toHex h] := by
  obtain ⟨h0, -⟩ := opName_template hs
  rw [show p2wshScript h = 0x00 :: ((0x20 :: h) ++ []) from by simp [p2wshScript], push32 hl]
  rw [deserializeTokens_op net 0 _ false (by decide), h0, deserializeTokens_push net h _ (by omega) (by omega)]
  rfl

theorem deserialize_of_tokens {net : Network} {b : Bytes} {ts : List PyStr} (h : deserializeTokens net b = .ok ts) :
    deserialize net b = .ok (joinSpace ts) := by unfold deserialize; rw [h]; rfl

theorem family {net : Network} (hs : net.Supported) :
    (net.isDecred = true → net.isSprout = false ∧ net.isOverwinter = false ∧ net.isSapling = false) ∧
    (net.isSprout = true → net.isOverwinter = false ∧ net.isSapling = false) ∧ (net.isOverwinter = true → net.isSapling = false) ∧
    (net.isZcash = false → net.isSprout = false ∧ net.isOverwinter = false ∧ net.isSapling = false) ∧
    net.segwitTxFlag = [0x00, 0x01] := by
  revert net
  unfold Network.Supported
  decide +kernel

end Verif
