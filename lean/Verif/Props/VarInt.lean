import Verif.Lemmas.VarInt

/-! Properties C06–C09: `VarInt` of `tx/shared.py`. -/

namespace Verif.Props
open Verif Spec

/-! ## C06 -/

/-- C06: `VarInt(n)` is exactly the CompactSize encoding of `n`, with `number = n`; it exists iff `0 ≤ n < 2^64`. -/
theorem C06_varint_is_compactsize (n : Int) (v : VarInt) :
    VarInt.make n = .ok v ↔ 0 ≤ n ∧ (v.number : Int) = n ∧ IsCompactSize v.number v.bytes := by
  rcases Int.lt_or_le n 0 with hn | hn
  · have : VarInt.make n = .error .valueError := by unfold VarInt.make; rw [if_pos hn]
    rw [this]; simp; omega
  · obtain ⟨m, rfl⟩ := Int.eq_ofNat_of_zero_le hn
    rw [VarInt.make_ok_iff, isCompactSize_iff]
    obtain ⟨b, k⟩ := v
    simp only [VarInt.mk.injEq]
    constructor
    · rintro ⟨h, rfl, rfl⟩; exact ⟨hn, rfl, h, rfl⟩
    · rintro ⟨-, h1, h2, h3⟩
      have : k = m := by exact_mod_cast h1
      subst this; exact ⟨h2, h3, rfl⟩

/-- C06: every number of the range has a VarInt, and every other integer raises ValueError. -/
theorem C06_varint_range (n : Int) :
    ((∃ v, VarInt.make n = .ok v) ↔ 0 ≤ n ∧ n < 2 ^ 64) ∧
    (¬ (0 ≤ n ∧ n < 2 ^ 64) → VarInt.make n = .error .valueError) := by
  rcases Int.lt_or_le n 0 with hn | hn
  · have : VarInt.make n = .error .valueError := by unfold VarInt.make; rw [if_pos hn]
    rw [this]; simp; omega
  · obtain ⟨m, rfl⟩ := Int.eq_ofNat_of_zero_le hn
    by_cases h : m < 2 ^ 64
    · rw [VarInt.make_nat h]; simp; omega
    · have : VarInt.make (m : Int) = .error .valueError := by
        unfold VarInt.make
        rw [if_neg (by omega), if_pos (by omega)]
      rw [this]; simp; omega

/-- C06: CompactSize encodings are prefix-free: if the bytes of one VarInt start another's, they are the same. -/
theorem C06_prefix_free (m n : Int) (v w : VarInt) (hv : VarInt.make m = .ok v) (hw : VarInt.make n = .ok w)
    (hp : v.bytes <+: w.bytes) : v = w := by
  obtain ⟨hm, -⟩ := (C06_varint_is_compactsize m v).1 hv
  obtain ⟨hn, -⟩ := (C06_varint_is_compactsize n w).1 hw
  obtain ⟨a, rfl⟩ := Int.eq_ofNat_of_zero_le hm
  obtain ⟨b, rfl⟩ := Int.eq_ofNat_of_zero_le hn
  obtain ⟨ha, rfl⟩ := VarInt.make_ok_iff.1 hv
  obtain ⟨hb, rfl⟩ := VarInt.make_ok_iff.1 hw
  obtain ⟨rest, hr⟩ := hp
  have h1 := VarInt.fromBytes_varintBytes bitcoinMain ha rest (.inl (by decide))
  have h2 := VarInt.fromBytes_varintBytes bitcoinMain hb [] (.inl (by decide))
  simp only [List.append_nil] at h2
  simp only at hr
  rw [hr] at h1
  rw [h1] at h2
  simpa using h2

example : VarInt.make 0x1234 = .ok ⟨[0xfd, 0x34, 0x12], 0x1234⟩ := by decide
example : VarInt.make (2 ^ 64) = .error .valueError ∧ VarInt.make (-1) = .error .valueError := by decide

/-! ## C07 -/

/-- C07: outside Overwinter/Sapling, `from_bytes` reads back every VarInt whatever follows it. -/
theorem C07_from_bytes_roundtrip (net : Network) (hnet : net.isOverwinter = false ∧ net.isSapling = false)
    (n : Int) (v : VarInt) (hv : VarInt.make n = .ok v) (rest : Bytes) :
    VarInt.fromBytes net (v.bytes ++ rest) = .ok v := by
  obtain ⟨hn, -⟩ := (C06_varint_is_compactsize n v).1 hv
  obtain ⟨a, rfl⟩ := Int.eq_ofNat_of_zero_le hn
  obtain ⟨ha, rfl⟩ := VarInt.make_ok_iff.1 hv
  exact VarInt.fromBytes_varintBytes net ha rest (.inl hnet)

/-- Non-vacuity: 66 of the 72 supported networks meet the hypothesis of C07. -/
example : (supported.filter fun p => !p.2.isOverwinter && !p.2.isSapling).length = 66 := by decide

/-! ## C08 -/

/-- C08 (partial): on Overwinter/Sapling a compact VarInt is read back iff it is not one of 253, 254, 255, which
are rejected with ValueError. The full statement ("accepts every compact VarInt") is false. -/
theorem C08_compact_accepted_partial (net : Network) (hnet : net.isOverwinter = true ∨ net.isSapling = true)
    (n : Nat) (c rest : Bytes) (hc : IsCompactSize n c) :
    (¬ (253 ≤ n ∧ n ≤ 255) → VarInt.fromBytes net (c ++ rest) = .ok ⟨c, n⟩) ∧
    (253 ≤ n ∧ n ≤ 255 → VarInt.fromBytes net (c ++ rest) = .error .valueError) := by
  obtain ⟨h64, rfl⟩ := isCompactSize_iff.1 hc
  constructor
  · intro h; exact VarInt.fromBytes_varintBytes net h64 rest (.inr (by omega))
  · intro h
    have : n = 253 ∨ n = 254 ∨ n = 255 := by omega
    rcases this with rfl | rfl | rfl <;>
    · unfold varintBytes VarInt.fromBytes
      have hnet' : (net.isOverwinter = true ∨ net.isSapling = true) := hnet
      simp [natToLE, VarInt.split, slice, lastN, hnet']

/-- C08: on Overwinter/Sapling every complete but non-compact encoding is rejected with ValueError. -/
theorem C08_non_compact_rejected (net : Network) (hnet : net.isOverwinter = true ∨ net.isSapling = true)
    (n : Nat) (frame rest : Bytes) (hf : CompactSizeFrame n frame) (hc : ¬ IsCompactSize n frame) :
    VarInt.fromBytes net (frame ++ rest) = .error .valueError := by
  rcases hf with h | ⟨d, rfl, hl, hv⟩ | ⟨d, rfl, hl, hv⟩ | ⟨d, rfl, hl, hv⟩
  · exact absurd (.inl h) hc
  · have hn : n < 253 := Nat.lt_of_not_le fun h => hc (.inr (.inl ⟨h, by
      have := leToNat_lt d; rw [hl, leToNat_eq_leValue, hv] at this; simpa using this, d, rfl, hl, hv⟩))
    match d, hl with
    | [x, y], _ =>
      rw [← leToNat_eq_leValue] at hv
      simp [leToNat] at hv
      have hy : y = 0 := by
        apply UInt8.toNat_inj.1
        have := y.toNat_lt
        simp; omega
      subst hy
      simp [VarInt.fromBytes, VarInt.split, slice, lastN, hnet]
  · have hn : n < 65536 := Nat.lt_of_not_le fun h => hc (.inr (.inr (.inl ⟨by simpa using h, by
      have := leToNat_lt d; rw [hl, leToNat_eq_leValue, hv] at this; simpa using this, d, rfl, hl, hv⟩)))
    match d, hl with
    | [x, y, z, w], _ =>
      rw [← leToNat_eq_leValue] at hv
      simp [leToNat] at hv
      have hz : z = 0 := by
        apply UInt8.toNat_inj.1
        simp; omega
      have hw : w = 0 := by
        apply UInt8.toNat_inj.1
        simp; omega
      subst hz; subst hw
      simp [VarInt.fromBytes, VarInt.split, slice, lastN, hnet]
  · have hn : n < 4294967296 := Nat.lt_of_not_le fun h => hc (.inr (.inr (.inr ⟨by simpa using h, by
      have := leToNat_lt d; rw [hl, leToNat_eq_leValue, hv] at this; simpa using this, d, rfl, hl, hv⟩)))
    match d, hl with
    | [a, b, c, e, x, y, z, w], _ =>
      rw [← leToNat_eq_leValue] at hv
      simp [leToNat] at hv
      have hx : x = 0 := by
        apply UInt8.toNat_inj.1
        simp; omega
      have hy : y = 0 := by
        apply UInt8.toNat_inj.1
        simp; omega
      have hz : z = 0 := by
        apply UInt8.toNat_inj.1
        simp; omega
      have hw : w = 0 := by
        apply UInt8.toNat_inj.1
        simp; omega
      subst hx; subst hy; subst hz; subst hw
      simp [VarInt.fromBytes, VarInt.split, slice, lastN, hnet]

/-- C08: the first half of the property is false: the compact encoding of 253 is rejected on every Zcash
Overwinter/Sapling network (and these exist). -/
theorem C08_false : IsCompactSize 253 [0xfd, 0xfd, 0x00] ∧
    VarInt.fromBytes zcashSaplingMain [0xfd, 0xfd, 0x00] = .error .valueError := by
  refine ⟨?_, by decide⟩
  exact varintBytes_isCompactSize (n := 253) (by decide)

example : CompactSizeFrame 5 [0xfd, 5, 0] ∧ ¬ IsCompactSize 5 [0xfd, 5, 0] ∧ zcashSaplingMain.isSapling = true := by
  refine ⟨.inr (.inl ⟨[5, 0], rfl, rfl, by decide⟩), ?_, by decide⟩
  rw [isCompactSize_iff]; decide

/-! ## C09 -/

/-- C09 (partial): a successfully parsed VarInt is a prefix of its input exactly when the input starts with a compact
(canonical, complete) encoding. The full statement (always a prefix) is false. -/
theorem C09_prefix_partial (net : Network) (b : Bytes) (v : VarInt) (hv : VarInt.fromBytes net b = .ok v) :
    v.bytes <+: b ↔ ∃ n c, IsCompactSize n c ∧ c <+: b := by
  cases b with
  | nil => simp [VarInt.fromBytes] at hv
  | cons first tl =>
  constructor
  · intro hp
    unfold VarInt.fromBytes at hv
    simp only at hv
    generalize hs : VarInt.split first (first :: tl) = s at hv
    obtain ⟨num, nc⟩ := s
    simp only at hv
    split at hv
    · cases hv
    rename_i hlen
    split at hv
    · cases hv
    have hlt := leToNat_lt num
    have h8 : num.length ≤ 8 := by omega
    have h64 : leToNat num < 2 ^ 64 :=
      Nat.lt_of_lt_of_le hlt (by
        have : 256 ^ num.length ≤ 256 ^ 8 := Nat.pow_le_pow_right (by omega) h8
        simpa using this)
    simp only [le2i] at hv
    by_cases h253 : leToNat num < 253
    · -- a small number: the object starts with the number itself, so the input is a one-byte encoding
      obtain ⟨hnum, t, ht⟩ := VarInt.make_small h253 _ v hv
      refine ⟨leToNat num, [first], .inl ⟨h253, rfl, ?_⟩, ⟨tl, rfl⟩⟩
      rw [ht] at hp
      obtain ⟨r, hr⟩ := hp
      simp only [List.cons_append, List.cons.injEq] at hr
      rw [← leToNat_eq_leValue, ← hr.1]
      simp [leToNat, UInt8.toNat_ofNat']; omega
    · -- otherwise the object is the canonical encoding
      have hm := VarInt.make_ge253 h64 (by omega) (some (if nc = true then num.length + 1 else 0)) (by
        intro h
        have : num.length = 2 := by cases nc <;> simp at h; omega
        rw [this] at hlt; simpa using hlt) (by
        intro h
        have : num.length = 4 := by cases nc <;> simp at h; omega
        rw [this] at hlt; simpa using hlt)
      rw [hm] at hv
      cases hv
      exact ⟨_, _, varintBytes_isCompactSize h64, hp⟩
  · rintro ⟨n, c, hc, rest, hr⟩
    obtain ⟨h64, rfl⟩ := isCompactSize_iff.1 hc
    rw [← hr] at hv ⊢
    by_cases hz : (net.isOverwinter = false ∧ net.isSapling = false) ∨ ¬ (253 ≤ n ∧ n < 256)
    · rw [VarInt.fromBytes_varintBytes net h64 rest hz] at hv
      cases hv; exact ⟨rest, rfl⟩
    · have h1 : net.isOverwinter = true ∨ net.isSapling = true := by
        cases ho : net.isOverwinter <;> cases hsap : net.isSapling <;> simp [ho, hsap] at hz ⊢
      have h2 : 253 ≤ n ∧ n ≤ 255 := by
        by_cases h : 253 ≤ n ∧ n < 256
        · omega
        · exact absurd (.inr h) hz
      rw [(C08_compact_accepted_partial net h1 n _ rest hc).2 h2] at hv
      cases hv

/-- C09: on Overwinter/Sapling a complete encoding that parses is a prefix of the input. -/
theorem C09_zcash (net : Network) (hnet : net.isOverwinter = true ∨ net.isSapling = true) (n : Nat)
    (frame rest : Bytes) (hf : CompactSizeFrame n frame) (v : VarInt)
    (hv : VarInt.fromBytes net (frame ++ rest) = .ok v) : v.bytes <+: frame ++ rest := by
  rw [C09_prefix_partial net _ v hv]
  by_cases hc : IsCompactSize n frame
  · exact ⟨n, frame, hc, ⟨rest, rfl⟩⟩
  · rw [C08_non_compact_rejected net hnet n frame rest hf hc] at hv; cases hv

/-- C09: the full statement is false. A complete but non-compact 5-byte encoding parses to a 3-byte object (so a caller
advances 3 bytes), and a 3-byte one to different bytes; a truncated input is accepted too. -/
theorem C09_false :
    VarInt.fromBytes bitcoinMain [0xfe, 0x00, 0x01, 0x00, 0x00] = .ok ⟨[0xfd, 0x00, 0x01], 256⟩ ∧
    VarInt.fromBytes bitcoinMain [0xfd, 0x01, 0x00] = .ok ⟨[0x01, 0x00, 0x00], 1⟩ ∧
    VarInt.fromBytes zcashSaplingMain [0xfd, 0x05] = .ok ⟨[0x05], 5⟩ := by decide

end Verif.Props
