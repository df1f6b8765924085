import Verif.Lemmas.Ints
import Verif.Model.Shared
import Verif.Spec.CompactSize

namespace Verif
open Spec

/-- canonical VarInt bytes -/
def varintBytes (n : Nat) : Bytes :=
  if n < 253 then natToLE 1 n
  else if n < 65536 then 0xfd :: natToLE 2 n
  else if n < 4294967296 then 0xfe :: natToLE 4 n
  else 0xff :: natToLE 8 n

theorem i2le_pad {n k : Nat} (hk : 0 < k) (h : n < 256 ^ k) :
    ∃ body, i2le (n : Int) = .ok body ∧ 0 < body.length ∧ body.length ≤ k ∧
      body ++ List.replicate (k - body.length) 0 = natToLE k n := by
  rcases Nat.eq_zero_or_pos n with rfl | hn
  · refine ⟨[0], rfl, by simp, by simp; omega, ?_⟩
    rw [natToLE_zero]
    obtain ⟨j, rfl⟩ : ∃ j, k = j + 1 := ⟨k - 1, by omega⟩
    simp [List.replicate_succ]
  · have hb := byteLen_bounds hn
    have hl : (bitLength (n : Int) + 7) / 8 ≤ k := by
      have := (Nat.pow_lt_pow_iff_right (by omega : 1 < 256)).1 (Nat.lt_of_le_of_lt hb.2.1 h)
      omega
    refine ⟨_, i2le_pos hn, by rw [natToLE_length]; omega, by rw [natToLE_length]; exact hl, ?_⟩
    apply leToNat_inj_of_length
    · simp; omega
    · rw [leToNat_append, leToNat_replicate_zero, leToNat_natToLE_of_lt hb.2.2, leToNat_natToLE_of_lt h]; simp

/-- what `VarInt.make` computes for a non-negative number in range, with a length that does not interfere -/
theorem VarInt.make_eq {n : Nat} (h : n < 2 ^ 64) (l : Option Nat) (hl : l = none ∨ l = some 0 ∨ (l = some 3 ∧ 253 ≤ n ∧ n < 65536)) :
    VarInt.make (n : Int) l = .ok ⟨varintBytes n, n⟩ := by
  have h64 : n < 18446744073709551616 := by simpa using h
  unfold VarInt.make varintBytes
  rw [if_neg (by omega), if_neg (by omega)]
  by_cases h1 : n < 253
  · rw [if_pos (by omega : (n : Int) ≤ 0xfc), if_pos h1, i2le_byte (by omega)]
    have hm : n % 256 = n := by omega
    rcases hl with rfl | rfl | ⟨rfl, _, _⟩ <;> simp [natToLE, hm] <;> omega
  rw [if_neg (by omega : ¬ (n : Int) ≤ 0xfc), if_neg h1]
  by_cases h2 : n < 65536
  · rw [if_pos (.inl (by omega)), if_pos h2]
    obtain ⟨body, hb, hp, hle, he⟩ := i2le_pad (n := n) (k := 2) (by omega) (by simpa using h2)
    rw [hb]
    simp [← he]
  rw [if_neg (by rcases hl with rfl | rfl | ⟨rfl, _, _⟩ <;> simp <;> omega), if_neg h2]
  by_cases h3 : n < 4294967296
  · rw [if_pos (.inl (by omega)), if_pos h3]
    obtain ⟨body, hb, hp, hle, he⟩ := i2le_pad (n := n) (k := 4) (by omega) (by simpa using h3)
    rw [hb]
    simp [← he]
  · rw [if_neg (by rcases hl with rfl | rfl | ⟨rfl, _, _⟩ <;> simp <;> omega), if_neg h3]
    obtain ⟨body, hb, hp, hle, he⟩ := i2le_pad (n := n) (k := 8) (by omega) (by simpa using h64)
    rw [hb]
    simp [← he]

theorem VarInt.make_nat {n : Nat} (h : n < 2 ^ 64) : VarInt.make (n : Int) = .ok ⟨varintBytes n, n⟩ :=
  VarInt.make_eq h none (.inl rfl)

theorem VarInt.make_ok_iff {n : Nat} {v : VarInt} :
    VarInt.make (n : Int) = .ok v ↔ n < 2 ^ 64 ∧ v = ⟨varintBytes n, n⟩ := by
  by_cases h : n < 2 ^ 64
  · rw [VarInt.make_nat h]; simp [h, eq_comm]
  · have : VarInt.make (n : Int) = .error .valueError := by
      unfold VarInt.make
      rw [if_neg (by omega), if_pos (by omega)]
    rw [this]; simp [h]

theorem varintBytes_isCompactSize {n : Nat} (h : n < 2 ^ 64) : IsCompactSize n (varintBytes n) := by
  unfold IsCompactSize varintBytes
  by_cases h1 : n < 253
  · rw [if_pos h1]; left
    refine ⟨h1, by simp, ?_⟩
    rw [← leToNat_eq_leValue, leToNat_natToLE_of_lt (by simp; omega)]
  rw [if_neg h1]; right
  by_cases h2 : n < 65536
  · rw [if_pos h2]; left
    refine ⟨by omega, by simpa using h2, _, rfl, by simp, ?_⟩
    rw [← leToNat_eq_leValue, leToNat_natToLE_of_lt (by simpa using h2)]
  rw [if_neg h2]; right
  by_cases h3 : n < 4294967296
  · rw [if_pos h3]; left
    refine ⟨by simpa using h2, by simpa using h3, _, rfl, by simp, ?_⟩
    rw [← leToNat_eq_leValue, leToNat_natToLE_of_lt (by simpa using h3)]
  · rw [if_neg h3]; right
    refine ⟨by simpa using h3, h, _, rfl, by simp, ?_⟩
    rw [← leToNat_eq_leValue, leToNat_natToLE_of_lt (by simpa using h)]

theorem isCompactSize_iff {n : Nat} {b : Bytes} : IsCompactSize n b ↔ n < 2 ^ 64 ∧ b = varintBytes n := by
  constructor
  · intro h
    have key : ∀ {d : Bytes} {k : Nat}, d.length = k → leValue d = n → d = natToLE k n := by
      intro d k h1 h2; subst h1; rw [← h2, ← leToNat_eq_leValue, natToLE_leToNat]
    unfold varintBytes
    rcases h with ⟨h1, h2, h3⟩ | ⟨h1, h2, d, rfl, h3, h4⟩ | ⟨h1, h2, d, rfl, h3, h4⟩ | ⟨h1, h2, d, rfl, h3, h4⟩
    · exact ⟨by omega, by rw [if_pos h1]; exact key h2 h3⟩
    · refine ⟨by omega, ?_⟩
      rw [if_neg (by omega), if_pos (by omega), key h3 h4]
    · refine ⟨by omega, ?_⟩
      rw [if_neg (by omega), if_neg (by omega), if_pos (by omega), key h3 h4]
    · refine ⟨by omega, ?_⟩
      rw [if_neg (by omega), if_neg (by omega), if_neg (by omega), key h3 h4]
  · rintro ⟨h, rfl⟩; exact varintBytes_isCompactSize h

theorem varintBytes_ne_nil (n : Nat) : varintBytes n ≠ [] := by
  unfold varintBytes; split
  · simp [natToLE]
  · split
    · simp
    · split <;> simp

theorem varintBytes_length_pos (n : Nat) : 0 < (varintBytes n).length :=
  List.length_pos_iff.2 (varintBytes_ne_nil n)

/-- parsing a VarInt off the front, excluding only the three values the Zcash rule wrongly rejects -/
theorem VarInt.fromBytes_varintBytes (net : Network) {n : Nat} (h : n < 2 ^ 64) (rest : Bytes)
    (hz : (net.isOverwinter = false ∧ net.isSapling = false) ∨ ¬ (253 ≤ n ∧ n < 256)) :
    VarInt.fromBytes net (varintBytes n ++ rest) = .ok ⟨varintBytes n, n⟩ := by
  have h64 : n < 18446744073709551616 := by simpa using h
  have key : ∀ (num : Bytes) (nc : Bool) (first : UInt8) (tl : Bytes),
      VarInt.split first (first :: tl) = (num, nc) → leToNat num = n →
      (num.length = 1 ∨ num.length = 2 ∨ num.length = 4 ∨ num.length = 8) →
      (nc = true → num.length + 1 = 3 ∧ 253 ≤ n ∧ n < 256) →
      VarInt.fromBytes net (first :: tl) = .ok ⟨varintBytes n, n⟩ := by
    intro num nc first tl hs hv hl hnc
    unfold VarInt.fromBytes
    simp only [hs]
    rw [if_neg (fun hh => hh hl)]
    cases nc with
    | false =>
      rw [if_neg (by simp)]
      simp only [le2i, hv, Bool.false_eq_true, if_false]
      exact VarInt.make_eq h _ (.inr (.inl rfl))
    | true =>
      obtain ⟨h3, h4⟩ := hnc rfl
      rw [if_neg (by
        rcases hz with ⟨a, b⟩ | hz
        · simp [a, b]
        · exact absurd h4 hz)]
      simp only [le2i, hv, if_true, h3]
      exact VarInt.make_eq h _ (.inr (.inr ⟨rfl, by omega, by omega⟩))
  unfold varintBytes
  by_cases h1 : n < 253
  · rw [if_pos h1]
    simp only [natToLE, List.cons_append, List.nil_append]
    have hmod : n % 256 = n := by omega
    have := key [UInt8.ofNat n] false (UInt8.ofNat n) rest (by
      unfold VarInt.split
      rw [if_pos (by simp [UInt8.toNat_ofNat']; omega)]
      simp [slice]) (by simp [leToNat, UInt8.toNat_ofNat', hmod]) (by simp) (by simp)
    rw [hmod]
    simpa [varintBytes, h1, natToLE, hmod] using this
  rw [if_neg h1]
  by_cases h2 : n < 65536
  · rw [if_pos h2]
    have := key (natToLE 2 n) (lastN (natToLE 2 n) 1 == [0x00]) 0xfd (natToLE 2 n ++ rest) (by
      have hs : slice (0xfd :: (natToLE 2 n ++ rest)) 1 3 = natToLE 2 n :=
        slice_mid [0xfd] (natToLE 2 n) rest 1 3 rfl (by simp)
      unfold VarInt.split
      rw [if_neg (by decide), if_pos rfl]
      simp only [hs]) (leToNat_natToLE_of_lt (by simpa using h2)) (by simp) (by
      intro hnc
      refine ⟨by simp, by omega, ?_⟩
      simp [lastN, natToLE] at hnc
      have := congrArg UInt8.toNat hnc
      simp [UInt8.toNat_ofNat'] at this
      omega)
    simpa [varintBytes, h1, h2] using this
  rw [if_neg h2]
  by_cases h3 : n < 4294967296
  · rw [if_pos h3]
    have := key (natToLE 4 n) (lastN (natToLE 4 n) 2 == [0x00, 0x00]) 0xfe (natToLE 4 n ++ rest) (by
      have hs : slice (0xfe :: (natToLE 4 n ++ rest)) 1 5 = natToLE 4 n :=
        slice_mid [0xfe] (natToLE 4 n) rest 1 5 rfl (by simp)
      unfold VarInt.split
      rw [if_neg (by decide), if_neg (by decide), if_pos rfl]
      simp only [hs]) (leToNat_natToLE_of_lt (by simpa using h3)) (by simp) (by
      intro hnc
      exfalso
      simp [lastN, natToLE] at hnc
      have a := congrArg UInt8.toNat hnc.1
      have b := congrArg UInt8.toNat hnc.2
      simp [UInt8.toNat_ofNat'] at a b
      omega)
    simpa [varintBytes, h1, h2, h3] using this
  rw [if_neg h3]
  have := key (natToLE 8 n) (lastN (natToLE 8 n) 4 == [0x00, 0x00, 0x00, 0x00]) 0xff (natToLE 8 n ++ rest) (by
    have hs : slice (0xff :: (natToLE 8 n ++ rest)) 1 9 = natToLE 8 n :=
      slice_mid [0xff] (natToLE 8 n) rest 1 9 rfl (by simp)
    unfold VarInt.split
    rw [if_neg (by decide), if_neg (by decide), if_neg (by decide)]
    simp only [hs]) (leToNat_natToLE_of_lt (by simpa using h)) (by simp) (by
    intro hnc
    exfalso
    simp [lastN, natToLE] at hnc
    have a := congrArg UInt8.toNat hnc.1
    have b := congrArg UInt8.toNat hnc.2.1
    have c := congrArg UInt8.toNat hnc.2.2.1
    have d := congrArg UInt8.toNat hnc.2.2.2
    simp [UInt8.toNat_ofNat'] at a b c d
    omega)
  simpa [varintBytes, h1, h2, h3] using this

theorem VarInt.make_ge253 {n : Nat} (h : n < 2 ^ 64) (h253 : 253 ≤ n) (l : Option Nat)
    (h3 : l = some 3 → n < 65536) (h5 : l = some 5 → n < 4294967296) :
    VarInt.make (n : Int) l = .ok ⟨varintBytes n, n⟩ := by
  have h0 := VarInt.make_nat h
  have e : ∀ l', (l' = some 3 → n < 65536) → (l' = some 5 → n < 4294967296) →
      VarInt.make (n : Int) l' = VarInt.make (n : Int) none := by
    intro l' h3 h5
    unfold VarInt.make
    by_cases a : n < 65536
    · simp [show (n : Int) ≤ 65535 by omega, show ¬ (n : Int) ≤ 252 by omega]
    · have a' : l' ≠ some 3 := fun h => a (h3 h)
      by_cases b : n < 4294967296
      · simp [show ¬ (n : Int) ≤ 65535 by omega, show ¬ (n : Int) ≤ 252 by omega, a',
          show (n : Int) ≤ 4294967295 by omega]
      · have b' : l' ≠ some 5 := fun h => b (h5 h)
        simp [show ¬ (n : Int) ≤ 65535 by omega, show ¬ (n : Int) ≤ 252 by omega, a', b',
          show ¬ (n : Int) ≤ 4294967295 by omega]
  rw [e l h3 h5, h0]

theorem VarInt.make_small {n : Nat} (h : n < 253) (l : Option Nat) (v : VarInt) (hv : VarInt.make (n : Int) l = .ok v) :
    v.number = n ∧ ∃ tl, v.bytes = UInt8.ofNat n :: tl := by
  unfold VarInt.make at hv
  rw [if_neg (by omega), if_neg (by omega), if_pos (by omega), i2le_byte (by omega)] at hv
  cases l with
  | none => simp at hv; subst hv; simp
  | some l => simp at hv; subst hv; simp

theorem varintBytes_head_ge {n : Nat} (h : 253 ≤ n) : ∃ x tl, varintBytes n = x :: tl ∧ 253 ≤ x.toNat := by
  unfold varintBytes
  rw [if_neg (by omega)]
  split
  · exact ⟨_, _, rfl, by decide⟩
  · split
    · exact ⟨_, _, rfl, by decide⟩
    · exact ⟨_, _, rfl, by decide⟩

end Verif
