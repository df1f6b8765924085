import Verif.Props.Workflow

/-! # C09 and C91, exactly: what `VarInt.from_bytes` returns for every byte string, and what the legacy digests sign -/

namespace Verif.Props
open Verif Spec

/-- The last `h` bytes of a field are there and are zero. -/
def ZeroTail (h : Nat) (d : Bytes) : Prop := h ≤ d.length ∧ ∀ x ∈ d.drop (d.length - h), x = 0

instance (h : Nat) (d : Bytes) : Decidable (ZeroTail h d) := by unfold ZeroTail; infer_instance

/-- How many bytes of number a first byte announces. -/
def fieldWidth (first : UInt8) : Nat := if first = 0xfd then 2 else if first = 0xfe then 4 else 8

/-- What `VarInt.from_bytes` makes of a byte string that begins with `first`: its number and its bytes, or nothing. A field that is cut short
counts if 1, 2 or 4 of its bytes are left. Numbers below 253 in a field that ends with zeros are written with zeros after them, others as the
shortest encoding. -/
def readVarInt (strict : Bool) (first : UInt8) (tl : Bytes) : Option (Bytes × Nat) :=
  if first.toNat < 0xfd then some ([first], first.toNat)
  else
    let d := tl.take (fieldWidth first)
    let padded := ZeroTail (fieldWidth first / 2) d
    if ¬ (d.length = 1 ∨ d.length = 2 ∨ d.length = 4 ∨ d.length = 8) ∨ (padded ∧ strict) then none
    else if leValue d < 253 then some (UInt8.ofNat (leValue d) :: List.replicate (if padded then d.length else 0) 0, leValue d)
    else some (compactSize (leValue d), leValue d)

theorem lastN_zero (h : Nat) (d : Bytes) : (lastN d h == List.replicate h 0) = decide (ZeroTail h d) := by
  rw [Bool.eq_iff_iff, beq_iff_eq, decide_eq_true_iff]
  unfold lastN ZeroTail
  constructor
  · intro e
    have hl := congrArg List.length e
    simp only [List.length_drop, List.length_replicate] at hl
    refine ⟨by omega, fun x hx => ?_⟩
    rw [e] at hx
    exact List.eq_of_mem_replicate hx
  · rintro ⟨h1, h2⟩
    rw [List.eq_replicate_iff]
    exact ⟨by simp; omega, h2⟩

theorem make_small_eq {n : Nat} (h : n < 253) (l : Nat) :
    VarInt.make (n : Int) (some l) = .ok ⟨UInt8.ofNat n :: List.replicate (l - 1) 0, n⟩ := by
  unfold VarInt.make
  rw [if_neg (by omega), if_neg (by omega), if_pos (by omega), i2le_byte (by omega)]
  simp

/-- C09, exactly: the object that `VarInt.from_bytes` returns, for every byte string and network. -/
theorem C09_exact (net : Network) (b : Bytes) :
    VarInt.fromBytes net b = match b with
      | [] => .error .indexError
      | first :: tl => match readVarInt (net.isOverwinter || net.isSapling) first tl with
        | none => .error .valueError
        | some (bytes, n) => .ok ⟨bytes, n⟩ := by
  cases b with
  | nil => rfl
  | cons first tl =>
    simp only [VarInt.fromBytes, readVarInt]
    by_cases h1 : first.toNat ≤ 0xfc
    · have hs : VarInt.split first (first :: tl) = ([first], false) := by
        unfold VarInt.split; rw [if_pos h1]; rfl
      rw [hs, if_pos (by omega : first.toNat < 0xfd)]
      have hm := make_small_eq (n := first.toNat) (by omega) 0
      simpa [le2i, leToNat] using hm
    · rw [if_neg (by omega : ¬ first.toNat < 0xfd)]
      have hs : VarInt.split first (first :: tl) = (tl.take (fieldWidth first), decide (ZeroTail (fieldWidth first / 2) (tl.take (fieldWidth first)))) := by
        unfold VarInt.split fieldWidth
        rw [if_neg h1]
        by_cases h2 : first = 0xfd
        · rw [if_pos h2, if_pos h2, ← lastN_zero]; rfl
        · rw [if_neg h2, if_neg h2]
          by_cases h3 : first = 0xfe
          · rw [if_pos h3, if_pos h3, ← lastN_zero]; rfl
          · rw [if_neg h3, if_neg h3, ← lastN_zero]; rfl
      rw [hs]
      generalize hd : tl.take (fieldWidth first) = d
      generalize fieldWidth first / 2 = w
      have hlt := leToNat_lt d
      by_cases c1 : d.length = 1 ∨ d.length = 2 ∨ d.length = 4 ∨ d.length = 8
      · have h64 : leToNat d < 2 ^ 64 := by rcases c1 with h | h | h | h <;> rw [h] at hlt <;> omega
        have m1 := fun l => make_small_eq (n := leToNat d) (l := l)
        have m2 := VarInt.make_ge253 (n := leToNat d) h64
        rw [← leToNat_eq_leValue, compactSize_eq]
        by_cases c4 : ZeroTail w d
        · cases hst : net.isOverwinter || net.isSapling with
          | true =>
            have hst' : net.isOverwinter = true ∨ net.isSapling = true := by simpa using hst
            simp [c1, c4, hst']
          | false =>
            have hst' : net.isOverwinter = false ∧ net.isSapling = false := by simpa using hst
            by_cases c3 : leToNat d < 253
            · simp [c1, c4, hst'.1, hst'.2, c3, le2i, m1 _ c3]
            · simp [c1, c4, hst'.1, hst'.2, c3, le2i]
              exact m2 (by omega) _ (by intro h; simp at h; rw [h] at hlt; omega) (by intro h; simp at h; rw [h] at hlt; omega)
        · by_cases c3 : leToNat d < 253
          · simp [c1, c4, c3, le2i, m1 _ c3]
          · simp [c1, c4, c3, le2i]
            exact m2 (by omega) _ (by simp) (by simp)
      · simp [c1]

example : readVarInt false 0xfe [0x00, 0x01, 0x00, 0x00, 0x51] = some ([0xfd, 0x00, 0x01], 256) ∧
    readVarInt false 0xfd [0x05, 0x00] = some ([0x05, 0x00, 0x00], 5) ∧ readVarInt true 0xfd [0x05, 0x00] = none ∧
    readVarInt true 0xff [0x05] = some ([0x05], 5) ∧ readVarInt false 0xfe [1, 2, 3] = none := by decide

/-! ### C91 -/

/-- C91, exactly: what a legacy transaction signs for every `script` argument, with and without its prefix. The bytes taken for the prefix are
as many as the object has that `VarInt.from_bytes` returns, wherever the number came from; no prefix is compared with the length of the rest. -/
theorem C91_exact (E : Env) (hf : E.net.forkid = none) (t : Tx) (h : t.Built E) (hw : t.flag = none ∧ t.txWitnesses = none)
    (hz : E.net.isOverwinter = false ∧ E.net.isSapling = false)
    (i : Nat) (hi : i < t.txIns.length) (first : UInt8) (tl : Bytes) (value : Option Bytes) (acp : Bool) :
    t.sighashAll E i (first :: tl) value acp = match readVarInt false first tl with
      | none => .error .valueError
      | some (p, _) =>
        if ((first :: tl).drop p.length).length ≤ 1650 then
          .ok (E.hash256 (legacyPreimage t.sig i ((first :: tl).drop p.length) (if acp then 0x81 else 0x01)))
        else .error .valueError := by
  have hw' : t.isWitness = false := by simp [Tx.isWitness, hw.1, hw.2]
  have hc := mapPy_ok (f := fun i : TxIn => i.copy (stackScript := some []) (redeemScript := some [])) (g := fun i => inWith [] i.sequence i)
    (l := t.txIns) (fun x hx => inWith_make ((h.facts.ins x hx).eq).1 (by simp) ((h.facts.ins x hx).eq).2.1)
  have hv := C09_exact E.net (first :: tl)
  simp only [hz.1, hz.2, Bool.or_self] at hv
  cases hr : readVarInt false first tl with
  | none =>
    simp only [hr] at hv ⊢
    unfold Tx.sighashAll Tx.sighashPrep
    rw [hf]
    simp only [hw', Bool.false_eq_true, if_false, hc, ok_bind, hv]
    rfl
  | some r =>
    obtain ⟨p, n⟩ := r
    simp only [hr] at hv ⊢
    generalize first :: tl = script at hv ⊢
    by_cases hs : (script.drop p.length).length ≤ 1650
    · rw [if_pos hs, ← C48_all E hf t h hw i i (.inl rfl) hi (script.drop p.length) hs (.inl hz) value acp]
      have h3 := VarInt.fromBytes_len (net := E.net) (n := (script.drop p.length).length) (by omega) (.inl hz) (script.drop p.length)
      have hp := prep_strip E t i hv h3 (by simp)
      have hp : t.sighashPrep E i script = t.sighashPrep E i (varBytes (script.drop p.length)) := hp
      unfold Tx.sighashAll
      rw [hf]
      simp only [hw', Bool.false_eq_true, if_false, hp]
    · rw [if_neg hs]
      unfold Tx.sighashAll Tx.sighashPrep
      rw [hf]
      simp only [hw', Bool.false_eq_true, if_false, hc, ok_bind, hv]
      rw [getItem_ok (pyIndex_nat (by simpa using hi)), ok_bind, copy_long (by simp [inWith]) hs]
      rfl

/-- C91: when the digest is the one of the script that was meant. With `script` prefixed by the right length: always (`C48_all`). Without a
prefix: never, for the scripts of 1 to 1650 bytes (their digest has another preimage, or there is none). -/
theorem C91_unprefixed_never (E : Env) (hf : E.net.forkid = none) (t : Tx) (h : t.Built E) (hw : t.flag = none ∧ t.txWitnesses = none)
    (hz : E.net.isOverwinter = false ∧ E.net.isSapling = false)
    (i : Nat) (hi : i < t.txIns.length) (script : Bytes) (hs : script.length ≤ 1650) (value : Option Bytes) (acp : Bool) :
    (∃ e, t.sighashAll E i script value acp = .error e) ∨
    ∃ p, t.sighashAll E i script value acp = .ok (E.hash256 p) ∧ p ≠ legacyPreimage t.sig i script (if acp then 0x81 else 0x01) := by
  cases script with
  | nil => exact .inl ⟨_, (C91_partial E hf t h hw hz i hi value acp).1⟩
  | cons first tl =>
    rcases (C91_partial E hf t h hw hz i hi value acp).2 (first :: tl) (by simp) with he | ⟨k, hk, he⟩
    · exact .inl ⟨_, he⟩
    · refine .inr ⟨_, he, legacyPreimage_ne E t h hw i hi (by simp at hs ⊢; omega) hs ?_ acp⟩
      intro e
      have := congrArg List.length e
      simp at this
      omega

example : toyEnv.net.forkid = none ∧ exLegacy.Built toyEnv ∧ exLegacy.flag = none ∧ exLegacy.txWitnesses = none ∧ 1 < exLegacy.txIns.length ∧
    toyEnv.net.isOverwinter = false ∧ toyEnv.net.isSapling = false ∧ readVarInt false 0x76 [0xa9, 0x14] = some ([0x76], 0x76) ∧
    readVarInt false 0xfe [1, 2, 3] = none := ⟨rfl, exLegacy_built, rfl, rfl, by decide, rfl, rfl, by decide, by decide⟩

end Verif.Props
