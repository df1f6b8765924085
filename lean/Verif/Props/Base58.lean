import Verif.Lemmas.Base58

/-! Properties C16–C18: base58 and base58check. -/

namespace Verif.Props
open Verif Spec Base58

theorem encode_eq (E : Env) (d : Bytes) (ck : Bool) :
    encode E d ck = .ok (enc (if ck then d ++ (E.hash256 d).take 4 else d)) := by
  unfold encode; exact encode_core _

theorem decode_raw_eq (E : Env) (s : PyStr) :
    decode E s false = if ∀ c ∈ s, c ∈ b58Alphabet then .ok (dec s) else .error .valueError := by
  unfold decode
  by_cases h : ∀ c ∈ s, c ∈ b58Alphabet
  · rw [if_pos h]
    have := decode_core s h
    simp only [bind_ok_iff] at this
    obtain ⟨⟨v, p⟩, h1, h2⟩ := this
    simp only at h2
    simp [h1, h2]
  · rw [if_neg h, decode_core_error s h]; rfl

theorem decode_check_eq (E : Env) (s : PyStr) :
    decode E s true = if (∀ c ∈ s, c ∈ b58Alphabet) ∧ (E.hash256 (dropLastN (dec s) 4)).take 4 = lastN (dec s) 4 then
      .ok (dropLastN (dec s) 4) else .error .valueError := by
  unfold decode
  by_cases h : ∀ c ∈ s, c ∈ b58Alphabet
  · have := decode_core s h
    simp only [bind_ok_iff] at this
    obtain ⟨⟨v, p⟩, h1, h2⟩ := this
    simp only at h2
    simp only [h1, h2, ok_bind, if_true]
    by_cases hc : (E.hash256 (dropLastN (dec s) 4)).take 4 = lastN (dec s) 4
    · rw [if_pos hc, if_pos ⟨h, hc⟩]
    · rw [if_neg hc, if_neg (fun h' => hc h'.2)]
  · rw [decode_core_error s h, if_neg (fun h' => h h'.1)]; rfl

theorem dropLast_lastN (b : Bytes) (n : Nat) : dropLastN b n ++ lastN b n = b := by
  unfold dropLastN lastN; exact List.take_append_drop _ _

theorem dropLastN_append (a b : Bytes) (n : Nat) (h : b.length = n) : dropLastN (a ++ b) n = a ∧ lastN (a ++ b) n = b := by
  subst h; simp [dropLastN, lastN]

/-- C16: encode always succeeds, writes the base58 representation of its payload (with the checksum appended when asked), and
decode gives the data back, in both checksum modes. -/
theorem C16_roundtrip (E : Env) (hH : E.H.LengthOK) (d : Bytes) (ck : Bool) :
    ∃ s, encode E d ck = .ok s ∧ decode E s ck = .ok d ∧
      IsBase58 (if ck then d ++ (E.hash256 d).take 4 else d) s := by
  refine ⟨_, encode_eq E d ck, ?_, (isBase58_iff _ _).2 ⟨enc_alphabet _, dec_enc _⟩⟩
  cases ck with
  | false =>
    rw [decode_raw_eq, if_pos (enc_alphabet _), dec_enc]; rfl
  | true =>
    have h4 : ((E.hash256 d).take 4).length = 4 := by simp [E.hash256_length hH]
    obtain ⟨ha, hb⟩ := dropLastN_append d ((E.hash256 d).take 4) 4 h4
    rw [decode_check_eq, if_pos, dec_enc] <;> simp only [if_true]
    · rw [ha]
    · refine ⟨enc_alphabet _, ?_⟩
      rw [dec_enc, ha, hb]

/-- C17: a string that decodes is the encoding of the result, in both checksum modes. -/
theorem C17_canonical (E : Env) (s : PyStr) (d : Bytes) (ck : Bool) (h : decode E s ck = .ok d) : encode E d ck = .ok s := by
  rw [encode_eq]
  cases ck with
  | false =>
    rw [decode_raw_eq] at h
    split at h
    · rename_i ha; cases h; simp [enc_dec s ha]
    · cases h
  | true =>
    rw [decode_check_eq] at h
    split at h
    · rename_i ha
      cases h
      simp only [if_true, ha.2, dropLast_lastN, enc_dec s ha.1]
    · cases h

/-- C17: no two strings decode to the same bytes. -/
theorem C17_injective (E : Env) (s s' : PyStr) (d : Bytes) (ck : Bool) (h : decode E s ck = .ok d) (h' : decode E s' ck = .ok d) :
    s = s' := by
  have h1 := C17_canonical E s d ck h
  rw [C17_canonical E s' d ck h'] at h1
  cases h1; rfl

/-- C18: what decode with checksum accepts, and that it raises only ValueError. -/
theorem C18_accepts_iff (E : Env) (hH : E.H.LengthOK) (s : PyStr) (d : Bytes) :
    decodeWithChecksum E s = .ok d ↔ IsBase58 (d ++ (E.hash256 d).take 4) s := by
  constructor
  · intro h
    have h1 := C17_canonical E s d true h
    rw [encode_eq] at h1
    cases h1
    exact (isBase58_iff _ _).2 ⟨enc_alphabet _, dec_enc _⟩
  · intro h
    rw [isBase58_iff] at h
    have h4 : ((E.hash256 d).take 4).length = 4 := by simp [E.hash256_length hH]
    obtain ⟨ha, hb⟩ := dropLastN_append d ((E.hash256 d).take 4) 4 h4
    unfold decodeWithChecksum
    rw [decode_check_eq, h.2, ha, hb, if_pos ⟨h.1, rfl⟩]

/-- C18: the only exception is ValueError. -/
theorem C18_only_valueError (E : Env) (s : PyStr) (ck : Bool) (e : PyErr) (h : decode E s ck = .error e) : e = .valueError := by
  cases ck with
  | false => rw [decode_raw_eq] at h; split at h <;> cases h; rfl
  | true => rw [decode_check_eq] at h; split at h <;> cases h; rfl

/-- C18: has_checksum never raises and decides the condition. -/
theorem C18_has_checksum (E : Env) (hH : E.H.LengthOK) (s : PyStr) :
    ∃ r, hasChecksum E s = .ok r ∧ (r = true ↔ ∃ d, IsBase58 (d ++ (E.hash256 d).take 4) s) := by
  unfold hasChecksum
  cases h : decodeWithChecksum E s with
  | ok d => exact ⟨true, rfl, by simp; exact ⟨d, (C18_accepts_iff E hH s d).1 h⟩⟩
  | error e =>
    have := C18_only_valueError E s true e h
    subst this
    refine ⟨false, rfl, ?_⟩
    simp only [Bool.false_eq_true, false_iff, not_exists]
    intro d hd
    rw [(C18_accepts_iff E hH s d).2 hd] at h; cases h

/-- hypotheses are satisfiable: "11" is the base58 form of two zero bytes, "2g" of 0x61 -/
example : IsBase58 [0, 0] (pystr "11") ∧ IsBase58 [0x61] (pystr "2g") :=
  ⟨⟨by decide +kernel, by decide, by decide +kernel⟩, ⟨by decide +kernel, by decide, by decide +kernel⟩⟩
example : (⟨bitcoinMain, toyHashes⟩ : Env).H.LengthOK := toyHashes_ok
example : decode ⟨bitcoinMain, toyHashes⟩ (pystr "2g") false = .ok [0x61] := by decide +kernel

end Verif.Props
