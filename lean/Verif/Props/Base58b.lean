import Verif.Props.Base58

/-! # C16 for `encode_with_checksum` -/

namespace Verif.Props
open Verif Spec Base58

/-- C16: `encode_with_checksum` writes the base58 representation of the data followed by its checksum, and no other string; `decode_with_checksum` gives the data back and `has_checksum` is True. -/
theorem C16_with_checksum (E : Env) (hH : E.H.LengthOK) (d : Bytes) :
    (∀ s, encodeWithChecksum E d = .ok s ↔ IsBase58 (d ++ (E.hash256 d).take 4) s) ∧
    ∃ s, encodeWithChecksum E d = .ok s ∧ decodeWithChecksum E s = .ok d ∧ hasChecksum E s = .ok true := by
  obtain ⟨s, h1, h2, h3⟩ := C16_roundtrip E hH d true
  have h1' : encodeWithChecksum E d = .ok s := h1
  have h2' : decodeWithChecksum E s = .ok d := h2
  refine ⟨fun t => ⟨?_, ?_⟩, s, h1', h2', ?_⟩
  · intro h
    rw [h1'] at h
    cases h
    exact h3
  · intro h
    exact C17_canonical E t d true ((C18_accepts_iff E hH t d).2 h)
  · unfold hasChecksum
    rw [h2']

example : (⟨bitcoinMain, toyHashes⟩ : Env).H.LengthOK ∧ encodeWithChecksum ⟨bitcoinMain, toyHashes⟩ [0, 7] ≠ encode ⟨bitcoinMain, toyHashes⟩ [0, 7] false :=
  ⟨toyHashes_ok, by decide +kernel⟩

end Verif.Props
