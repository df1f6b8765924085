import Verif.Props.Bech32

/-! # C23 for all widths -/

namespace Verif.Props
open Verif Bech32

/-- C23 for any widths: regrouping digits of width `f` into digits of width `t` is undone by the strict conversion exactly if the padding is shorter than a digit of width `f`; in particular
always if `t ≤ f`. -/
theorem C23_widths (f t : Nat) (hf : 0 < f) (ht : 0 < t) (d r : List Nat) (h : convertbits d f t = some r) :
    convertbits r t f false = some d ↔ t * r.length < f * d.length + f := by
  obtain ⟨h1, h2, k, hk, hb⟩ := (C23_padded f t ht d r).1 h
  have hl := congrArg List.length hb
  simp only [List.length_append, List.length_replicate, bitsOf_length] at hl
  rw [C23_unpadded t f hf]
  constructor
  · rintro ⟨-, -, k', hk', -, hb'⟩
    rw [hb] at hb'
    have := congrArg List.length hb'
    simp only [List.length_append, List.length_replicate] at this
    have := Nat.mul_comm t r.length
    have := Nat.mul_comm f d.length
    omega
  · intro hlt
    refine ⟨h2, h1, k, ?_, hk, hb⟩
    have := Nat.mul_comm t r.length
    have := Nat.mul_comm f d.length
    omega

/-- From bits to octets and back seven bits are made up; from octets to bits and back nothing is lost. -/
example : convertbits [1] 1 8 = some [128] ∧ convertbits [128] 8 1 false = some [1, 0, 0, 0, 0, 0, 0, 0] ∧ convertbits [5, 7] 8 3 = some [0, 1, 2, 0, 3, 4] ∧
    convertbits [0, 1, 2, 0, 3, 4] 3 8 false = some [5, 7] := by decide +kernel

end Verif.Props
