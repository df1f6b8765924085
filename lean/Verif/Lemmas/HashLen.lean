import Verif.Lemmas.Bytes
import Verif.Model.Utils

/-! Digest lengths. -/

namespace Verif.Blake

@[simp] theorem compress_h_length (V : HashLen) (s : State V) (b : Bytes) : (compress V s b).h.length = 8 := by
  simp [compress]

theorem updateLoop_h_length (V : HashLen) (n : Nat) (s : State V) (d : Bytes) (h : s.h.length = 8) :
    (updateLoop V n s d).1.h.length = 8 := by
  induction n generalizing s d with
  | zero => simpa [updateLoop] using h
  | succ n ih =>
    simp only [updateLoop]
    split
    · exact ih _ _ (by simp)
    · exact h

theorem update_h_length (V : HashLen) (s : State V) (d : Bytes) (h : s.h.length = 8) : (update V s d).h.length = 8 := by
  unfold update
  simp only
  split
  · exact h
  · split <;> split <;> exact updateLoop_h_length V _ _ _ (by first | exact h | simp)

theorem padStep_h_length (V : HashLen) (s : State V) (h : s.h.length = 8) : (padStep V s).h.length = 8 := by
  unfold padStep
  simp only
  split
  · exact update_h_length V _ _ h
  · split
    · split
      · exact update_h_length V _ _ (update_h_length V _ _ h)
      · exact update_h_length V _ _ (update_h_length V _ _ h)
    · exact update_h_length V _ _ (update_h_length V _ _ (update_h_length V _ _ h))

theorem natToBE_length (k n : Nat) : (natToBE k n).length = k := by simp [natToBE]

theorem flatMap_length_const {α : Type} (l : List α) (f : α → Bytes) (k : Nat) (h : ∀ a, (f a).length = k) :
    (l.flatMap f).length = l.length * k := by
  induction l with
  | nil => simp
  | cons a l ih => simp [ih, h, Nat.add_mul]; omega

theorem final_length (V : HashLen) (d : Bytes) : ((final V (init V) d).2).length = V.bits / 8 := by
  have hi : (init V).h.length = 8 := by cases V <;> rfl
  unfold final
  rw [if_neg (by simp [init])]
  simp only [digestBytes, List.length_take]
  rw [flatMap_length_const _ _ V.wordBytes (fun a => natToBE_length _ _), update_h_length]
  · cases V <;> decide
  · apply padStep_h_length
    split
    · exact update_h_length V _ _ hi
    · exact hi

theorem blakeHash_length (d : Bytes) : (blakeHash d).length = 32 := final_length .h256 d

end Verif.Blake

namespace Verif

theorem Env.hash256_length (E : Env) (h : E.H.LengthOK) (m : Bytes) : (E.hash256 m).length = 32 := by
  unfold Env.hash256
  split
  · exact Blake.blakeHash_length _
  · exact h.sha256 _

theorem Env.hash160_length (E : Env) (h : E.H.LengthOK) (m : Bytes) : (E.hash160 m).length = 20 := by
  unfold Env.hash160
  split <;> exact h.rmd160 _

/-- some concrete functions with the right lengths (to show the assumption satisfiable) -/
def toyHashes : Hashes where
  sha256 m := (m ++ List.replicate 32 0).take 32
  rmd160 m := (m ++ List.replicate 20 0).take 20
  blake2b _ m := (m ++ List.replicate 32 0).take 32

theorem toyHashes_ok : toyHashes.LengthOK := by
  constructor <;> intros <;> simp [toyHashes]

end Verif
