import Verif.Lemmas.Blake2

/-! C65, C66: the BLAKE hash functions. -/

namespace Verif.Props

open Verif Verif.Blake

/-! ### C65 -/

/-- Updating with any chunks and then asking for the digest (with any last piece) gives the digest of the whole message. -/
theorem C65_chunks (V : HashLen) (chunks : List Bytes) (last : Bytes) :
    (final V (chunks.foldl (update V) (init V)) last).2 = (final V (init V) (chunks.flatten ++ last)).2 := by
  have h1 := ((Absorbed.init V).foldl chunks).digest last (rd (init V).salt) (fun _ _ => rfl)
  have h2 := (Absorbed.init V).digest (chunks.flatten ++ last) (rd (init V).salt) (fun _ _ => rfl)
  rw [h1, h2]
  simp

example : ([[1, 2], [], List.replicate 100 7] : List Bytes).flatten ++ [9] = [1, 2] ++ List.replicate 100 7 ++ [9] := by decide

/-- The same for `blake_hash`. -/
theorem C65_blake_hash (chunks : List Bytes) : (final .h256 (chunks.foldl (update .h256) (init .h256)) []).2 = blakeHash chunks.flatten := by
  have := C65_chunks .h256 chunks []
  rw [List.append_nil] at this
  exact this

/-- The same with a salt. -/
theorem C65_chunks_salted (V : HashLen) (salt : Bytes) (s : State V) (h : addsalt V (init V) salt = .ok s) (chunks : List Bytes)
    (last : Bytes) : (final V (chunks.foldl (update V) s) last).2 = (final V s (chunks.flatten ++ last)).2 := by
  have h0 : Absorbed V s.salt (init V).h [] s := by
    unfold addsalt at h
    rw [if_neg (by simp [init])] at h
    split at h
    · cases h
    · cases h
      constructor <;> simp [init, chainN]
  rw [(h0.foldl chunks).digest last (rd s.salt) (fun _ _ => rfl), h0.digest (chunks.flatten ++ last) (rd s.salt) (fun _ _ => rfl)]
  simp

example : (addsalt .h256 (init .h256) (List.replicate 16 5)).toOption.isSome = true := by decide

/-- Asking again for the digest returns the same digest, whatever data is passed. -/
theorem C65_idempotent (V : HashLen) (s : State V) (d d' : Bytes) : final V (final V s d).1 d' = final V s d := by
  unfold final
  by_cases h : s.state = 3
  · rw [if_pos h, if_pos h]
  · rw [if_neg h, if_pos rfl]

/-- A salt cannot be added once data has been hashed or the digest taken. -/
theorem C65_late_salt (V : HashLen) (s : State V) (d salt : Bytes) :
    addsalt V (update V s d) salt = .error .exception ∧ addsalt V (final V s d).1 salt = .error .exception := by
  have hloop : ∀ (n : Nat) (s : State V) (x : Bytes), (updateLoop V n s x).1.state = s.state := by
    intro n
    induction n with
    | zero => intros; rfl
    | succ n ih =>
      intro s x
      unfold updateLoop
      split
      · rw [ih]; rfl
      · rfl
  have hu : (update V s d).state = 2 := by
    unfold update
    simp only
    split
    · rfl
    · split <;> split <;> (simp only; rw [hloop]; try rfl)
  have hf : (final V s d).1.state = 3 := by
    unfold final
    split
    · assumption
    · rfl
  unfold addsalt
  rw [if_pos (by rw [hu]; decide), if_pos (by rw [hf]; decide)]
  exact ⟨rfl, rfl⟩

/-! ### C66 -/

/-- `blake_hash` is BLAKE-256 of the specification. -/
theorem C66_blake256 (m : Bytes) : blakeHash m = Spec.Blake.hash Spec.Blake.p256 m :=
  (Absorbed.init .h256).digest m (fun _ => 0) (by decide)

/-- The other three members of the family. -/
theorem C66_blake224 (m : Bytes) : (final .h224 (init .h224) m).2 = Spec.Blake.hash Spec.Blake.p224 m :=
  (Absorbed.init .h224).digest m (fun _ => 0) (by decide)

theorem C66_blake384 (m : Bytes) : (final .h384 (init .h384) m).2 = Spec.Blake.hash Spec.Blake.p384 m :=
  (Absorbed.init .h384).digest m (fun _ => 0) (by decide)

theorem C66_blake512 (m : Bytes) : (final .h512 (init .h512) m).2 = Spec.Blake.hash Spec.Blake.p512 m :=
  (Absorbed.init .h512).digest m (fun _ => 0) (by decide)

/-- With a salt of four words given to `addsalt` (longer salts: their last bytes), BLAKE-256 with that salt. -/
theorem C66_salted (pre salt m : Bytes) (hs : salt.length = 16) : ∃ s, addsalt .h256 (init .h256) (pre ++ salt) = .ok s ∧
    (final .h256 s m).2 =
      Spec.Blake.hashSalted Spec.Blake.p256 (fun i => BitVec.ofNat 32 (Spec.Blake.beValue ((salt.drop (4 * i)).take 4))) m := by
  unfold addsalt
  rw [if_neg (by simp [init]), if_neg (by simp [hs, HashLen.wordBytes])]
  refine ⟨_, rfl, ?_⟩
  have hl : lastN (pre ++ salt) (HashLen.wordBytes .h256 * 4) = salt := by
    have : (pre ++ salt).length - HashLen.wordBytes .h256 * 4 = pre.length := by
      simp [hs, HashLen.wordBytes]
    unfold lastN
    rw [this, List.drop_left]
  refine Absorbed.digest (V := .h256) (D := []) (salt := (List.range 4).map fun i => BitVec.ofNat _ (beToNat (slice salt (i * 4) (i * 4 + 4))))
    ?_ m _ ?_
  · rw [hl]
    constructor <;> simp [init, chainN, HashLen.wordBytes]
  · intro k hk
    rw [rd_range _ 4 k hk, beToNat_eq]
    congr 2
    unfold slice
    rw [List.drop_take, Nat.mul_comm k 4]
    congr 1
    omega

example : (List.replicate 16 (3 : UInt8)).length = 16 := by decide

/-- The digest has 32 bytes. -/
theorem C66_length (m : Bytes) : (blakeHash m).length = 32 := blakeHash_length m

/-- A shorter salt is refused (the code pads it with a `str`). -/
theorem C66_short_salt (V : HashLen) (salt : Bytes) (h : salt.length < 4 * V.wordBytes) : addsalt V (init V) salt = .error .typeError := by
  unfold addsalt
  rw [if_neg (by simp [init]), if_pos (by omega)]

example : ([1] : Bytes).length < 4 * HashLen.h256.wordBytes := by decide

/-- the one-block test vector of the BLAKE submission -/
example : blakeHash [0] = [0x0C, 0xE8, 0xD4, 0xEF, 0x4D, 0xD7, 0xCD, 0x8D, 0x62, 0xDF, 0xDE, 0xD9, 0xD4, 0xED, 0xB0, 0xA7,
    0x74, 0xAE, 0x6A, 0x41, 0x92, 0x9A, 0x74, 0xDA, 0x23, 0x10, 0x9E, 0x8F, 0x11, 0x13, 0x9C, 0x87] := by decide +kernel

end Verif.Props
