import Verif.Props.Blake

/-! C95, C96: BLAKE objects given text, and BLAKE objects used after the digest was taken. -/

namespace Verif.Props

open Verif Verif.Blake

/-! ### C95 -/

theorem updateTextLoop_eq (V : HashLen) : ∀ (n fuel : Nat) (s : State V) (d : Bytes), n ≤ d.length → n ≤ fuel →
    ∃ k ≤ n, updateTextLoop V fuel s d n = ((updateLoop V n s (d.take n)).1, d.drop k, n - k) ∧
      (updateLoop V n s (d.take n)).2 = (d.drop k).take (n - k) := by
  have hb := blk_pos V
  have gen : ∀ (fuel n f2 : Nat) (s : State V) (d : Bytes), n ≤ d.length → n ≤ fuel → n ≤ f2 →
      ∃ k ≤ n, updateTextLoop V fuel s d n = ((updateLoop V f2 s (d.take n)).1, d.drop k, n - k) ∧
        (updateLoop V f2 s (d.take n)).2 = (d.drop k).take (n - k) := by
    intro fuel
    induction fuel with
    | zero =>
      intro n f2 s d h1 h2 h3
      obtain rfl : n = 0 := by omega
      refine ⟨0, Nat.le_refl _, ?_⟩
      cases f2 with
      | zero => simp [updateTextLoop, updateLoop]
      | succ f => simp [updateTextLoop, updateLoop, Nat.not_le.2 hb]
    | succ fuel ih =>
      intro n f2 s d h1 h2 h3
      unfold updateTextLoop
      by_cases hn : V.blkBytes ≤ n
      · rw [if_pos hn]
        cases f2 with
        | zero => omega
        | succ f =>
          obtain ⟨k, hk, e1, e2⟩ := ih (n - V.blkBytes) f (compress V { s with t := s.t + V.blkBits } (d.take V.blkBytes))
            (d.drop V.blkBytes) (by rw [List.length_drop]; omega) (by omega) (by omega)
          have hl : V.blkBytes ≤ (d.take n).length := by rw [List.length_take]; omega
          refine ⟨V.blkBytes + k, by omega, ?_⟩
          rw [e1, updateLoop, if_pos hl, List.take_take, List.drop_take, Nat.min_eq_left hn]
          rw [List.drop_drop, Nat.sub_sub] at *
          exact ⟨rfl, e2⟩
      · rw [if_neg hn]
        refine ⟨0, Nat.zero_le _, ?_⟩
        cases f2 with
        | zero =>
          obtain rfl : n = 0 := by omega
          simp [updateLoop]
        | succ f =>
          have hl : ¬ V.blkBytes ≤ (d.take n).length := by rw [List.length_take]; omega
          rw [updateLoop, if_neg hl]
          simp
  intro n fuel s d h1 h2
  exact gen fuel n n s d h1 h2 (Nat.le_refl _)

theorem utf8_char_pos (c : Char) : 1 ≤ (String.utf8EncodeChar c).length := by
  rw [String.length_utf8EncodeChar]; exact Char.utf8Size_pos c

theorem utf8_length (t : PyStr) : t.length ≤ (utf8 t).length := by
  induction t with
  | nil => simp
  | cons c t ih =>
    have := utf8_char_pos c
    unfold utf8 at ih ⊢
    rw [List.flatMap_cons, List.length_append, List.length_cons]
    omega

/-- What `update` does with text: it hashes as many bytes of the encoded text as the text has characters. -/
theorem C95_text (V : HashLen) (s : State V) (t : PyStr) : updateText V s t = update V s ((utf8 t).take t.length) := by
  have hu := utf8_length t
  have hl : ((utf8 t).take t.length).length = t.length := by rw [List.length_take]; omega
  unfold updateText update
  simp only [hl]
  by_cases h0 : t.length = 0
  · rw [if_pos h0, if_pos h0]
  · rw [if_neg h0, if_neg h0]
    by_cases hc : s.cache.length ≠ 0 ∧ V.blkBytes - s.cache.length ≤ t.length
    · rw [if_pos hc, if_pos hc]
      obtain ⟨h1, h2⟩ := hc
      simp only [List.take_take, List.drop_take, Nat.min_eq_left h2]
      obtain ⟨k, hk, e1, e2⟩ := updateTextLoop_eq V (t.length - (V.blkBytes - s.cache.length)) _
        ({ (compress V { s with state := 2, cache := s.cache ++ (utf8 t).take (V.blkBytes - s.cache.length), t := s.t + V.blkBits }
          (s.cache ++ (utf8 t).take (V.blkBytes - s.cache.length))) with cache := [] })
        ((utf8 t).drop (V.blkBytes - s.cache.length)) (by rw [List.length_drop]; omega) (Nat.le_refl _)
      rw [e1, List.length_take, List.length_drop,
        Nat.min_eq_left (show t.length - (V.blkBytes - s.cache.length) ≤ (utf8 t).length - (V.blkBytes - s.cache.length) by omega)]
      simp only [e2]
      have : ((((utf8 t).drop (V.blkBytes - s.cache.length)).drop k).take (t.length - (V.blkBytes - s.cache.length) - k)).length =
          t.length - (V.blkBytes - s.cache.length) - k := by
        rw [List.length_take, List.length_drop, List.length_drop]; omega
      rw [this]
    · rw [if_neg hc, if_neg hc]
      obtain ⟨k, hk, e1, e2⟩ := updateTextLoop_eq V t.length _ { s with state := 2 } (utf8 t) hu (Nat.le_refl _)
      rw [e1, hl]
      simp only [e2]
      have : (((utf8 t).drop k).take (t.length - k)).length = t.length - k := by
        rw [List.length_take, List.length_drop]; omega
      rw [this]

theorem utf8_ascii {t : PyStr} (h : ∀ c ∈ t, c.toNat < 128) : utf8 t = t.map fun c => UInt8.ofNat c.toNat := by
  induction t with
  | nil => rfl
  | cons c t ih =>
    have hc : c.val ≤ 0x7f := by
      have h1 : c.toNat < 128 := h c (by simp)
      rw [UInt32.le_iff_toNat_le]
      have : c.val.toNat = c.toNat := rfl
      rw [this, show (0x7f : UInt32).toNat = 127 from rfl]; omega
    have h1 : String.utf8EncodeChar c = [UInt8.ofNat c.toNat] := by
      unfold String.utf8EncodeChar
      simp only
      rw [if_pos (show c.val.toNat ≤ 127 by rw [UInt32.le_iff_toNat_le] at hc; exact hc)]
      rfl
    have h2 := ih fun x hx => h x (List.mem_cons_of_mem _ hx)
    unfold utf8 at h2 ⊢
    rw [List.flatMap_cons, h1, h2]
    rfl

theorem update_state (V : HashLen) (s : State V) (d : Bytes) : (update V s d).state = 2 := by
  have hloop : ∀ (n : Nat) (s : State V) (x : Bytes), (updateLoop V n s x).1.state = s.state := by
    intro n
    induction n with
    | zero => intros; rfl
    | succ n ih =>
      intro s x
      unfold updateLoop
      split
      · rw [ih]; rfl
      · rfl
  unfold update
  simp only
  split
  · rfl
  · split <;> split <;> (simp only; rw [hloop]; try rfl)

/-- ASCII text is hashed as the bytes of its characters, by `update` and by `digest`, at any stage of the object. -/
theorem C95_ascii_partial (V : HashLen) (s : State V) (t : PyStr) (h : ∀ c ∈ t, c.toNat < 128) :
    updateText V s t = update V s (t.map fun c => UInt8.ofNat c.toNat) ∧
    finalText V s t = final V s (t.map fun c => UInt8.ofNat c.toNat) := by
  have h1 : updateText V s t = update V s (t.map fun c => UInt8.ofNat c.toNat) := by
    rw [C95_text, utf8_ascii h, List.take_of_length_le (by simp)]
  refine ⟨h1, ?_⟩
  unfold finalText
  rw [h1]
  by_cases h3 : s.state = 3
  · rw [if_pos h3, final, if_pos h3]
  · rw [if_neg h3]
    by_cases h0 : t.length = 0
    · rw [if_neg (by omega), List.length_eq_zero_iff.1 h0]; rfl
    · rw [if_pos h0]
      have hs : (update V s (t.map fun c => UInt8.ofNat c.toNat)).state ≠ 3 := by
        rw [update_state]; decide
      rw [final, if_neg hs, final, if_neg h3, if_neg (by simp), if_pos (by simpa using h0)]

/-- Text with other characters loses its end: as many trailing characters as the encoding is longer than the text can be replaced
by any others of the same number without changing the object, let alone the digest. -/
theorem C95_false (V : HashLen) (s : State V) (t u v : PyStr) (hu : t.length + u.length ≤ (utf8 t).length) (hv : v.length = u.length) :
    updateText V s (t ++ u) = updateText V s (t ++ v) ∧ finalText V s (t ++ u) = finalText V s (t ++ v) := by
  have h1 : updateText V s (t ++ u) = updateText V s (t ++ v) := by
    have hsplit : ∀ w : PyStr, utf8 (t ++ w) = utf8 t ++ utf8 w := fun w => List.flatMap_append
    rw [C95_text, C95_text, hsplit, hsplit, List.length_append, List.length_append, hv,
      List.take_append_of_le_length hu, List.take_append_of_le_length hu]
  refine ⟨h1, ?_⟩
  unfold finalText
  rw [h1, List.length_append, List.length_append, hv]

example : "é".toList.length + "a".toList.length ≤ (utf8 "é".toList).length ∧ "é".toList ++ "a".toList ≠ "é".toList ++ "b".toList := by decide

/-! ### C96 -/

/-- Objects that are not updated any more: after all the updates, every digest asked for, with whatever data, is the digest of
the updates and of the data passed to the first digest. -/
theorem C96_partial (V : HashLen) (chunks : List Bytes) (d : Bytes) (ds : List Bytes) (d' : Bytes) :
    (final V (ds.foldl (fun s x => (final V s x).1) (final V (chunks.foldl (update V) (init V)) d).1) d').2 =
      (final V (init V) (chunks.flatten ++ d)).2 := by
  have hid : ∀ (s : State V) (d d' : Bytes), final V (final V s d).1 d' = final V s d := C65_idempotent V
  have hfold : ∀ (s : State V) (d : Bytes), ds.foldl (fun s x => (final V s x).1) (final V s d).1 = (final V s d).1 := by
    induction ds with
    | nil => intros; rfl
    | cons x xs ih => intro s d; rw [List.foldl_cons, hid]; exact ih s d
  rw [hfold, hid]
  exact C65_chunks V chunks d

/-- The digest of an object that was updated after its digest had been taken is neither the digest of all the data nor that of
the later data. -/
theorem C96_false : (final .h256 (update .h256 (final .h256 (init .h256) [0]).1 [1]) []).2 ≠ blakeHash [0, 1] ∧
    (final .h256 (update .h256 (final .h256 (init .h256) [0]).1 [1]) []).2 ≠ blakeHash [1] := by
  decide +kernel

/-- Even an update with no data changes the next digest. -/
theorem C96_empty_false : (final .h256 (update .h256 (final .h256 (init .h256) [0]).1 []) []).2 ≠ blakeHash [0] ∧
    (final .h256 (init .h256) [0]).2 = blakeHash [0] := by
  decide +kernel

/-- `hexdigest` is the digest in hexadecimal, and leaves the object as `digest` does. -/
theorem C96_hexdigest (V : HashLen) (s : State V) (d : Bytes) :
    fromHex (hexdigest V s d).2 = .ok (final V s d).2 ∧ (hexdigest V s d).1 = (final V s d).1 := by
  exact ⟨fromHex_toHex _, rfl⟩

end Verif.Props
