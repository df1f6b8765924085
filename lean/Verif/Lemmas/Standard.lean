import Verif.Model.Standard
import Verif.Spec.Standard
import Verif.Lemmas.Builder
import Verif.Props.Addresses

/-! Lemmas about networks/standard.py. -/

namespace Verif.Standard

open Verif Spec Addresses Props

theorem isPushOnly_eq (net : Network) (s : Bytes) : isPushOnly net s = (do
    let _ ← deserialize net s
    .ok true) := by
  unfold isPushOnly
  have : ∀ t : PyStr, (t.map fun c => ([c] : PyStr)).filter (fun t => slice t 0 3 = pystr "OP_") = [] := by
    intro t
    rw [List.filter_eq_nil_iff]
    intro x hx
    obtain ⟨c, -, rfl⟩ := List.mem_map.1 hx
    simp [slice]
  simp only [this]
  rfl

theorem fromOutputScript_other (E : Env) (hs : E.net.Supported) (b : UInt8) (s : Bytes) (h1 : b ≠ 0x76) (h2 : b ≠ 0xa9) (h3 : b ≠ 0) (c : Bool) :
    fromOutputScript E (b :: s) c = .error .valueError := by
  have nf := netFacts hs
  unfold fromOutputScript
  have e1 : startsWith (b :: s) [0x76, 0xa9, 0x14] = false := by
    cases h : startsWith (b :: s) [0x76, 0xa9, 0x14]
    · rfl
    · obtain ⟨r, hr⟩ := (startsWith_iff _ _).1 h
      exact absurd (List.cons.inj hr).1 h1
  have e2 : startsWith (b :: s) [0xa9, 0x14] = false := by
    cases h : startsWith (b :: s) [0xa9, 0x14]
    · rfl
    · obtain ⟨r, hr⟩ := (startsWith_iff _ _).1 h
      exact absurd (List.cons.inj hr).1 h2
  have e3 : ∀ x, startsWith (b :: s) [0, x] = false := by
    intro x
    cases h : startsWith (b :: s) [0, x]
    · rfl
    · obtain ⟨r, hr⟩ := (startsWith_iff _ _).1 h
      exact absurd (List.cons.inj hr).1 h3
  simp only [nf.wsh, nf.wpkh, e1, e2, e3]
  simp

theorem isStandardOutputType_other (E : Env) (hs : E.net.Supported) (o : TxOut) (b : UInt8) (s : Bytes) (ho : o.outputScript = b :: s)
    (h1 : b ≠ 0x76) (h2 : b ≠ 0xa9) (h3 : b ≠ 0) : isStandardOutputType E o = isOtherStandard E.net o.outputScript := by
  unfold isStandardOutputType
  rw [ho, fromOutputScript_other E hs b s h1 h2 h3]
  rfl

theorem isStandardOutputType_ok (E : Env) (o : TxOut) (a : Option PyStr) (h : fromOutputScript E o.outputScript = .ok a) :
    isStandardOutputType E o = .ok true := by
  unfold isStandardOutputType
  rw [h]; rfl

theorem getItem_zero {α : Type} (a : α) (l : List α) : getItem (a :: l) 0 = .ok a := by
  unfold getItem pyIndex
  simp

theorem getItem_last2 {α : Type} (l : List α) (x y : α) : getItem (l ++ [x, y]) (-2) = .ok x := by
  unfold getItem pyIndex
  rw [if_neg (by omega), if_pos (by simp only [List.length_append, List.length_cons, List.length_nil]; omega)]
  have : (-2 + ((l ++ [x, y]).length : Int)).toNat = l.length := by
    simp only [List.length_append, List.length_cons, List.length_nil]; omega
  rw [this]
  simp

theorem getItem_last1 {α : Type} (l : List α) (x : α) : getItem (l ++ [x]) (-1) = .ok x := getItem_last l x

theorem isPubkeyScript_false {ts : List PyStr} {b : Bool} (h : isPubkeyScript ts = .ok b) : b = false := by
  unfold isPubkeyScript at h
  simp only [bind_ok_iff] at h
  obtain ⟨last, hl, h⟩ := h
  split at h
  · rename_i hc
    exfalso
    obtain ⟨h1, h2⟩ := hc
    match ts, h2 with
    | [x, y], _ =>
      have e1 : getItem [x, y] (-1) = .ok y := getItem_last [x] y
      rw [e1] at hl
      cases hl
      simp only [bind_ok_iff] at h
      obtain ⟨s, hs, f, hf, -⟩ := h
      have e2 : getItem [x, last] 1 = .ok last := by unfold getItem pyIndex; simp
      rw [e2] at hs
      cases hs
      rw [h1] at hf
      have : fromHex (pystr "OP_CHECKSIG") = .error .valueError := by decide
      rw [this] at hf
      cases hf
  · cases h; rfl

theorem pubkeysOk_true {ks : List PyStr} : pubkeysOk ks = .ok true ↔ ∀ k ∈ ks, ∃ b, fromHex k = .ok b ∧ (b.length = 33 ∨ b.length = 65) := by
  induction ks with
  | nil => simp [pubkeysOk]
  | cons k ks ih =>
    simp only [pubkeysOk, bind_ok_iff, List.mem_cons, forall_eq_or_imp]
    constructor
    · rintro ⟨b, hb, h⟩
      split at h
      · rename_i hc
        exact ⟨⟨b, hb, hc⟩, ih.1 h⟩
      · cases h
    · rintro ⟨⟨b, hb, hc⟩, h⟩
      exact ⟨b, hb, by rw [if_pos hc]; exact ih.2 h⟩

theorem mapPy_length {α β : Type} {f : α → Py β} {l : List α} {r : List β} (h : mapPy f l = .ok r) : r.length = l.length := by
  induction l generalizing r with
  | nil => cases h; rfl
  | cons a l ih =>
    simp only [mapPy, bind_ok_iff] at h
    obtain ⟨b, -, bs, hb, h⟩ := h
    cases h
    simp [ih hb]

theorem outputsOk_true {E : Env} {os : List TxOut} : outputsOk E os = .ok true ↔
    ∀ o ∈ os, isStandardOutputType E o = .ok true ∧ ¬ (le2i o.value < 550 ∧ slice o.outputScript 0 2 ≠ [0x00, 0x14]) := by
  induction os with
  | nil => simp [outputsOk]
  | cons o os ih =>
    simp only [outputsOk, bind_ok_iff, List.mem_cons, forall_eq_or_imp]
    constructor
    · rintro ⟨b, hb, h⟩
      cases b with
      | false => simp at h
      | true =>
        rw [if_neg (by simp)] at h
        split at h
        · cases h
        · rename_i hc
          exact ⟨⟨hb, hc⟩, ih.1 h⟩
    · rintro ⟨⟨hb, hc⟩, h⟩
      exact ⟨true, hb, by rw [if_neg (by simp), if_neg hc]; exact ih.2 h⟩

end Verif.Standard
