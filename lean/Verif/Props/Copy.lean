import Verif.Props.Tx
import Verif.Props.Decred
import Verif.Props.ZcashTx2

/-! # C44, `copy` against the constructor: copying with arguments is constructing again

`x` was constructed from some arguments; `x.copy(...)` is the constructor on those arguments with the given ones replaced. The equations are
between results, so they also say when `copy` raises and what. -/

namespace Verif.Props
open Verif.Spec

/-- C44: the classes of tx.py. -/
theorem C44_copy_args (E : Env) :
    (∀ a b x y o, Outpoint.make a b = .ok o → o.copy x y = Outpoint.make (x.getD a) (y.getD b)) ∧
    (∀ o ss rs sq x1 x2 x3 x4 t, TxIn.make o ss rs sq = .ok t →
      t.copy x1 x2 x3 x4 = TxIn.make (x1.getD o) (x2.getD ss) (x3.getD rs) (x4.getD sq)) ∧
    (∀ v s x y o, TxOut.make v s = .ok o → o.copy x y = TxOut.make (x.getD v) (y.getD s)) ∧
    (∀ st x w, InputWitness.make st = .ok w → w.copy x = InputWitness.make (x.getD st)) ∧
    (∀ v f ins outs ws lt x1 x2 x3 x4 x5 x6 t, Tx.make E v f ins outs ws lt = .ok t →
      t.copy E x1 x2 x3 x4 x5 x6 =
        Tx.make E (x1.getD v) (if x2.isSome then x2 else f) (x3.getD ins) (x4.getD outs) (if x5.isSome then x5 else ws) (x6.getD lt)) := by
  refine ⟨?_, ?_, ?_, ?_, ?_⟩
  · intro a b x y o h
    obtain ⟨_, _, rfl⟩ := Outpoint.make_iff.1 h; rfl
  · intro o ss rs sq x1 x2 x3 x4 t h
    obtain ⟨_, _, _, rfl⟩ := TxIn.make_iff.1 h; rfl
  · intro v s x y o h
    obtain ⟨_, _, rfl⟩ := TxOut.make_iff.1 h; rfl
  · intro st x w h
    obtain ⟨_, rfl⟩ := InputWitness.make_iff.1 h; rfl
  · intro v f ins outs ws lt x1 x2 x3 x4 x5 x6 t h
    obtain ⟨_, rfl⟩ := Tx.make_iff.1 h
    cases x2 <;> cases x5 <;> rfl

/-- C44: the Decred classes. -/
theorem C44_copy_args_decred (net : Network) :
    (∀ a b c x y z o, DecredOutpoint.make net a b c = .ok o → o.copy net x y z = DecredOutpoint.make net (x.getD a) (y.getD b) (z.getD c)) ∧
    (∀ o sq x y t, DecredTxIn.make net o sq = .ok t → t.copy net x y = DecredTxIn.make net (x.getD o) (y.getD sq)) ∧
    (∀ v r s x y z o, DecredTxOut.make net v r s = .ok o → o.copy net x y z = DecredTxOut.make net (x.getD v) (y.getD r) (z.getD s)) ∧
    (∀ v g i s r x1 x2 x3 x4 x5 w, DecredInputWitness.make net v g i s r = .ok w →
      w.copy net x1 x2 x3 x4 x5 = DecredInputWitness.make net (x1.getD v) (x2.getD g) (x3.getD i) (x4.getD s) (x5.getD r)) ∧
    (∀ v ins outs lt ex ws x1 x2 x3 x4 x5 x6 t, DecredTx.make net v ins outs lt ex ws = .ok t →
      t.copy net x1 x2 x3 x4 x5 x6 =
        DecredTx.make net (x1.getD v) (x2.getD ins) (x3.getD outs) (x4.getD lt) (x5.getD ex) (x6.getD ws)) := by
  refine ⟨?_, ?_, ?_, ?_, ?_⟩
  · intro a b c x y z o h
    obtain ⟨_, _, _, _, rfl⟩ := DecredOutpoint.make_iff.1 h; rfl
  · intro o sq x y t h
    obtain ⟨_, _, _, rfl⟩ := DecredTxIn.make_iff.1 h; rfl
  · intro v r s x y z o h
    obtain ⟨_, _, _, _, rfl⟩ := DecredTxOut.make_iff.1 h; rfl
  · intro v g i s r x1 x2 x3 x4 x5 w h
    obtain ⟨_, _, _, _, _, rfl⟩ := DecredInputWitness.make_iff.1 h; rfl
  · intro v ins outs lt ex ws x1 x2 x3 x4 x5 x6 t h
    obtain ⟨_, rfl⟩ := DecredTx.make_iff.1 h; rfl

example : (∃ v f ins outs ws lt, Tx.make toyEnv v f ins outs ws lt = .ok exTx ∧ ws.isSome) ∧ exIn.copy (sequence := some [1, 2, 3]) = .error .valueError := by
  refine ⟨?_, rfl⟩
  have f := exTx_built.facts
  exact ⟨_, _, _, _, _, _, Tx.make_iff.2 ⟨f.args, f.obj⟩, rfl⟩

/-! ### Zcash -/

theorem over_keys (E : Env) (ins : List TxIn) (outs : List TxOut) (lt ex : Bytes) (pk sig pk' sig' : Option Bytes) :
    OverwinterTx.make E ins outs lt ex [] pk sig = OverwinterTx.make E ins outs lt ex [] pk' sig' := by
  simp [OverwinterTx.make, OverwinterTx.checkJs, OverwinterTx.jsPart]

theorem sap_keys (E : Env) (ins : List TxIn) (outs : List TxOut) (lt ex vb : Bytes) (ss : List SaplingShieldedSpend)
    (so : List SaplingShieldedOutput) (pk sig pk' sig' bs : Option Bytes) :
    SaplingTx.make E ins outs lt ex vb ss so [] pk sig bs = SaplingTx.make E ins outs lt ex vb ss so [] pk' sig' bs := by
  simp [SaplingTx.make, SaplingTx.checkJs, SaplingTx.jsPart]

theorem sap_binding (E : Env) (ins : List TxIn) (outs : List TxOut) (lt ex vb : Bytes) (js : List SaplingJoinsplit)
    (pk sig bs bs' : Option Bytes) (h : ∀ s, bs = some s → s.length = 64) (h' : ∀ s, bs' = some s → s.length = 64) :
    SaplingTx.make E ins outs lt ex vb [] [] js pk sig bs = SaplingTx.make E ins outs lt ex vb [] [] js pk sig bs' := by
  have e : ∀ b : Option Bytes, (∀ s, b = some s → s.length = 64) → SaplingTx.checkBalance vb 0 0 b = SaplingTx.checkBalance vb 0 0 none := by
    intro b hb
    cases b with
    | none => rfl
    | some s =>
      unfold SaplingTx.checkBalance
      simp only [show validateBytes s (some 64) = .ok () from validateBytes_ok.2 (by simpa using hb s rfl)]
  simp [SaplingTx.make, SaplingTx.bindingPart, e _ h, e _ h']

theorem sprout_v1_keys (E : Env) (v : Bytes) (hv : v ≠ [2, 0, 0, 0]) (ins : List TxIn) (outs : List TxOut) (lt : Bytes)
    (js : Option (List SproutJoinsplit)) (pk sig pk' sig' : Option Bytes) :
    SproutTx.make E v ins outs lt js pk sig = SproutTx.make E v ins outs lt js pk' sig' := by
  by_cases h4 : v.length = 4
  · have h2 : le2i v ≠ 2 := fun h => hv ((le2i_eq_two h4).1 h)
    simp [SproutTx.make, SproutTx.checkV2, SproutTx.jsPart, h2, i2lePadded2, ok_bind, hv]
  · have : ∃ e, validateBytes v (some 4) = .error e := by
      cases h : validateBytes v (some 4) with
      | error e => exact ⟨e, rfl⟩
      | ok u => exact absurd (by simpa using validateBytes_ok.1 h) h4
    obtain ⟨e, he⟩ := this
    simp [SproutTx.make, he, error_bind]

/-- C44: the transactions of Zcash. Keys and signatures that the transaction had no use for are forgotten; everything else is as it was given. -/
theorem C44_copy_args_zcash (E : Env) :
    (∀ v ins outs lt js pk sig x1 x2 x3 x4 x5 x6 x7 t, SproutTx.make E v ins outs lt js pk sig = .ok t →
      t.copy E x1 x2 x3 x4 x5 x6 x7 = SproutTx.make E (x1.getD v) (x2.getD ins) (x3.getD outs) (x4.getD lt) (if x5.isSome then x5 else js)
        (if x6.isSome then x6 else if v = [2, 0, 0, 0] then pk else none) (if x7.isSome then x7 else if v = [2, 0, 0, 0] then sig else none)) ∧
    (∀ ins outs lt ex js pk sig x1 x2 x3 x4 x5 x6 x7 t, OverwinterTx.make E ins outs lt ex js pk sig = .ok t →
      t.copy E x1 x2 x3 x4 x5 x6 x7 = OverwinterTx.make E (x1.getD ins) (x2.getD outs) (x3.getD lt) (x4.getD ex) (x5.getD js)
        (if x6.isSome then x6 else if js = [] then none else pk) (if x7.isSome then x7 else if js = [] then none else sig)) ∧
    (∀ ins outs lt ex vb ss so js pk sig bs x1 x2 x3 x4 x5 x6 x7 x8 x9 x10 x11 t,
      SaplingTx.make E ins outs lt ex vb ss so js pk sig bs = .ok t →
      t.copy E x1 x2 x3 x4 x5 x6 x7 x8 x9 x10 x11 = SaplingTx.make E (x1.getD ins) (x2.getD outs) (x3.getD lt) (x4.getD ex) (x5.getD vb)
        (x6.getD ss) (x7.getD so) (x8.getD js) (if x9.isSome then x9 else if js = [] then none else pk)
        (if x10.isSome then x10 else if js = [] then none else sig)
        (if x11.isSome then x11 else if ss = [] ∧ so = [] then none else bs)) := by
  refine ⟨?_, ?_, ?_⟩
  · intro v ins outs lt js pk sig x1 x2 x3 x4 x5 x6 x7 t h
    obtain ⟨g, rfl⟩ := SproutTx.make_iff.1 h
    obtain ⟨l, rfl⟩ : ∃ l, js = some l := by
      rcases g.ver with ⟨_, h, _⟩ | ⟨_, ⟨l, h, _⟩, _⟩
      · exact ⟨_, h⟩
      · exact ⟨l, h⟩
    cases x5 <;> cases x6 <;> cases x7 <;> rfl
  · intro ins outs lt ex js pk sig x1 x2 x3 x4 x5 x6 x7 t h
    obtain ⟨g, rfl⟩ := OverwinterTx.make_iff.1 h
    unfold OverwinterTx.copy overObj
    by_cases hj : js = [] <;> cases x6 <;> cases x7 <;> simp [hj]
  · intro ins outs lt ex vb ss so js pk sig bs x1 x2 x3 x4 x5 x6 x7 x8 x9 x10 x11 t h
    obtain ⟨g, rfl⟩ := SaplingTx.make_iff.1 h
    unfold SaplingTx.copy saplingObj
    have hd : (¬ (ss = [] ∧ so = [])) = (ss ≠ [] ∨ so ≠ []) := by
      apply propext
      constructor
      · intro h
        by_cases c : ss = []
        · exact .inr fun h' => h ⟨c, h'⟩
        · exact .inl c
      · rintro (h | h) ⟨h1, h2⟩
        · exact h h1
        · exact h h2
    by_cases hs : ss = [] ∧ so = []
    · have hs' : ¬ (ss ≠ [] ∨ so ≠ []) := by rw [← hd]; exact fun h => h hs
      simp only [if_pos hs, if_neg hs']
      by_cases hj : js = [] <;> cases x9 <;> cases x10 <;> cases x11 <;> simp [hj]
    · have hs' : ss ≠ [] ∨ so ≠ [] := by rw [← hd]; exact hs
      simp only [if_neg hs, if_pos hs']
      by_cases hj : js = [] <;> cases x9 <;> cases x10 <;> cases x11 <;> simp [hj]

/-- C44: with the arguments as given, if the copy does not need keys that the transaction had no use for. -/
theorem C44_copy_args_zcash_kept (E : Env) :
    (∀ v ins outs lt js pk sig x1 x2 x3 x4 x5 x6 x7 t, SproutTx.make E v ins outs lt js pk sig = .ok t →
      v = [2, 0, 0, 0] ∨ x1.getD v ≠ [2, 0, 0, 0] ∨ (x6.isSome ∧ x7.isSome) →
      t.copy E x1 x2 x3 x4 x5 x6 x7 = SproutTx.make E (x1.getD v) (x2.getD ins) (x3.getD outs) (x4.getD lt) (if x5.isSome then x5 else js)
        (if x6.isSome then x6 else pk) (if x7.isSome then x7 else sig)) ∧
    (∀ ins outs lt ex js pk sig x1 x2 x3 x4 x5 x6 x7 t, OverwinterTx.make E ins outs lt ex js pk sig = .ok t →
      js ≠ [] ∨ x5.getD js = [] ∨ (x6.isSome ∧ x7.isSome) →
      t.copy E x1 x2 x3 x4 x5 x6 x7 = OverwinterTx.make E (x1.getD ins) (x2.getD outs) (x3.getD lt) (x4.getD ex) (x5.getD js)
        (if x6.isSome then x6 else pk) (if x7.isSome then x7 else sig)) ∧
    (∀ ins outs lt ex vb ss so js pk sig bs x1 x2 x3 x4 x5 x6 x7 x8 x9 x10 x11 t,
      SaplingTx.make E ins outs lt ex vb ss so js pk sig bs = .ok t →
      js ≠ [] ∨ x8.getD js = [] ∨ (x9.isSome ∧ x10.isSome) → ss ≠ [] ∨ so ≠ [] ∨ (x6.getD ss = [] ∧ x7.getD so = []) ∨ x11.isSome →
      t.copy E x1 x2 x3 x4 x5 x6 x7 x8 x9 x10 x11 = SaplingTx.make E (x1.getD ins) (x2.getD outs) (x3.getD lt) (x4.getD ex) (x5.getD vb)
        (x6.getD ss) (x7.getD so) (x8.getD js) (if x9.isSome then x9 else pk) (if x10.isSome then x10 else sig)
        (if x11.isSome then x11 else bs)) := by
  obtain ⟨k1, k2, k3⟩ := C44_copy_args_zcash E
  refine ⟨?_, ?_, ?_⟩
  · intro v ins outs lt js pk sig x1 x2 x3 x4 x5 x6 x7 t h hk
    rw [k1 _ _ _ _ _ _ _ _ _ _ _ _ _ _ _ h]
    rcases hk with hk | hk | ⟨h6, h7⟩
    · simp only [if_pos hk]
    · exact sprout_v1_keys E _ hk _ _ _ _ _ _ _ _
    · simp only [if_pos h6, if_pos h7]
  · intro ins outs lt ex js pk sig x1 x2 x3 x4 x5 x6 x7 t h hk
    rw [k2 _ _ _ _ _ _ _ _ _ _ _ _ _ _ _ h]
    rcases hk with hk | hk | ⟨h6, h7⟩
    · simp only [if_neg hk]
    · rw [hk]; exact over_keys E _ _ _ _ _ _ _ _
    · simp only [if_pos h6, if_pos h7]
  · intro ins outs lt ex vb ss so js pk sig bs x1 x2 x3 x4 x5 x6 x7 x8 x9 x10 x11 t h hk hb
    rw [k3 _ _ _ _ _ _ _ _ _ _ _ _ _ _ _ _ _ _ _ _ _ _ _ h]
    have g := (SaplingTx.make_iff.1 h).1
    have e1 : ∀ b, SaplingTx.make E (x1.getD ins) (x2.getD outs) (x3.getD lt) (x4.getD ex) (x5.getD vb) (x6.getD ss) (x7.getD so) (x8.getD js)
        (if x9.isSome then x9 else if js = [] then none else pk) (if x10.isSome then x10 else if js = [] then none else sig) b =
        SaplingTx.make E (x1.getD ins) (x2.getD outs) (x3.getD lt) (x4.getD ex) (x5.getD vb) (x6.getD ss) (x7.getD so) (x8.getD js)
        (if x9.isSome then x9 else pk) (if x10.isSome then x10 else sig) b := by
      intro b
      rcases hk with hk | hk | ⟨h6, h7⟩
      · simp only [if_neg hk]
      · rw [hk]; exact sap_keys E _ _ _ _ _ _ _ _ _ _ _ _
      · simp only [if_pos h6, if_pos h7]
    rw [e1]
    rcases hb with hb | hb | ⟨h1, h2⟩ | hb
    · rw [if_neg (c := ss = [] ∧ so = []) (fun h => hb h.1)]
    · rw [if_neg (c := ss = [] ∧ so = []) (fun h => hb h.2)]
    · rw [h1, h2]
      cases x11 with
      | some b => rfl
      | none =>
        simp only [Option.isSome_none, Bool.false_eq_true, if_false]
        refine sap_binding E _ _ _ _ _ _ _ _ _ _ ?_ ?_
        · intro s hs
          split at hs
          · cases hs
          · exact g.bs64 s hs
        · intro s hs
          exact g.bs64 s hs
    · simp only [if_pos hb]

/-- A key that came without joinsplits is forgotten: the copy with a joinsplit is refused, the constructor with the same arguments is not. -/
example : ∃ t, OverwinterTx.make overEnv [exIn] [exOut] [0, 0, 0, 0] [0, 0, 0, 0] [] (some (List.replicate 32 9)) (some (List.replicate 64 8)) = .ok t ∧
    t.copy overEnv (txJoinsplits := some [exSproutJs]) = .error .valueError ∧
    (exOver 1).Built overEnv ∧ (exOver 1).txJoinsplits = [exSproutJs] ∧ (exSap 1).Built sapEnv ∧ exSprout1.Built sproutEnv := by
  have h : ∃ t, OverwinterTx.make overEnv [exIn] [exOut] [0, 0, 0, 0] [0, 0, 0, 0] [] (some (List.replicate 32 9)) (some (List.replicate 64 8)) = .ok t :=
    ⟨_, rfl⟩
  obtain ⟨t, ht⟩ := h
  refine ⟨t, ht, ?_, exOver_built (by omega), rfl, exSap_built (by omega), exSprout1_built⟩
  rw [(C44_copy_args_zcash overEnv).2.1 _ _ _ _ _ _ _ _ _ _ _ _ _ _ _ ht]
  rfl

end Verif.Props
