import Verif.Props.Builder

/-! C81: the witness and input builders of tx_builder.py. -/

namespace Verif.Props

open Verif Spec Builder

theorem mapPy_items (items : List Bytes) (h : ∀ d ∈ items, d.length < 2 ^ 64) :
    mapPy makeWitnessStackItem items = .ok (items.map fun d => ⟨d, varBytes d⟩) := by
  induction items with
  | nil => rfl
  | cons d ds ih =>
    simp only [mapPy]
    have : makeWitnessStackItem d = .ok ⟨d, varBytes d⟩ := WitnessStackItem.make_iff.2 ⟨h d (by simp), rfl⟩
    rw [this, ok_bind, ih (fun x hx => h x (by simp [hx])), ok_bind]
    rfl

/-- **C81**: `make_witness` keeps the byte strings, in order, and serializes them as a vector of length-prefixed strings. -/
theorem C81_witness (items : List Bytes) (h : ∀ d ∈ items, d.length < 2 ^ 64) (hl : items.length < 2 ^ 64) :
    ∃ w, makeWitness items = .ok w ∧ w.Built ∧ w.stack.map (·.item) = items ∧ w.bytes = vector (items.map varBytes) := by
  have hb : ∀ i ∈ items.map (fun d => (⟨d, varBytes d⟩ : WitnessStackItem)), i.Built := by
    intro i hi
    obtain ⟨d, hd, rfl⟩ := List.mem_map.1 hi
    exact ⟨d, WitnessStackItem.make_iff.2 ⟨h d hd, rfl⟩⟩
  obtain ⟨w, hw, hst, hwb⟩ := C37_witness (items.map fun d => ⟨d, varBytes d⟩) hb (by simpa using hl)
  refine ⟨w, ?_, ⟨_, hb, hw⟩, ?_, ?_⟩
  · unfold makeWitness
    rw [mapPy_items items h, ok_bind]
    exact hw
  · rw [hst]; simp [Function.comp_def]
  · rw [hwb, wireWitness]; simp [Function.comp_def]

example : ∃ items : List Bytes, items ≠ [] ∧ (∀ d ∈ items, d.length < 2 ^ 64) ∧ items.length < 2 ^ 64 :=
  ⟨[[], [1, 2]], by decide, by decide, by decide⟩

/-- **C81**: different stacks give different witnesses. -/
theorem C81_injective (items items' : List Bytes) (h : ∀ d ∈ items, d.length < 2 ^ 64) (hl : items.length < 2 ^ 64)
    (h' : ∀ d ∈ items', d.length < 2 ^ 64) (hl' : items'.length < 2 ^ 64) (w w' : InputWitness) (hw : makeWitness items = .ok w)
    (hw' : makeWitness items' = .ok w') (he : w.bytes = w'.bytes) : items = items' := by
  obtain ⟨v, h1, h2, h3, -⟩ := C81_witness items h hl
  obtain ⟨v', h1', h2', h3', -⟩ := C81_witness items' h' hl'
  rw [h1] at hw; cases hw
  rw [h1'] at hw'; cases hw'
  have := (InputWitness.Built.inj h2 h2' (r := []) (s := []) (by simpa using he)).1
  rw [← h3, ← h3', this]

example : ∃ w w', makeWitness [[], [1, 2]] = .ok w ∧ makeWitness [[], [1, 2]] = .ok w' ∧ w.bytes = w'.bytes := ⟨_, _, rfl, rfl, rfl⟩

/-- **C81**: the empty witness is one zero byte. -/
theorem C81_empty : ∃ w, makeEmptyWitness = .ok w ∧ w.stack = [] ∧ w.bytes = [0] := ⟨_, rfl, rfl, rfl⟩

/-- **C81**: a legacy input serializes as the outpoint, the script_sig (the stack script followed by the redeem script) with its length,
and the sequence; the script may be at most 1650 bytes and the sequence must fit in four bytes. -/
theorem C81_legacy_input (o : Outpoint) (ho : o.Built) (stack redeem : Bytes) (sequence : Int) :
    ((stack ++ redeem).length ≤ 1650 → 0 ≤ sequence → sequence < 2 ^ 32 →
      ∃ t sq, makeLegacyInput o stack redeem sequence = .ok t ∧ t.Built ∧ t.outpoint = o ∧ t.stackScript = stack ∧ t.redeemScript = redeem ∧
        t.scriptSig = stack ++ redeem ∧ sq.length = 4 ∧ (leValue sq : Int) = sequence ∧ t.sequence = sq ∧
        t.bytes = wireIn o.txId o.index (stack ++ redeem) sq) ∧
    (1650 < (stack ++ redeem).length → 0 ≤ sequence → sequence < 2 ^ 32 → makeLegacyInput o stack redeem sequence = .error .valueError) ∧
    (¬ (0 ≤ sequence ∧ sequence < 2 ^ 32) → makeLegacyInput o stack redeem sequence = .error .overflowError) := by
  unfold makeLegacyInput
  refine ⟨?_, ?_, ?_⟩
  · intro hl h0 h1
    obtain ⟨sq, hi, hil, hiv⟩ := i2le_ok (n := sequence) (k := 4) ⟨h0, by norm_num; omega⟩
    obtain ⟨t, ht, a, b, c, d, e, f⟩ := (C37_txin o ho stack redeem sq).1 ⟨hil, hl⟩
    exact ⟨t, sq, by rw [hi]; exact ht, ⟨_, _, _, _, ho, ht⟩, a, b, c, d, hil, hiv, e, f⟩
  · intro hl h0 h1
    obtain ⟨sq, hi, hil, hiv⟩ := i2le_ok (n := sequence) (k := 4) ⟨h0, by norm_num; omega⟩
    rw [hi]
    exact (C37_txin o ho stack redeem sq).2 (by omega)
  · intro h
    rw [i2le_error (by norm_num; omega)]
    rfl

/-- **C81**: a witness input is a legacy input with no scripts. -/
theorem C81_witness_input (o : Outpoint) (ho : o.Built) (sequence : Int) (h0 : 0 ≤ sequence) (h1 : sequence < 2 ^ 32) :
    ∃ t, makeWitnessInput o sequence = .ok t ∧ t.Built ∧ t.outpoint = o ∧ t.scriptSig = [] ∧ (leValue t.sequence : Int) = sequence ∧
      t.bytes = wireIn o.txId o.index [] t.sequence := by
  obtain ⟨t, sq, ht, a, b, c, d, e, f, g, i, j⟩ := (C81_legacy_input o ho [] [] sequence).1 (by simp) h0 h1
  exact ⟨t, ht, a, b, e, by rw [i, g], by rw [i]; exact j⟩

example : exOutpoint.Built ∧ (0 : Int) ≤ 0xfffffffe ∧ (0xfffffffe : Int) < 2 ^ 32 := ⟨exOutpoint_built, by decide, by decide⟩

/-! ### Decred -/

/-- **C81** on Decred: an input is the outpoint and the four-byte sequence; the scripts given to `make_legacy_input` are dropped (on Decred
they belong to the witness). A sequence that does not fit in four unsigned bytes is an OverflowError. -/
theorem C81_decred_input (E : Env) (hd : E.net.isDecred = true) (o : DecredOutpoint) (ho : o.Built E.net) (stack redeem : Bytes)
    (sequence : Int) :
    (U32 sequence → ∃ t, makeDecredInput E o sequence = .ok t ∧ makeAnyLegacyInput E (.decred o) stack redeem sequence = .ok (.decred t) ∧
      Simple.unsignedInput E (.decred o) sequence = .ok (.decred t) ∧ t.Built E.net ∧ t.outpoint = o ∧ t.sequence.length = 4 ∧
      (leValue t.sequence : Int) = sequence ∧ t.bytes = dcrIn o.txId o.index o.tree t.sequence) ∧
    (¬ U32 sequence → makeDecredInput E o sequence = .error .overflowError ∧
      makeAnyLegacyInput E (.decred o) stack redeem sequence = .error .overflowError ∧
      Simple.unsignedInput E (.decred o) sequence = .error .overflowError) ∧
    (∃ t, Simple.unsignedInput E (.decred o) = .ok (.decred t) ∧ t.sequence = [0xfe, 0xff, 0xff, 0xff]) := by
  have red : ∀ a b (s : Int), makeAnyLegacyInput E (.decred o) a b s = (makeDecredInput E o s).map .decred := by
    intro a b s; unfold makeAnyLegacyInput; rw [if_pos hd]
  have main : ∀ s b, i2lePadded s 4 = .ok b → b.length = 4 → makeDecredInput E o s = .ok ⟨o, b, o.bytes ++ b⟩ := by
    intro s b h hl
    unfold makeDecredInput
    rw [h, ok_bind]
    exact DecredTxIn.make_iff.2 ⟨hd, ho.length, hl, rfl⟩
  refine ⟨fun h => ?_, fun h => ?_, ?_⟩
  · obtain ⟨b, hb, hl, hv⟩ := u32_i2le h
    have hm := main sequence b hb hl
    have hbt : (⟨o, b, o.bytes ++ b⟩ : DecredTxIn).Built E.net :=
      ⟨o, b, ho, DecredTxIn.make_iff.2 ⟨hd, ho.length, hl, rfl⟩⟩
    refine ⟨_, hm, ?_, ?_, hbt, rfl, hl, hv, hbt.wire⟩
    · rw [red, hm]; rfl
    · unfold Simple.unsignedInput; rw [red, hm]; rfl
  · have hm : makeDecredInput E o sequence = .error .overflowError := by
      unfold makeDecredInput; rw [u32_error h]; rfl
    refine ⟨hm, ?_, ?_⟩
    · rw [red, hm]; rfl
    · unfold Simple.unsignedInput; rw [red, hm]; rfl
  · refine ⟨⟨o, [0xfe, 0xff, 0xff, 0xff], o.bytes ++ [0xfe, 0xff, 0xff, 0xff]⟩, ?_, rfl⟩
    unfold Simple.unsignedInput
    rw [red, main _ [0xfe, 0xff, 0xff, 0xff] (by decide) rfl]
    rfl

/-- **C81**: an outpoint of the other family is refused, Decred's on other networks and theirs on Decred. -/
theorem C81_foreign_outpoint (E : Env) (o : DecredOutpoint) (p : Outpoint) (stack redeem : Bytes) (sequence : Int) (h : U32 sequence) :
    (E.net.isDecred = false → makeAnyLegacyInput E (.decred o) stack redeem sequence = .error .valueError ∧
      makeDecredInput E o sequence = .error .valueError) ∧
    (E.net.isDecred = true → makeAnyLegacyInput E (.std p) stack redeem sequence = .error .valueError) := by
  obtain ⟨b, hb, hl, hv⟩ := u32_i2le h
  refine ⟨fun hd => ⟨?_, ?_⟩, fun hd => ?_⟩
  · unfold makeAnyLegacyInput
    simp only [hd, hb]
    rfl
  · unfold makeDecredInput DecredTxIn.make decredGate check
    simp only [hd, hb]
    rfl
  · unfold makeAnyLegacyInput
    simp only [hd, hb]
    rfl

/-- **C81** on Decred: `make_decred_witness` and, given a script version, `_make_output` keep what they are given and refuse fields of
the wrong length with ValueError. -/
theorem C81_decred_parts (E : Env) (hd : E.net.isDecred = true) :
    (∀ value height index stack redeem : Bytes, value.length = 8 → height.length = 4 → index.length = 4 →
      stack.length + redeem.length < 2 ^ 64 → ∃ w, makeDecredWitness E value height index stack redeem = .ok w ∧ w.Built E.net ∧
        w.value = value ∧ w.height = height ∧ w.index = index ∧ w.stackScript = stack ∧ w.redeemScript = redeem ∧
        w.scriptSig = stack ++ redeem ∧ w.bytes = dcrWitness value height index (stack ++ redeem)) ∧
    (∀ value height index stack redeem : Bytes, ¬ (value.length = 8 ∧ height.length = 4 ∧ index.length = 4) →
      makeDecredWitness E value height index stack redeem = .error .valueError) ∧
    (∀ value version script : Bytes, value.length = 8 → version.length = 2 → script.length < 2 ^ 64 →
      ∃ o, makeOutput E value script (some version) = .ok (.decred o) ∧ o.Built E.net ∧ o.value = value ∧ o.version = version ∧
        o.outputScript = script ∧ o.bytes = dcrOut value version script) ∧
    (∀ value version script : Bytes, ¬ (value.length = 8 ∧ version.length = 2) →
      makeOutput E value script (some version) = .error .valueError) := by
  refine ⟨?_, ?_, ?_, ?_⟩
  · intro v h i s r hv hh hi hl
    have hm := DecredInputWitness.make_iff.2 ⟨hd, hv, hh, hi, hl, rfl⟩
    exact ⟨_, hm, ⟨_, _, _, _, _, hm⟩, rfl, rfl, rfl, rfl, rfl, rfl, rfl⟩
  · intro v h i s r hn
    unfold makeDecredWitness DecredInputWitness.make
    simp only [decredGate, check, hd, if_true, ok_bind, validateBytes_eq]
    by_cases hv : v.length = 8
    · by_cases hh : h.length = 4
      · have hi : ¬ i.length = 4 := fun hi => hn ⟨hv, hh, hi⟩
        simp only [hv, hh, hi]; rfl
      · simp only [hv, hh]; rfl
    · simp only [hv]; rfl
  · intro v r s hv hr hl
    have hm := DecredTxOut.make_iff.2 ⟨hd, hv, hr, hl, rfl⟩
    refine ⟨_, ?_, ⟨_, _, _, hm⟩, rfl, rfl, rfl, rfl⟩
    unfold makeOutput
    rw [if_pos hd]
    simp only [hm]
    rfl
  · intro v r s hn
    unfold makeOutput DecredTxOut.make
    rw [if_pos hd]
    simp only [decredGate, check, hd, if_true, ok_bind, validateBytes_eq]
    by_cases hv : v.length = 8
    · have hr : ¬ r.length = 2 := fun hr => hn ⟨hv, hr⟩
      simp only [hv, hr]; rfl
    · simp only [hv]; rfl

example : ∃ (E : Env) (o : DecredOutpoint), E.net.isDecred = true ∧ o.Built E.net ∧ U32 5 ∧ ¬ U32 (-1) :=
  ⟨⟨decredMain, toyHashes⟩, _, by decide, ⟨List.replicate 32 7, [1, 0, 0, 0], [0], rfl⟩, ⟨by decide, by decide⟩, fun h => absurd h.1 (by decide)⟩

end Verif.Props
