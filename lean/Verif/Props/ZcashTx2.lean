import Verif.Props.ZcashTx
import Verif.Lemmas.Sighash3

/-! Properties C44 and C45 for Zcash, C59, C62 (Zcash) and C75. -/

namespace Verif.Props
open Verif Spec

attribute [local irreducible] Env.hash256

/-! ## C59 -/

/-- C59: what every constructed `SproutTx` satisfies. -/
theorem C59_sprout (E : Env) (v : Bytes) (ins : List TxIn) (outs : List TxOut) (lt : Bytes) (js : Option (List SproutJoinsplit))
    (pk sig : Option Bytes) (t : SproutTx) (h : SproutTx.make E v ins outs lt js pk sig = .ok t) :
    E.net.isZcash = true ∧ E.net.isSprout = true ∧ t.txJoinsplits.length ≤ 5 ∧ t.bytes.length ≤ 100000 ∧ t.lockTime.length = 4 ∧
    ((t.version = [1, 0, 0, 0] ∧ t.txIns ≠ [] ∧ t.txJoinsplits = []) ∨
      (t.version = [2, 0, 0, 0] ∧ (∃ p, t.joinsplitPubkey = some p ∧ p.length = 32) ∧
        ∃ s, t.joinsplitSig = some s ∧ (s = [] ∨ s.length = 64))) ∧
    t.version = v ∧ t.txIns = ins ∧ t.txOuts = outs ∧ t.lockTime = lt ∧ js = some t.txJoinsplits := by
  obtain ⟨⟨zc, sp, v4, lt4, ver, li, lo, size⟩, rfl⟩ := SproutTx.make_iff.1 h
  rcases ver with ⟨rfl, rfl, hi⟩ | ⟨rfl, ⟨l, rfl, h5⟩, ⟨p, rfl, hp⟩, s, rfl, hs⟩
  · exact ⟨zc, sp, by simp [sproutObj], size, lt4, .inl ⟨rfl, hi, rfl⟩, rfl, rfl, rfl, rfl, rfl⟩
  · exact ⟨zc, sp, h5, size, lt4, .inr ⟨rfl, ⟨p, rfl, hp⟩, s, rfl, hs⟩, rfl, rfl, rfl, rfl, rfl⟩

/-- C59: exactly which arguments `SproutTx` takes; with joinsplits and signature given, everything else is a ValueError. -/
theorem C59_sprout_exact (E : Env) (v : Bytes) (ins : List TxIn) (outs : List TxOut) (lt : Bytes) (js : List SproutJoinsplit)
    (pk : Option Bytes) (sig : Bytes) (C : Prop)
    (hC : C ↔ (E.net.isZcash = true ∧ E.net.isSprout = true ∧ lt.length = 4 ∧ ins.length < 2 ^ 64 ∧ outs.length < 2 ^ 64 ∧
      ((v = [1, 0, 0, 0] ∧ js = [] ∧ ins ≠ [] ∧
          (wireLegacy v (ins.map (·.bytes)) (outs.map (·.bytes)) lt).length ≤ 100000) ∨
        (v = [2, 0, 0, 0] ∧ js.length ≤ 5 ∧ (sig = [] ∨ sig.length = 64) ∧ ∃ p, pk = some p ∧ p.length = 32 ∧
          (wireLegacy v (ins.map (·.bytes)) (outs.map (·.bytes)) lt ++ vector (js.map (·.bytes)) ++ p ++ sig).length ≤ 100000)))) :
    (C → ∃ t, SproutTx.make E v ins outs lt (some js) pk (some sig) = .ok t) ∧
    (¬ C → SproutTx.make E v ins outs lt (some js) pk (some sig) = .error .valueError) := by
  rw [hC]
  constructor
  · rintro ⟨zc, sp, lt4, li, lo, ⟨rfl, rfl, hi, sz⟩ | ⟨rfl, h5, hs, p, rfl, hp, sz⟩⟩
    · refine ⟨_, SproutTx.make_iff.2 ⟨⟨zc, sp, rfl, lt4, .inl ⟨rfl, rfl, hi⟩, li, lo, ?_⟩, rfl⟩⟩
      rw [sproutBytes_v1 rfl]; exact sz
    · refine ⟨_, SproutTx.make_iff.2 ⟨⟨zc, sp, rfl, lt4, .inr ⟨rfl, ⟨_, rfl, h5⟩, ⟨_, rfl, hp⟩, _, rfl, hs⟩, li, lo, ?_⟩, rfl⟩⟩
      rw [sproutBytes_v2 rfl]
      simpa only [List.append_assoc, Option.getD_some] using sz
  · intro h
    rcases ve_cases (SproutTx.make_ve E v ins outs lt js pk sig) with e | ⟨t, e⟩
    · exact e
    · refine absurd ?_ h
      obtain ⟨⟨zc, sp, v4, lt4, ver, li, lo, size⟩, -⟩ := SproutTx.make_iff.1 e
      refine ⟨zc, sp, lt4, li, lo, ?_⟩
      rcases ver with ⟨rfl, hj, hi⟩ | ⟨rfl, ⟨l, hl, h5⟩, ⟨p, rfl, hp⟩, s, hs, hs'⟩
      · rw [sproutBytes_v1 rfl] at size
        exact .inl ⟨rfl, Option.some.inj hj, hi, size⟩
      · cases hl; cases hs
        rw [sproutBytes_v2 rfl] at size
        refine .inr ⟨rfl, h5, hs', p, rfl, hp, ?_⟩
        simpa only [List.append_assoc, Option.getD_some] using size

/-- C59 is false for Sprout: a version 2 transaction with neither inputs nor joinsplits can be built. -/
theorem C59_false_sprout : ∃ t : SproutTx, t.Built sproutEnv ∧ t.txIns = [] ∧ t.txJoinsplits = [] := by
  refine ⟨sproutObj sproutEnv v2 [] [] [0, 0, 0, 0] [] (some (List.replicate 32 9)) (some []), ?_, rfl, rfl⟩
  refine ⟨v2, [], [], [0, 0, 0, 0], some [], some (List.replicate 32 9), some [], by simp, by simp, by simp, ?_⟩
  refine SproutTx.make_iff.2 ⟨⟨by decide, by decide, rfl, rfl, .inr ⟨rfl, ⟨_, rfl, by decide⟩, ⟨_, rfl, List.length_replicate⟩,
      _, rfl, .inl rfl⟩, by decide, by decide, ?_⟩, rfl⟩
  rw [sproutBytes_v2 rfl]
  simp [wireLegacy, vector, compactSize_0]

/-- C59: what every constructed `OverwinterTx` satisfies. -/
theorem C59_overwinter (E : Env) (ins : List TxIn) (outs : List TxOut) (lt ex : Bytes) (js : List SproutJoinsplit)
    (pk sig : Option Bytes) (t : OverwinterTx) (h : OverwinterTx.make E ins outs lt ex js pk sig = .ok t) :
    E.net.isZcash = true ∧ E.net.isOverwinter = true ∧ t.txJoinsplits.length ≤ 5 ∧ t.bytes.length ≤ 100000 ∧ t.lockTime.length = 4 ∧
    t.expiryHeight.length = 4 ∧ leToNat t.expiryHeight ≤ 499999999 ∧ (t.txIns ≠ [] ∨ t.txJoinsplits ≠ []) ∧
    (t.txJoinsplits ≠ [] → (∃ p, t.joinsplitPubkey = some p ∧ p.length = 32) ∧ ∃ s, t.joinsplitSig = some s ∧ s.length = 64) ∧
    t.txIns = ins ∧ t.txOuts = outs ∧ t.lockTime = lt ∧ t.expiryHeight = ex ∧ t.txJoinsplits = js := by
  obtain ⟨⟨zc, ow, lt4, ex4, expiry, js5, keys, some, li, lo, size⟩, rfl⟩ := OverwinterTx.make_iff.1 h
  refine ⟨zc, ow, js5, size, lt4, ex4, expiry, ?_, ?_, rfl, rfl, rfl, rfl, rfl⟩
  · by_cases hi : ins = []
    · exact .inr fun hj => some ⟨hj, hi⟩
    · exact .inl hi
  · intro hj
    have hj' : js ≠ [] := hj
    obtain ⟨⟨p, rfl, hp⟩, s, rfl, hs⟩ := keys hj'
    exact ⟨⟨p, by simp only [overObj]; rw [if_pos hj'], hp⟩, s, by simp only [overObj]; rw [if_pos hj'], hs⟩

/-- C59: exactly which arguments `OverwinterTx` takes; everything else is a ValueError. -/
theorem C59_overwinter_exact (E : Env) (ins : List TxIn) (outs : List TxOut) (lt ex : Bytes) (js : List SproutJoinsplit)
    (pk sig : Option Bytes) (C : Prop)
    (hC : C ↔ (E.net.isZcash = true ∧ E.net.isOverwinter = true ∧ lt.length = 4 ∧ ex.length = 4 ∧ leToNat ex ≤ 499999999 ∧ js.length ≤ 5 ∧
      (js ≠ [] → (∃ p, pk = some p ∧ p.length = 32) ∧ ∃ s, sig = some s ∧ s.length = 64) ∧ (js ≠ [] ∨ ins ≠ []) ∧
      ins.length < 2 ^ 64 ∧ outs.length < 2 ^ 64 ∧
      (wireOverwinter (ins.map (·.bytes)) (outs.map (·.bytes)) lt ex (js.map (·.bytes)) (pk.getD []) (sig.getD [])).length ≤ 100000)) :
    (C → ∃ t, OverwinterTx.make E ins outs lt ex js pk sig = .ok t) ∧
    (¬ C → OverwinterTx.make E ins outs lt ex js pk sig = .error .valueError) := by
  rw [hC]
  constructor
  · rintro ⟨zc, ow, lt4, ex4, expiry, js5, keys, some, li, lo, size⟩
    exact ⟨_, OverwinterTx.make_iff.2 ⟨⟨zc, ow, lt4, ex4, expiry, js5, keys, fun ⟨a, b⟩ => some.elim (· a) (· b), li, lo, size⟩, rfl⟩⟩
  · intro h
    rcases ve_cases (OverwinterTx.make_ve E ins outs lt ex js pk sig) with e | ⟨t, e⟩
    · exact e
    · refine absurd ?_ h
      obtain ⟨⟨zc, ow, lt4, ex4, expiry, js5, keys, some, li, lo, size⟩, -⟩ := OverwinterTx.make_iff.1 e
      refine ⟨zc, ow, lt4, ex4, expiry, js5, keys, ?_, li, lo, size⟩
      by_cases hj : js = []
      · exact .inr fun hi => some ⟨hj, hi⟩
      · exact .inl hj

/-- C59: what every constructed `SaplingTx` satisfies. -/
theorem C59_sapling (E : Env) (ins : List TxIn) (outs : List TxOut) (lt ex vb : Bytes) (ss : List SaplingShieldedSpend)
    (so : List SaplingShieldedOutput) (js : List SaplingJoinsplit) (pk sig bs : Option Bytes) (t : SaplingTx)
    (h : SaplingTx.make E ins outs lt ex vb ss so js pk sig bs = .ok t) :
    E.net.isZcash = true ∧ E.net.isSapling = true ∧ t.txJoinsplits.length ≤ 5 ∧ t.bytes.length ≤ 100000 ∧ t.lockTime.length = 4 ∧
    t.expiryHeight.length = 4 ∧ leToNat t.expiryHeight ≤ 499999999 ∧ t.valueBalance.length = 8 ∧
    (t.txIns ≠ [] ∨ t.txJoinsplits ≠ [] ∨ t.txShieldedSpends ≠ []) ∧
    (t.txShieldedSpends = [] → t.txShieldedOutputs = [] → t.valueBalance = [0, 0, 0, 0, 0, 0, 0, 0]) ∧
    (t.txShieldedSpends ≠ [] ∨ t.txShieldedOutputs ≠ [] → ∃ s, t.bindingSig = some s ∧ s.length = 64) ∧
    (t.txJoinsplits ≠ [] → (∃ p, t.joinsplitPubkey = some p ∧ p.length = 32) ∧ ∃ s, t.joinsplitSig = some s ∧ s.length = 64) ∧
    t.txIns = ins ∧ t.txOuts = outs ∧ t.lockTime = lt ∧ t.expiryHeight = ex ∧ t.valueBalance = vb ∧ t.txShieldedSpends = ss ∧
    t.txShieldedOutputs = so ∧ t.txJoinsplits = js := by
  obtain ⟨⟨zc, sp, lt4, ex4, vb8, expiry, balance, bs64, binding, js5, keys, some, li, lo, ls, lso, size⟩, rfl⟩ := SaplingTx.make_iff.1 h
  refine ⟨zc, sp, js5, size, lt4, ex4, expiry, vb8, ?_, balance, ?_, ?_, rfl, rfl, rfl, rfl, rfl, rfl, rfl, rfl⟩
  · by_cases hi : ins = []
    · by_cases hj : js = []
      · exact .inr (.inr fun hs => some ⟨hj, hi, hs⟩)
      · exact .inr (.inl hj)
    · exact .inl hi
  · intro hb
    have hb' : ss ≠ [] ∨ so ≠ [] := hb
    obtain ⟨s, rfl⟩ := binding hb'
    refine ⟨s, ?_, bs64 s rfl⟩
    simp only [saplingObj]
    rw [if_pos hb']
  · intro hj
    have hj' : js ≠ [] := hj
    obtain ⟨⟨p, rfl, hp⟩, s, rfl, hs⟩ := keys hj'
    exact ⟨⟨p, by simp only [saplingObj]; rw [if_pos hj'], hp⟩, s, by simp only [saplingObj]; rw [if_pos hj'], hs⟩

/-- C59: exactly which arguments `SaplingTx` takes; with a binding signature given when there are shielded parts, everything else is
a ValueError. -/
theorem C59_sapling_exact (E : Env) (ins : List TxIn) (outs : List TxOut) (lt ex vb : Bytes) (ss : List SaplingShieldedSpend)
    (so : List SaplingShieldedOutput) (js : List SaplingJoinsplit) (pk sig bs : Option Bytes)
    (hb : ss ≠ [] ∨ so ≠ [] → bs ≠ none) (C : Prop)
    (hC : C ↔ (E.net.isZcash = true ∧ E.net.isSapling = true ∧ lt.length = 4 ∧ ex.length = 4 ∧ vb.length = 8 ∧
      leToNat ex ≤ 499999999 ∧ (ss = [] → so = [] → vb = [0, 0, 0, 0, 0, 0, 0, 0]) ∧ (∀ s, bs = some s → s.length = 64) ∧ js.length ≤ 5 ∧
      (js ≠ [] → (∃ p, pk = some p ∧ p.length = 32) ∧ ∃ s, sig = some s ∧ s.length = 64) ∧ (js ≠ [] ∨ ins ≠ [] ∨ ss ≠ []) ∧
      ins.length < 2 ^ 64 ∧ outs.length < 2 ^ 64 ∧ ss.length < 2 ^ 64 ∧ so.length < 2 ^ 64 ∧
      (wireSapling (ins.map (·.bytes)) (outs.map (·.bytes)) lt ex vb (ss.map (·.bytes)) (so.map (·.bytes)) (js.map (·.bytes))
        (pk.getD []) (sig.getD []) (bs.getD [])).length ≤ 100000)) :
    (C → ∃ t, SaplingTx.make E ins outs lt ex vb ss so js pk sig bs = .ok t) ∧
    (¬ C → SaplingTx.make E ins outs lt ex vb ss so js pk sig bs = .error .valueError) := by
  have hb' : ss ≠ [] ∨ so ≠ [] → ∃ s, bs = some s := fun h => by
    cases hbs : bs with
    | none => exact absurd hbs (hb h)
    | some s => exact ⟨s, rfl⟩
  rw [hC]
  constructor
  · rintro ⟨zc, sp, lt4, ex4, vb8, expiry, bal, b64, js5, keys, some, li, lo, ls, lso, size⟩
    exact ⟨_, SaplingTx.make_iff.2 ⟨⟨zc, sp, lt4, ex4, vb8, expiry, bal, b64, hb', js5, keys,
      fun ⟨a, b, c⟩ => some.elim (· a) (fun x => x.elim (· b) (· c)), li, lo, ls, lso, size⟩, rfl⟩⟩
  · intro h
    rcases ve_cases (SaplingTx.make_ve E ins outs lt ex vb ss so js pk sig bs hb') with e | ⟨t, e⟩
    · exact e
    · refine absurd ?_ h
      obtain ⟨⟨zc, sp, lt4, ex4, vb8, expiry, bal, b64, _, js5, keys, some, li, lo, ls, lso, size⟩, -⟩ := SaplingTx.make_iff.1 e
      refine ⟨zc, sp, lt4, ex4, vb8, expiry, bal, b64, js5, keys, ?_, li, lo, ls, lso, size⟩
      by_cases hj : js = []
      · by_cases hi : ins = []
        · exact .inr (.inr fun hs => some ⟨hj, hi, hs⟩)
        · exact .inr (.inl hi)
      · exact .inl hj

/-- The tests pass for transactions with every kind of part. -/
example : (∃ t, SproutTx.make sproutEnv v2 [exIn] [exOut, exOut] [0, 0, 0, 0] (some [exSproutJs]) (some (List.replicate 32 9))
      (some (List.replicate 64 8)) = .ok t) ∧
    (∃ ins outs lt ex js pk sig, OverwinterTx.make overEnv ins outs lt ex js pk sig = .ok (exOver 3)) ∧
    (∃ ins outs lt ex vb ss so js pk sig bs, SaplingTx.make sapEnv ins outs lt ex vb ss so js pk sig bs = .ok (exSap 3) ∧ ss ≠ [] ∧ js ≠ []) := by
  refine ⟨?_, ?_, ?_⟩
  · have f := exSprout2_built.facts
    exact ⟨_, SproutTx.make_iff.2 ⟨f.args, rfl⟩⟩
  · have f := (exOver_built (n := 3) (by omega)).facts
    exact ⟨_, _, _, _, _, _, _, OverwinterTx.make_iff.2 ⟨f.args, f.obj⟩⟩
  · have f := (exSap_built (n := 3) (by omega)).facts
    exact ⟨_, _, _, _, _, _, _, _, _, _, _, SaplingTx.make_iff.2 ⟨f.args, f.obj⟩, List.cons_ne_nil _ _, List.cons_ne_nil _ _⟩

/-! ## C62 -/

/-- C62: the networks the three classes live on. -/
theorem C62_zcash_networks (net : Network) (h : net.Supported) :
    (net.isSprout = true ↔ net ∈ [zcashSproutMain, zcashSproutTest, zcashSproutRegtest]) ∧
    (net.isOverwinter = true ↔ net ∈ [zcashOverwinterMain, zcashOverwinterTest, zcashOverwinterRegtest]) ∧
    (net.isSapling = true ↔ net ∈ [zcashSaplingMain, zcashSaplingTest, zcashSaplingRegtest]) ∧
    (net.isZcash = true ↔ net.isSprout = true ∨ net.isOverwinter = true ∨ net.isSapling = true) := by
  revert net; unfold Network.Supported; decide +kernel

/-- C62: no Zcash component can be built or parsed on another network. -/
theorem C62_zcash_components (net : Network) (h : net.isZcash = false) :
    (∀ a b c d e f g i, SproutZkproof.make net a b c d e f g i = .error .valueError) ∧
    (∀ x, SproutZkproof.fromBytes net x = .error .valueError) ∧
    (∀ a b c d e f g i z k, SproutJoinsplit.make net a b c d e f g i z k = .error .valueError) ∧
    (∀ x, SproutJoinsplit.fromBytes net x = .error .valueError) ∧
    (∀ a b c, SaplingZkproof.make net a b c = .error .valueError) ∧
    (∀ x, SaplingZkproof.fromBytes net x = .error .valueError) ∧
    (∀ a b c d z e, SaplingShieldedSpend.make net a b c d z e = .error .valueError) ∧
    (∀ x, SaplingShieldedSpend.fromBytes net x = .error .valueError) ∧
    (∀ a b c d e z, SaplingShieldedOutput.make net a b c d e z = .error .valueError) ∧
    (∀ x, SaplingShieldedOutput.fromBytes net x = .error .valueError) ∧
    (∀ a b c d e f g i z k, SaplingJoinsplit.make net a b c d e f g i z k = .error .valueError) ∧
    (∀ x, SaplingJoinsplit.fromBytes net x = .error .valueError) := by
  have n : ¬ net.isZcash = true := by rw [h]; decide
  refine ⟨?_, ?_, ?_, ?_, ?_, ?_, ?_, ?_, ?_, ?_, ?_, ?_⟩
  · intro a b c d e f g i; exact (C54_sprout_zkproof_make net a b c d e f g i).2 fun q => n q.1
  · intro x; exact (C54_sprout_zkproof_parse net x).2 fun q => n q.1
  · intro a b c d e f g i z k; exact (C54_sprout_joinsplit_make net a b c d e f g i z k).2 fun q => n q.1
  · intro x; exact (C54_sprout_joinsplit_parse net x).2 fun q => n q.1
  · intro a b c; exact (C54_sapling_zkproof_make net a b c).2 fun q => n q.1
  · intro x; exact (C54_sapling_zkproof_parse net x).2 fun q => n q.1
  · intro a b c d z e; exact (C54_shielded_spend_make net a b c d z e).2 fun q => n q.1
  · intro x; exact (C54_shielded_spend_parse net x).2 fun q => n q.1
  · intro a b c d e z; exact (C54_shielded_output_make net a b c d e z).2 fun q => n q.1
  · intro x; exact (C54_shielded_output_parse net x).2 fun q => n q.1
  · intro a b c d e f g i z k; exact (C54_sapling_joinsplit_make net a b c d e f g i z k).2 fun q => n q.1
  · intro x; exact (C54_sapling_joinsplit_parse net x).2 fun q => n q.1

/-- C62: the transaction classes need their own network; every attempt elsewhere is a ValueError. -/
theorem C62_zcash_txs (E : Env) :
    (E.net.isZcash = false ∨ E.net.isSprout = false → ∀ v ins outs lt js pk sig,
      SproutTx.make E v ins outs lt js pk sig = .error .valueError) ∧
    (E.net.isZcash = false ∨ E.net.isOverwinter = false → ∀ ins outs lt ex js pk sig,
      OverwinterTx.make E ins outs lt ex js pk sig = .error .valueError) ∧
    (E.net.isZcash = false ∨ E.net.isSapling = false → ∀ ins outs lt ex vb ss so js pk sig bs,
      SaplingTx.make E ins outs lt ex vb ss so js pk sig bs = .error .valueError) := by
  refine ⟨?_, ?_, ?_⟩
  · intro h v ins outs lt js pk sig
    unfold SproutTx.make zcashGate
    simp only [check_bind]
    rcases h with h | h
    · rw [if_neg (by rw [h]; decide)]
    · split
      · rw [if_neg (by rw [h]; decide)]
      · rfl
  · intro h ins outs lt ex js pk sig
    unfold OverwinterTx.make zcashGate
    simp only [check_bind]
    rcases h with h | h
    · rw [if_neg (by rw [h]; decide)]
    · split
      · rw [if_neg (by rw [h]; decide)]
      · rfl
  · intro h ins outs lt ex vb ss so js pk sig bs
    unfold SaplingTx.make zcashGate
    simp only [check_bind]
    rcases h with h | h
    · rw [if_neg (by rw [h]; decide)]
    · split
      · rw [if_neg (by rw [h]; decide)]
      · rfl

example : bitcoinMain.isZcash = false ∧ zcashSaplingMain.isSprout = false ∧ zcashSaplingMain.isZcash = true := by decide +kernel

/-! ## C75 -/

/-- A Sprout or Sapling JoinSplit description on the wire (protocol specification, section 7.2). -/
def wireJoinsplit (vpubOld vpubNew anchor nullifiers commitments ephemeralKey randomSeed vmacs zkproof encCiphertexts : Bytes) : Bytes :=
  vpubOld ++ vpubNew ++ anchor ++ nullifiers ++ commitments ++ ephemeralKey ++ randomSeed ++ vmacs ++ zkproof ++ encCiphertexts

theorem js_wire {net : Network} {js : List SproutJoinsplit} (h : ∀ j ∈ js, j.Built net) :
    js.map (·.bytes) = js.map fun j => wireJoinsplit j.vpubOld j.vpubNew j.anchor j.nullifiers j.commitments j.ephemeralKey j.randomSeed
      j.vmacs j.zkproof.bytes j.encodedNotes := by
  apply List.map_congr_left
  intro j hj
  obtain ⟨_, _, _, _, _, _, _, _, _, _, _, e⟩ := h j hj
  obtain ⟨_, _, _, rfl⟩ := SproutJoinsplit.make_iff.1 e
  rfl

theorem sjs_wire {net : Network} {js : List SaplingJoinsplit} (h : ∀ j ∈ js, j.Built net) :
    js.map (·.bytes) = js.map fun j => wireJoinsplit j.vpubOld j.vpubNew j.anchor j.nullifiers j.commitments j.ephemeralKey j.randomSeed
      j.vmacs j.zkproof.bytes j.encodedNotes := by
  apply List.map_congr_left
  intro j hj
  obtain ⟨_, _, _, _, _, _, _, _, _, _, _, e⟩ := h j hj
  obtain ⟨_, _, _, rfl⟩ := SaplingJoinsplit.make_iff.1 e
  rfl

/-- C75: an Overwinter transaction has the bytes of the protocol specification, and its id is their double hash. -/
theorem C75_overwinter (E : Env) (t : OverwinterTx) (h : t.Built E) :
    t.bytes = wireOverwinter (t.txIns.map fun i => wireIn i.outpoint.txId i.outpoint.index i.scriptSig i.sequence)
      (t.txOuts.map fun o => wireOut o.value o.outputScript) t.lockTime t.expiryHeight
      (t.txJoinsplits.map fun j => wireJoinsplit j.vpubOld j.vpubNew j.anchor j.nullifiers j.commitments j.ephemeralKey j.randomSeed
        j.vmacs j.zkproof.bytes j.encodedNotes) (t.joinsplitPubkey.getD []) (t.joinsplitSig.getD []) ∧
    t.txIdLe = E.hash256 t.bytes ∧ t.txId = t.txIdLe.reverse := by
  have f := h.facts
  have e1 := congrArg OverwinterTx.txIdLe f.obj
  have e2 := congrArg OverwinterTx.txId f.obj
  simp only [overObj, ← f.bytes] at e1 e2
  refine ⟨?_, e1, by rw [e2, e1]⟩
  rw [f.bytes, ins_wire f.ins, outs_wire' f.outs, js_wire f.js]

/-- C75: a Sapling transaction has the bytes of the protocol specification, and its id is their double hash. -/
theorem C75_sapling (E : Env) (t : SaplingTx) (h : t.Built E) :
    t.bytes = wireSapling (t.txIns.map fun i => wireIn i.outpoint.txId i.outpoint.index i.scriptSig i.sequence)
      (t.txOuts.map fun o => wireOut o.value o.outputScript) t.lockTime t.expiryHeight t.valueBalance
      (t.txShieldedSpends.map fun s => s.cv ++ s.anchor ++ s.nullifier ++ s.rk ++ s.zkproof.bytes ++ s.spendAuthSig)
      (t.txShieldedOutputs.map fun o => o.cv ++ o.cmu ++ o.ephemeralKey ++ o.encCiphertext ++ o.outCiphertext ++ o.zkproof.bytes)
      (t.txJoinsplits.map fun j => wireJoinsplit j.vpubOld j.vpubNew j.anchor j.nullifiers j.commitments j.ephemeralKey j.randomSeed
        j.vmacs j.zkproof.bytes j.encodedNotes) (t.joinsplitPubkey.getD []) (t.joinsplitSig.getD []) (t.bindingSig.getD []) ∧
    t.txIdLe = E.hash256 t.bytes ∧ t.txId = t.txIdLe.reverse := by
  have f := h.facts
  have e1 := congrArg SaplingTx.txIdLe f.obj
  have e2 := congrArg SaplingTx.txId f.obj
  simp only [saplingObj, ← f.bytes] at e1 e2
  refine ⟨?_, e1, by rw [e2, e1]⟩
  have hs : t.txShieldedSpends.map (·.bytes) =
      t.txShieldedSpends.map fun s => s.cv ++ s.anchor ++ s.nullifier ++ s.rk ++ s.zkproof.bytes ++ s.spendAuthSig := by
    apply List.map_congr_left
    intro j hj
    obtain ⟨_, _, _, _, _, _, _, e⟩ := f.ss j hj
    obtain ⟨_, _, _, _, _, _, rfl⟩ := SaplingShieldedSpend.make_iff.1 e
    rfl
  have ho : t.txShieldedOutputs.map (·.bytes) =
      t.txShieldedOutputs.map fun o => o.cv ++ o.cmu ++ o.ephemeralKey ++ o.encCiphertext ++ o.outCiphertext ++ o.zkproof.bytes := by
    apply List.map_congr_left
    intro j hj
    obtain ⟨_, _, _, _, _, _, _, e⟩ := f.so j hj
    obtain ⟨_, _, _, _, _, _, rfl⟩ := SaplingShieldedOutput.make_iff.1 e
    rfl
  rw [f.bytes, saplingBytes, ins_wire f.ins, outs_wire' f.outs, sjs_wire f.js, hs, ho]

/-- C75 for Sprout: version 1, and version 2 with joinsplits. -/
theorem C75_sprout_partial (E : Env) (t : SproutTx) (h : t.Built E) (hj : t.version = [1, 0, 0, 0] ∨ t.txJoinsplits ≠ []) :
    t.bytes = wireSprout t.version (t.txIns.map fun i => wireIn i.outpoint.txId i.outpoint.index i.scriptSig i.sequence)
      (t.txOuts.map fun o => wireOut o.value o.outputScript) t.lockTime
      (t.txJoinsplits.map fun j => wireJoinsplit j.vpubOld j.vpubNew j.anchor j.nullifiers j.commitments j.ephemeralKey j.randomSeed
        j.vmacs j.zkproof.bytes j.encodedNotes) (t.joinsplitPubkey.getD []) (t.joinsplitSig.getD []) ∧
    t.txIdLe = E.hash256 t.bytes ∧ t.txId = t.txIdLe.reverse := by
  have f := h.facts
  have e1 := congrArg SproutTx.txIdLe f.obj
  have e2 := congrArg SproutTx.txId f.obj
  simp only [sproutObj, ← f.bytes] at e1 e2
  refine ⟨?_, e1, by rw [e2, e1]⟩
  rw [f.bytes, ins_wire f.ins, outs_wire' f.outs, ← js_wire f.js]
  unfold wireSprout sproutBytes wireJoinsplits
  rcases hj with hj | hj
  · rw [hj]; rfl
  · rw [if_neg (c := List.map (fun x => x.bytes) t.txJoinsplits = []) (by simpa using hj)]

/-- C75 is false for version 2 transactions without joinsplits: key and signature follow the empty vector although the protocol has
neither there. -/
theorem C75_false_sprout (E : Env) (t : SproutTx) (h : t.Built E) (hv : t.version = [2, 0, 0, 0]) (hj : t.txJoinsplits = []) :
    t.bytes = wireSprout t.version (t.txIns.map fun i => wireIn i.outpoint.txId i.outpoint.index i.scriptSig i.sequence)
      (t.txOuts.map fun o => wireOut o.value o.outputScript) t.lockTime [] (t.joinsplitPubkey.getD []) (t.joinsplitSig.getD [])
      ++ (t.joinsplitPubkey.getD [] ++ t.joinsplitSig.getD []) ∧
    t.bytes ≠ wireSprout t.version (t.txIns.map fun i => wireIn i.outpoint.txId i.outpoint.index i.scriptSig i.sequence)
      (t.txOuts.map fun o => wireOut o.value o.outputScript) t.lockTime [] (t.joinsplitPubkey.getD []) (t.joinsplitSig.getD []) := by
  have f := h.facts
  have key : t.bytes = wireSprout t.version (t.txIns.map fun i => wireIn i.outpoint.txId i.outpoint.index i.scriptSig i.sequence)
      (t.txOuts.map fun o => wireOut o.value o.outputScript) t.lockTime [] (t.joinsplitPubkey.getD []) (t.joinsplitSig.getD [])
      ++ (t.joinsplitPubkey.getD [] ++ t.joinsplitSig.getD []) := by
    rw [f.bytes, ins_wire f.ins, outs_wire' f.outs, hj, sproutBytes_v2 hv]
    unfold wireSprout wireJoinsplits
    rw [if_pos hv]
    simp
  refine ⟨key, fun e => ?_⟩
  have e := congrArg List.length (key.symm.trans e)
  rcases f.args.ver with ⟨e', -⟩ | ⟨-, -, ⟨p, hp, hp'⟩, -⟩
  · rw [hv] at e'; exact absurd e' (by decide)
  · rw [hp] at e
    simp only [List.length_append, Option.getD_some, hp'] at e
    omega

/-- A version 2 transaction without joinsplits. -/
def exSprout0 : SproutTx := sproutObj sproutEnv v2 [exIn] [exOut] [0, 0, 0, 0] [] (some (List.replicate 32 9)) (some [])

theorem exSprout0_built : exSprout0.Built sproutEnv := by
  refine ⟨v2, [exIn], [exOut], [0, 0, 0, 0], some [], some (List.replicate 32 9), some [], ?_, ?_, by simp, ?_⟩
  · simpa using exIn_built
  · simpa using exOut_built
  · refine SproutTx.make_iff.2 ⟨⟨by decide, by decide, rfl, rfl, .inr ⟨rfl, ⟨_, rfl, by decide⟩, ⟨_, rfl, List.length_replicate⟩,
      _, rfl, .inl rfl⟩, by decide, by decide, ?_⟩, rfl⟩
    rw [sproutBytes_v2 rfl]
    simp [wireLegacy, vector, compactSize_0, compactSize_1, exIn_len, exOut_len]

example : exSprout0.Built sproutEnv ∧ exSprout0.version = [2, 0, 0, 0] ∧ exSprout0.txJoinsplits = [] := ⟨exSprout0_built, rfl, rfl⟩
example : exSprout2.Built sproutEnv ∧ exSprout2.txJoinsplits ≠ [] ∧ (exOver 2).Built overEnv ∧ (exSap 2).Built sapEnv :=
  ⟨exSprout2_built, List.cons_ne_nil _ _, exOver_built (by omega), exSap_built (by omega)⟩

/-- C75: the derived attributes: `hsigs` and `primary_inputs` of each joinsplit, as the protocol specification (5.4.1.4 and 4.1) wants them. -/
theorem C75_derived (E : Env) :
    (∀ t : OverwinterTx, t.Built E → t.hsigs = t.txJoinsplits.map (fun j =>
        E.H.blake2b persHsig (j.randomSeed ++ j.nullifiers ++ t.joinsplitPubkey.getD [])) ∧
      t.primaryInputs = List.zipWith (fun (j : SproutJoinsplit) hs => j.anchor ++ j.nullifiers ++ j.commitments ++ j.vpubOld ++ j.vpubNew ++ hs ++ j.vmacs)
        t.txJoinsplits t.hsigs) ∧
    (∀ t : SaplingTx, t.Built E → t.hsigs = t.txJoinsplits.map (fun j =>
        E.H.blake2b persHsig (j.randomSeed ++ j.nullifiers ++ t.joinsplitPubkey.getD [])) ∧
      t.primaryInputs = List.zipWith (fun (j : SaplingJoinsplit) hs => j.anchor ++ j.nullifiers ++ j.commitments ++ j.vpubOld ++ j.vpubNew ++ hs ++ j.vmacs)
        t.txJoinsplits t.hsigs) ∧
    (∀ t : SproutTx, t.Built E → t.hsigs = t.txJoinsplits.map (fun j =>
        E.H.blake2b persHsig (j.randomSeed ++ j.nullifiers ++ t.joinsplitPubkey.getD [])) ∧
      t.primaryInputs = List.zipWith (fun (j : SproutJoinsplit) hs => j.anchor ++ j.nullifiers ++ j.commitments ++ j.vpubOld ++ j.vpubNew ++ hs ++ j.vmacs)
        t.txJoinsplits t.hsigs) := by
  have hp : ascii (pystr "ZcashComputehSig") = persHsig := by decide
  refine ⟨fun t h => ?_, fun t h => ?_, fun t h => ?_⟩
  · have f := h.facts
    have e1 := congrArg OverwinterTx.hsigs f.obj
    have e2 := congrArg OverwinterTx.primaryInputs f.obj
    simp only [overObj, hsigsOf, primaryOf, hsig, primaryInput, hp] at e1 e2
    exact ⟨e1, by rw [e2, e1, zipWith_map_self]⟩
  · have f := h.facts
    have e1 := congrArg SaplingTx.hsigs f.obj
    have e2 := congrArg SaplingTx.primaryInputs f.obj
    simp only [saplingObj, hsigsOfS, primaryOfS, hsig, primaryInput, hp] at e1 e2
    exact ⟨e1, by rw [e2, e1, zipWith_map_self]⟩
  · have f := h.facts
    have e1 := congrArg SproutTx.hsigs f.obj
    have e2 := congrArg SproutTx.primaryInputs f.obj
    simp only [sproutObj, hsigsOf, primaryOf, hsig, primaryInput, hp] at e1 e2
    rcases f.args.ver with ⟨hv, hj, -⟩ | ⟨hv, -⟩
    · have hj : t.txJoinsplits = [] := Option.some.inj hj
      rw [if_neg (by rw [hv]; decide)] at e1 e2
      rw [e1, e2, hj]; exact ⟨rfl, rfl⟩
    · rw [if_pos hv] at e1 e2
      exact ⟨e1, by rw [e2, e1, zipWith_map_self]⟩

/-! ### different transactions have different bytes -/

theorem ins_bytes_inj : ∀ {xs ys : List TxIn}, (∀ i ∈ xs, i.Built) → (∀ i ∈ ys, i.Built) → xs.map (·.bytes) = ys.map (·.bytes) →
    xs.map (fun i => (i.outpoint, i.scriptSig, i.sequence)) = ys.map (fun i => (i.outpoint, i.scriptSig, i.sequence))
  | [], [], _, _, _ => rfl
  | [], _ :: _, _, _, h => by simp at h
  | _ :: _, [], _, _, h => by simp at h
  | x :: xs, y :: ys, g, g', h => by
    simp only [List.map_cons, List.cons.injEq] at h ⊢
    obtain ⟨e1, e2, e3, _⟩ := TxIn.Built.inj (g x (by simp)) (g' y (by simp)) (r := []) (s := []) (by simpa using h.1)
    exact ⟨by rw [e1, e2, e3], ins_bytes_inj (fun i hi => g i (by simp [hi])) (fun i hi => g' i (by simp [hi])) h.2⟩

theorem mem_map_built {α : Type} {P : α → Prop} {g : α → Bytes} {l : List α} (hl : ∀ i ∈ l, P i) : ∀ x ∈ l.map g, ∃ i, P i ∧ x = g i := by
  intro x hx
  obtain ⟨i, h1, rfl⟩ := List.mem_map.1 hx
  exact ⟨i, hl i h1, rfl⟩

theorem mem_map_len {α : Type} {g : α → Bytes} {l : List α} {n : Nat} (hl : ∀ i ∈ l, (g i).length = n) : ∀ x ∈ l.map g, x.length = n := by
  intro x hx
  obtain ⟨i, h1, rfl⟩ := List.mem_map.1 hx
  exact hl i h1

theorem outs_bytes_inj {xs ys : List TxOut} (h : ∀ o ∈ xs, o.Built) (h' : ∀ o ∈ ys, o.Built) (e : xs.map (·.bytes) = ys.map (·.bytes)) : xs = ys :=
  map_bytes_inj (P := TxOut.Built) (f := (·.bytes)) (fun i j hi hj e => (hi.inj hj (r := []) (s := []) (by simpa using e)).1) h h' e

theorem js_bytes_inj {net : Network} {xs ys : List SproutJoinsplit} (h : ∀ o ∈ xs, o.Built net) (h' : ∀ o ∈ ys, o.Built net)
    (e : xs.map (·.bytes) = ys.map (·.bytes)) : xs = ys :=
  map_bytes_inj (P := SproutJoinsplit.Built net) (f := (·.bytes)) (fun i j hi hj e => by
    have a := SproutJoinsplit.fromBytes_bytes hi []
    have b := SproutJoinsplit.fromBytes_bytes hj []
    rw [e, b] at a; exact (Except.ok.inj a).symm) h h' e

theorem sjs_bytes_inj {net : Network} {xs ys : List SaplingJoinsplit} (h : ∀ o ∈ xs, o.Built net) (h' : ∀ o ∈ ys, o.Built net)
    (e : xs.map (·.bytes) = ys.map (·.bytes)) : xs = ys :=
  map_bytes_inj (P := SaplingJoinsplit.Built net) (f := (·.bytes)) (fun i j hi hj e => by
    have a := SaplingJoinsplit.fromBytes_bytes hi []
    have b := SaplingJoinsplit.fromBytes_bytes hj []
    rw [e, b] at a; exact (Except.ok.inj a).symm) h h' e

theorem spends_bytes_inj {net : Network} {xs ys : List SaplingShieldedSpend} (h : ∀ o ∈ xs, o.Built net) (h' : ∀ o ∈ ys, o.Built net)
    (e : xs.map (·.bytes) = ys.map (·.bytes)) : xs = ys :=
  map_bytes_inj (P := SaplingShieldedSpend.Built net) (f := (·.bytes)) (fun i j hi hj e => by
    have a := SaplingShieldedSpend.fromBytes_bytes hi []
    have b := SaplingShieldedSpend.fromBytes_bytes hj []
    rw [e, b] at a; exact (Except.ok.inj a).symm) h h' e

theorem souts_bytes_inj {net : Network} {xs ys : List SaplingShieldedOutput} (h : ∀ o ∈ xs, o.Built net) (h' : ∀ o ∈ ys, o.Built net)
    (e : xs.map (·.bytes) = ys.map (·.bytes)) : xs = ys :=
  map_bytes_inj (P := SaplingShieldedOutput.Built net) (f := (·.bytes)) (fun i j hi hj e => by
    have a := SaplingShieldedOutput.fromBytes_bytes hi []
    have b := SaplingShieldedOutput.fromBytes_bytes hj []
    rw [e, b] at a; exact (Except.ok.inj a).symm) h h' e

/-- C75: Overwinter transactions with the same bytes have the same fields. -/
theorem C75_overwinter_injective (E : Env) (t t' : OverwinterTx) (h : t.Built E) (h' : t'.Built E) (e : t.bytes = t'.bytes) :
    t.txIns.map (fun i => (i.outpoint, i.scriptSig, i.sequence)) = t'.txIns.map (fun i => (i.outpoint, i.scriptSig, i.sequence)) ∧
    t.txOuts = t'.txOuts ∧ t.lockTime = t'.lockTime ∧ t.expiryHeight = t'.expiryHeight ∧ t.txJoinsplits = t'.txJoinsplits ∧
    t.joinsplitPubkey = t'.joinsplitPubkey ∧ t.joinsplitSig = t'.joinsplitSig := by
  have f := h.facts
  have f' := h'.facts
  obtain ⟨zc, ow, lt4, ex4, expiry, js5, keys, some, li, lo, size⟩ := f.args
  obtain ⟨zc', ow', lt4', ex4', expiry', js5', keys', some', li', lo', size'⟩ := f'.args
  rw [f.bytes, f'.bytes, wireOverwinter_eq, wireOverwinter_eq] at e
  have e := List.append_cancel_left e
  obtain ⟨h1, e⟩ := vector_inj TxIn.selfDelim (mem_map_built f.ins) (mem_map_built f'.ins) (by simpa using li) (by simpa using li') e
  obtain ⟨h2, e⟩ := vector_inj TxOut.selfDelim (mem_map_built f.outs) (mem_map_built f'.outs) (by simpa using lo) (by simpa using lo') e
  obtain ⟨h3, e⟩ := List.append_inj e (by rw [lt4, lt4'])
  obtain ⟨h4, e⟩ := List.append_inj e (by rw [ex4, ex4'])
  unfold wireJoinsplits at e
  obtain ⟨h5, e⟩ := vector_inj (fixed_selfDelim 1802) (mem_map_len fun j hj => (f.js j hj).length) (mem_map_len fun j hj => (f'.js j hj).length)
    (by rw [List.length_map]; omega) (by rw [List.length_map]; omega) e
  have h6 := js_bytes_inj f.js f'.js h5
  refine ⟨ins_bytes_inj f.ins f'.ins h1, outs_bytes_inj f.outs f'.outs h2, h3, h4, h6, ?_⟩
  have o1 := congrArg OverwinterTx.joinsplitPubkey f.obj
  have o2 := congrArg OverwinterTx.joinsplitSig f.obj
  have o1' := congrArg OverwinterTx.joinsplitPubkey f'.obj
  have o2' := congrArg OverwinterTx.joinsplitSig f'.obj
  simp only [overObj] at o1 o2 o1' o2'
  by_cases hj : t.txJoinsplits = []
  · have hj' : t'.txJoinsplits = [] := by rw [← h6]; exact hj
    rw [if_neg (by simpa using hj)] at o1 o2
    rw [if_neg (by simpa using hj')] at o1' o2'
    rw [o1, o2, o1', o2']; exact ⟨rfl, rfl⟩
  · have hj' : t'.txJoinsplits ≠ [] := by rw [← h6]; exact hj
    obtain ⟨⟨p, ep, hp⟩, s, es, hs⟩ := keys hj
    obtain ⟨⟨p', ep', hp'⟩, s', es', hs'⟩ := keys' hj'
    rw [if_neg (by simpa using hj), if_neg (by simpa using hj'), ep, ep', es, es'] at e
    simp only [Option.getD_some] at e
    obtain ⟨g1, g2⟩ := List.append_inj e (by rw [hp, hp'])
    rw [ep, ep', es, es', g1, g2]; exact ⟨rfl, rfl⟩

/-- C75: Sapling transactions with the same bytes have the same fields. -/
theorem C75_sapling_injective (E : Env) (t t' : SaplingTx) (h : t.Built E) (h' : t'.Built E) (e : t.bytes = t'.bytes) :
    t.txIns.map (fun i => (i.outpoint, i.scriptSig, i.sequence)) = t'.txIns.map (fun i => (i.outpoint, i.scriptSig, i.sequence)) ∧
    t.txOuts = t'.txOuts ∧ t.lockTime = t'.lockTime ∧ t.expiryHeight = t'.expiryHeight ∧ t.valueBalance = t'.valueBalance ∧
    t.txShieldedSpends = t'.txShieldedSpends ∧ t.txShieldedOutputs = t'.txShieldedOutputs ∧ t.txJoinsplits = t'.txJoinsplits ∧
    t.joinsplitPubkey = t'.joinsplitPubkey ∧ t.joinsplitSig = t'.joinsplitSig ∧ t.bindingSig = t'.bindingSig := by
  have f := h.facts
  have f' := h'.facts
  obtain ⟨zc, sp, lt4, ex4, vb8, expiry, bal, b64, bind, js5, keys, some, li, lo, ls, lso, size⟩ := f.args
  obtain ⟨zc', sp', lt4', ex4', vb8', expiry', bal', b64', bind', js5', keys', some', li', lo', ls', lso', size'⟩ := f'.args
  rw [f.bytes, f'.bytes] at e
  unfold saplingBytes wireSapling at e
  simp only [List.append_assoc] at e
  have e := List.append_cancel_left e
  have e := List.append_cancel_left e
  obtain ⟨h1, e⟩ := vector_inj TxIn.selfDelim (mem_map_built f.ins) (mem_map_built f'.ins) (by simpa using li) (by simpa using li') e
  obtain ⟨h2, e⟩ := vector_inj TxOut.selfDelim (mem_map_built f.outs) (mem_map_built f'.outs) (by simpa using lo) (by simpa using lo') e
  obtain ⟨h3, e⟩ := List.append_inj e (by rw [lt4, lt4'])
  obtain ⟨h4, e⟩ := List.append_inj e (by rw [ex4, ex4'])
  obtain ⟨h4b, e⟩ := List.append_inj e (by rw [vb8, vb8'])
  obtain ⟨h7, e⟩ := vector_inj (fixed_selfDelim 384) (mem_map_len fun j hj => (f.ss j hj).length) (mem_map_len fun j hj => (f'.ss j hj).length)
    (by simpa using ls) (by simpa using ls') e
  obtain ⟨h8, e⟩ := vector_inj (fixed_selfDelim 948) (mem_map_len fun j hj => (f.so j hj).length) (mem_map_len fun j hj => (f'.so j hj).length)
    (by simpa using lso) (by simpa using lso') e
  unfold wireJoinsplits at e
  simp only [List.append_assoc] at e
  obtain ⟨h5, e⟩ := vector_inj (fixed_selfDelim 1698) (mem_map_len fun j hj => (f.js j hj).length) (mem_map_len fun j hj => (f'.js j hj).length)
    (by rw [List.length_map]; omega) (by rw [List.length_map]; omega) e
  have h6 := sjs_bytes_inj f.js f'.js h5
  have h7' := spends_bytes_inj f.ss f'.ss h7
  have h8' := souts_bytes_inj f.so f'.so h8
  refine ⟨ins_bytes_inj f.ins f'.ins h1, outs_bytes_inj f.outs f'.outs h2, h3, h4, h4b, h7', h8', h6, ?_⟩
  have o1 := congrArg SaplingTx.joinsplitPubkey f.obj
  have o2 := congrArg SaplingTx.joinsplitSig f.obj
  have o3 := congrArg SaplingTx.bindingSig f.obj
  have o1' := congrArg SaplingTx.joinsplitPubkey f'.obj
  have o2' := congrArg SaplingTx.joinsplitSig f'.obj
  have o3' := congrArg SaplingTx.bindingSig f'.obj
  simp only [saplingObj] at o1 o2 o3 o1' o2' o3'
  have hbind : (if t.txShieldedSpends.map (·.bytes) = [] ∧ t.txShieldedOutputs.map (·.bytes) = [] then [] else t.bindingSig.getD []) =
      (if t'.txShieldedSpends.map (·.bytes) = [] ∧ t'.txShieldedOutputs.map (·.bytes) = [] then [] else t'.bindingSig.getD []) →
      t.bindingSig = t'.bindingSig := by
    intro e
    by_cases hb : t.txShieldedSpends = [] ∧ t.txShieldedOutputs = []
    · have hb' : t'.txShieldedSpends = [] ∧ t'.txShieldedOutputs = [] := by rw [← h7', ← h8']; exact hb
      rw [if_neg (by simp [hb])] at o3
      rw [if_neg (by simp [hb'])] at o3'
      rw [o3, o3']
    · have hb1 : t.txShieldedSpends ≠ [] ∨ t.txShieldedOutputs ≠ [] := by
        by_cases hx : t.txShieldedSpends = []
        · exact .inr fun hy => hb ⟨hx, hy⟩
        · exact .inl hx
      obtain ⟨s, es⟩ := bind hb1
      obtain ⟨s', es'⟩ := bind' (by rw [← h7', ← h8']; exact hb1)
      rw [if_neg (by simpa using hb), if_neg (by rw [← h7', ← h8']; simpa using hb), es, es'] at e
      rw [es, es']; exact congrArg Option.some e
  by_cases hj : t.txJoinsplits = []
  · have hj' : t'.txJoinsplits = [] := by rw [← h6]; exact hj
    rw [if_neg (by simpa using hj)] at o1 o2
    rw [if_neg (by simpa using hj')] at o1' o2'
    rw [if_pos (c := t.txJoinsplits.map (fun x => x.bytes) = []) (by simpa using hj),
      if_pos (c := t'.txJoinsplits.map (fun x => x.bytes) = []) (by simpa using hj')] at e
    refine ⟨by rw [o1, o1'], by rw [o2, o2'], hbind ?_⟩
    simpa using e
  · have hj' : t'.txJoinsplits ≠ [] := by rw [← h6]; exact hj
    obtain ⟨⟨p, ep, hp⟩, s, es, hs⟩ := keys hj
    obtain ⟨⟨p', ep', hp'⟩, s', es', hs'⟩ := keys' hj'
    rw [if_neg (c := t.txJoinsplits.map (fun x => x.bytes) = []) (by simpa using hj),
      if_neg (c := t'.txJoinsplits.map (fun x => x.bytes) = []) (by simpa using hj'), ep, ep', es, es'] at e
    simp only [Option.getD_some, List.append_assoc] at e
    obtain ⟨g1, e⟩ := List.append_inj e (by rw [hp, hp'])
    obtain ⟨g2, e⟩ := List.append_inj e (by rw [hs, hs'])
    refine ⟨by rw [ep, ep', g1], by rw [es, es', g2], hbind e⟩

/-! ## C44 -/

/-- C44: copying a Zcash transaction without arguments gives an equal object and cannot fail. -/
theorem C44_copy_identity_zcash (E : Env) :
    (∀ t : SproutTx, t.Built E → t.copy E = .ok t) ∧ (∀ t : OverwinterTx, t.Built E → t.copy E = .ok t) ∧
    (∀ t : SaplingTx, t.Built E → t.copy E = .ok t) := by
  refine ⟨fun t h => ?_, fun t h => ?_, fun t h => ?_⟩
  · have f := h.facts
    unfold SproutTx.copy
    simp only [Option.getD_none, Option.orElse_none]
    exact SproutTx.make_iff.2 ⟨f.args, f.obj⟩
  · have f := h.facts
    unfold OverwinterTx.copy
    simp only [Option.getD_none, Option.orElse_none]
    exact OverwinterTx.make_iff.2 ⟨f.args, f.obj⟩
  · have f := h.facts
    unfold SaplingTx.copy
    simp only [Option.getD_none, Option.orElse_none]
    exact SaplingTx.make_iff.2 ⟨f.args, f.obj⟩

/-! ## C45 -/

theorem foldl_add_nat {α : Type} (f : α → Nat) (l : List α) (z : Nat) : l.foldl (fun s x => s + f x) z = z + (l.map f).sum := by
  induction l generalizing z with
  | nil => simp
  | cons x l ih => simp only [List.foldl_cons, List.map_cons, List.sum_cons, ih]; omega

theorem foldl_add_int {α : Type} (f : α → Nat) (l : List α) (z : Int) :
    l.foldl (fun s x => s + (f x : Int)) z = z + ((l.map f).sum : Nat) := by
  induction l generalizing z with
  | nil => simp
  | cons x l ih => simp only [List.foldl_cons, List.map_cons, List.sum_cons, ih]; omega

/-- C45: fees of Sprout and Overwinter transactions: joinsplits add `vpub_new` to the inputs and `vpub_old` to the outputs. -/
theorem C45_fee_sprout (t : SproutTx) (values : List Int) :
    t.calculateFee values + ((t.txOuts.map fun o => leToNat o.value).sum : Nat) + ((t.txJoinsplits.map fun j => leToNat j.vpubOld).sum : Nat) =
      values.sum + ((t.txJoinsplits.map fun j => leToNat j.vpubNew).sum : Nat) := by
  unfold SproutTx.calculateFee
  rw [foldl_add_nat (fun j : SproutJoinsplit => le2i j.vpubOld), foldl_add_int (fun j : SproutJoinsplit => le2i j.vpubNew)]
  simp only [le2i]
  omega

theorem C45_fee_overwinter (t : OverwinterTx) (values : List Int) :
    t.calculateFee values + ((t.txOuts.map fun o => leToNat o.value).sum : Nat) + ((t.txJoinsplits.map fun j => leToNat j.vpubOld).sum : Nat) =
      values.sum + ((t.txJoinsplits.map fun j => leToNat j.vpubNew).sum : Nat) := by
  unfold OverwinterTx.calculateFee
  rw [foldl_add_nat (fun j : SproutJoinsplit => le2i j.vpubOld), foldl_add_int (fun j : SproutJoinsplit => le2i j.vpubNew)]
  simp only [le2i]
  omega

/-- C45: fees of Sapling transactions: also the signed value balance. -/
theorem C45_fee_sapling (t : SaplingTx) (values : List Int) :
    t.calculateFee values + ((t.txOuts.map fun o => leToNat o.value).sum : Nat) + ((t.txJoinsplits.map fun j => leToNat j.vpubOld).sum : Nat) =
      values.sum + ((t.txJoinsplits.map fun j => leToNat j.vpubNew).sum : Nat) + leSignedValue t.valueBalance := by
  unfold SaplingTx.calculateFee
  rw [foldl_add_nat (fun j : SaplingJoinsplit => le2i j.vpubOld), foldl_add_int (fun j : SaplingJoinsplit => le2i j.vpubNew), le2iSigned,
    ← leSignedValue_eq]
  simp only [le2i]
  omega

/-- 1000 in; two outputs of 10^10; a joinsplit releasing 5; a balance of -3. -/
example : leSignedValue (exSap 2).valueBalance = -3 ∧ ((exSap 2).txJoinsplits.map fun j => leToNat j.vpubNew).sum = 5 := by
  constructor <;> decide

end Verif.Props
