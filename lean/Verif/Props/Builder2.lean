import Verif.Props.Builder
import Verif.Props.ZcashTx

/-! C69, C70: the builder on every network; script and output-script builders. -/

namespace Verif.Props

open Verif Spec Addresses Builder

/-! ### C69 -/

theorem i2leOpt_iff {n : Option Int} {k : Nat} {b : Bytes} : i2leOpt n k = .ok b ↔ ∃ m, n = some m ∧ i2lePadded m k = .ok b := by
  cases n <;> simp [i2leOpt]

theorem saplingNone_error (E : Env) (ex vb : Bytes) (s : Option (List SaplingShieldedSpend)) (o : Option (List SaplingShieldedOutput))
    (bs : Option Bytes) (t : SaplingTx) : saplingNone E ex vb s o bs ≠ .ok t := by
  intro h
  unfold saplingNone at h
  simp only [bind_ok_iff] at h
  obtain ⟨_, -, _, -, _, -, h⟩ := h
  split at h
  · simp only [bind_ok_iff] at h
    obtain ⟨_, -, h⟩ := h
    cases h
  · cases h

theorem makeSapling_iff {E : Env} {ins : List TxIn} {outs : List TxOut} {lt ex vb : Bytes} {ss : Option (List SaplingShieldedSpend)}
    {so : Option (List SaplingShieldedOutput)} {js : Option Joinsplits} {pk sig bs : Option Bytes} {t : SaplingTx} :
    makeSapling E ins outs lt ex vb ss so js pk sig bs = .ok t ↔ ∃ s o j j', ss = some s ∧ so = some o ∧ js = some j ∧
      asSapling j = .ok j' ∧ SaplingTx.make E ins outs lt ex vb s o j' pk sig bs = .ok t := by
  unfold makeSapling
  split
  · simp [bind_ok_iff]
  · rename_i hne
    constructor
    · intro h; exact absurd h (saplingNone_error _ _ _ _ _ _ _)
    · rintro ⟨s, o, j, j', rfl, rfl, rfl, -⟩
      exact absurd rfl (hne s o j rfl rfl)

theorem asSprout_iff {js : Joinsplits} {l : List SproutJoinsplit} : asSprout js = .ok l ↔ js = .sprout l ∨ (js = .sapling [] ∧ l = []) := by
  unfold asSprout
  split <;> simp [eq_comm]
theorem asSapling_iff {js : Joinsplits} {l : List SaplingJoinsplit} : asSapling js = .ok l ↔ js = .sapling l ∨ (js = .sprout [] ∧ l = []) := by
  unfold asSapling
  split <;> simp [eq_comm]

/-- **C69**: whatever `make_tx` builds is of the class of the network and has exactly the parts asked for, as integers in the
little-endian fields. -/
theorem C69_fields (E : Env) (hs : E.net.Supported) (v : Int) (ins : List TxIn) (outs : List TxOut) (lt : Int) (ex : Option Int) (vb : Int)
    (ss : Option (List SaplingShieldedSpend)) (so : Option (List SaplingShieldedOutput)) (ws : Option (List InputWitness))
    (js : Option Joinsplits) (pk sig bs : Option Bytes) (r : AnyTx) (h : makeTx E v ins outs lt ex vb ss so ws js pk sig bs = .ok r) :
    (∃ t, r = .std t ∧ E.net.isOverwinter = false ∧ E.net.isSapling = false ∧ Tx.make E t.version t.flag t.txIns t.txOuts t.txWitnesses t.lockTime = .ok t ∧
      t.txIns = ins ∧ t.txOuts = outs ∧ t.txWitnesses = ws ∧ t.flag = ws.map (fun _ => [0x00, 0x01]) ∧
      (leValue t.version : Int) = v ∧ (leValue t.lockTime : Int) = lt) ∨
    (∃ t, r = .overwinter t ∧ E.net.isOverwinter = true ∧ t.txIns = ins ∧ t.txOuts = outs ∧ (leValue t.lockTime : Int) = lt ∧
      some (leValue t.expiryHeight : Int) = ex ∧ (t.txJoinsplits = [] ∨ js = some (.sprout t.txJoinsplits)) ∧
      (t.txJoinsplits ≠ [] → t.joinsplitPubkey = pk ∧ t.joinsplitSig = sig)) ∨
    (∃ t, r = .sapling t ∧ E.net.isSapling = true ∧ t.txIns = ins ∧ t.txOuts = outs ∧ (leValue t.lockTime : Int) = lt ∧
      some (leValue t.expiryHeight : Int) = ex ∧ (leValue t.valueBalance : Int) = vb ∧ some t.txShieldedSpends = ss ∧
      some t.txShieldedOutputs = so ∧ (t.txJoinsplits = [] ∨ js = some (.sapling t.txJoinsplits)) ∧
      (t.txJoinsplits ≠ [] → t.joinsplitPubkey = pk ∧ t.joinsplitSig = sig) ∧
      (t.txShieldedSpends ≠ [] ∨ t.txShieldedOutputs ≠ [] → t.bindingSig = bs)) := by
  unfold makeTx at h
  split at h
  · simp only [bind_ok_iff] at h
    obtain ⟨_, -, h⟩ := h
    cases h
  split at h
  · rename_i how
    simp only [bind_ok_iff, i2leOpt_iff, OverwinterTx.make_iff] at h
    obtain ⟨l, hl, e, ⟨m, hm, he⟩, j, hj, t, ⟨ha, ht⟩, h⟩ := h
    cases h
    right; left
    refine ⟨t, rfl, how, by rw [ht]; rfl, by rw [ht]; rfl, by rw [ht]; exact (i2le_iff.1 hl).2, ?_, ?_, ?_⟩
    · rw [ht, hm]; exact congrArg some (i2le_iff.1 he).2
    · have e1 : t.txJoinsplits = j := by rw [ht]; rfl
      rw [e1]
      rcases asSprout_iff.1 hj with hj | ⟨-, hj⟩
      · cases js with
        | none => left; cases hj; rfl
        | some x => right; rw [show x = .sprout j from hj]
      · exact .inl hj
    · intro hne
      have e1 : t.txJoinsplits = j := by rw [ht]; rfl
      rw [e1] at hne
      rw [ht]
      simp [overObj, hne]
  split at h
  · rename_i how hsap
    simp only [bind_ok_iff, i2leOpt_iff, makeSapling_iff, SaplingTx.make_iff] at h
    obtain ⟨l, hl, e, ⟨m, hm, he⟩, b, hb, t, ⟨s, o, j, j', h1, h2, h3, h4, ha, ht⟩, h⟩ := h
    cases h
    right; right
    refine ⟨t, rfl, hsap, by rw [ht]; rfl, by rw [ht]; rfl, by rw [ht]; exact (i2le_iff.1 hl).2, ?_, ?_, ?_, ?_, ?_, ?_, ?_⟩
    · rw [ht, hm]; exact congrArg some (i2le_iff.1 he).2
    · rw [ht]; exact (i2le_iff.1 hb).2
    · rw [ht, h1]; rfl
    · rw [ht, h2]; rfl
    · have e1 : t.txJoinsplits = j' := by rw [ht]; rfl
      rw [e1]
      rcases asSapling_iff.1 h4 with hj | ⟨-, hj⟩
      · right; rw [h3, hj]
      · exact .inl hj
    · intro hne
      have e1 : t.txJoinsplits = j' := by rw [ht]; rfl
      rw [e1] at hne
      rw [ht]
      simp [saplingObj, hne]
    · intro hne
      have e1 : t.txShieldedSpends = s ∧ t.txShieldedOutputs = o := by rw [ht]; exact ⟨rfl, rfl⟩
      rw [e1.1, e1.2] at hne
      rw [ht]
      simp only [saplingObj]
      rcases hne with h | h <;> simp [h]
  · rename_i how hsap
    simp only [bind_ok_iff] at h
    obtain ⟨b, hb, l, hl, t, ht, h⟩ := h
    cases h
    left
    have hf := (Tx.make_iff.1 ht).2
    refine ⟨t, rfl, by simpa using how, by simpa using hsap, ?_, by rw [hf]; rfl, by rw [hf]; rfl, by rw [hf]; rfl, ?_, by rw [hf]; exact (i2le_iff.1 hb).2,
      by rw [hf]; exact (i2le_iff.1 hl).2⟩
    · conv => lhs; rw [hf]
      exact ht
    · rw [hf, (family hs).2.2.2.2]
      cases ws <;> rfl

/-- **C69**: every network that is neither Zcash's nor Decred's: `make_tx` builds a transaction from any inputs and outputs,
with or without witnesses. -/
theorem C69_bitcoin (E : Env) (hs : E.net.Supported) (hz : E.net.isZcash = false) (v lt : Int) (hv : U32 v) (hl : U32 lt)
    (ins : List TxIn) (outs : List TxOut) (hi : ins.length < 2 ^ 64) (ho : outs.length < 2 ^ 64) (hi0 : ins ≠ []) (ho0 : outs ≠ [])
    (ws : Option (List InputWitness)) (hw : ∀ l, ws = some l → l = [] ∨ l.length = ins.length) :
    ∃ t, makeTx E v ins outs lt (txWitnesses := ws) = .ok (.std t) := by
  obtain ⟨h1, h2, h3⟩ := (family hs).2.2.2.1 hz
  obtain ⟨b, a, b4, c⟩ := u32_i2le hv
  obtain ⟨l, a', b4', c'⟩ := u32_i2le hl
  obtain ⟨t, ht, -⟩ := (C42_accepts E hs b (if ws.isSome then some [0, 1] else none) ins outs ws l hi ho).1 ⟨b4, b4', by split <;> simp, hi0, ho0, by
    intro l' h hne
    refine ⟨by simp [h], ?_⟩
    rcases hw l' h with h | h
    · exact absurd h hne
    · exact h⟩
  refine ⟨t, ?_⟩
  unfold makeTx
  rw [h1, h2, h3, (family hs).2.2.2.2]
  simp only [a, a', ok_bind, ht]
  rfl

example : bitcoinMain.isZcash = false ∧ U32 2 ∧ U32 0 := by unfold U32; decide

/-- **C69**: Zcash Overwinter: every transaction the class allows can be made with `make_tx` from its fields as integers. -/
theorem C69_overwinter (E : Env) (hs : E.net.Supported) (ins : List TxIn) (outs : List TxOut) (lt ex : Bytes) (js : List SproutJoinsplit)
    (pk sig : Option Bytes) (t : OverwinterTx) (h : OverwinterTx.make E ins outs lt ex js pk sig = .ok t) (v vb : Int)
    (ss : Option (List SaplingShieldedSpend)) (so : Option (List SaplingShieldedOutput)) (ws : Option (List InputWitness)) (bs : Option Bytes) :
    makeTx E v ins outs (leValue lt) (some (leValue ex)) vb ss so ws (some (.sprout js)) pk sig bs = .ok (.overwinter t) := by
  have ha := (OverwinterTx.make_iff.1 h).1
  have e1 : i2lePadded (leValue lt) 4 = .ok lt := i2le_iff.2 ⟨ha.lt4, rfl⟩
  have e2 : i2lePadded (leValue ex) 4 = .ok ex := i2le_iff.2 ⟨ha.ex4, rfl⟩
  have hsp : E.net.isSprout = false := by
    cases hh : E.net.isSprout
    · rfl
    · have := ((family hs).2.1 hh).1
      rw [ha.ow] at this
      cases this
  unfold makeTx
  rw [hsp, ha.ow]
  simp only [i2leOpt, e1, e2, ok_bind, Option.getD_some, asSprout, h]
  rfl

example : ∃ ins outs lt ex js pk sig t, OverwinterTx.make overEnv ins outs lt ex js pk sig = .ok t ∧ t = exOver 3 := by
  obtain ⟨ins, outs, lt, ex, js, pk, sig, -, -, -, h⟩ := exOver_built (n := 3) (by omega)
  exact ⟨ins, outs, lt, ex, js, pk, sig, _, h, rfl⟩

/-- **C69** (Sapling): every transaction the class allows can be made with `make_tx` when all three lists are given. Missing for the
full property: the lists may be left out on every other network (see `C69_sapling_false`). -/
theorem C69_sapling_partial (E : Env) (hs : E.net.Supported) (ins : List TxIn) (outs : List TxOut) (lt ex vb : Bytes)
    (ss : List SaplingShieldedSpend) (so : List SaplingShieldedOutput) (js : List SaplingJoinsplit)
    (pk sig bs : Option Bytes) (t : SaplingTx) (h : SaplingTx.make E ins outs lt ex vb ss so js pk sig bs = .ok t) (v : Int)
    (ws : Option (List InputWitness)) :
    makeTx E v ins outs (leValue lt) (some (leValue ex)) (leValue vb) (some ss) (some so) ws (some (.sapling js)) pk sig bs =
      .ok (.sapling t) := by
  have ha := (SaplingTx.make_iff.1 h).1
  have e1 : i2lePadded (leValue lt) 4 = .ok lt := i2le_iff.2 ⟨ha.lt4, rfl⟩
  have e2 : i2lePadded (leValue ex) 4 = .ok ex := i2le_iff.2 ⟨ha.ex4, rfl⟩
  have e3 : i2lePadded (leValue vb) 8 = .ok vb := i2le_iff.2 ⟨ha.vb8, rfl⟩
  have hsp : E.net.isSprout = false := by
    cases hh : E.net.isSprout
    · rfl
    · have := ((family hs).2.1 hh).2
      rw [ha.sp] at this
      cases this
  have how : E.net.isOverwinter = false := by
    cases hh : E.net.isOverwinter
    · rfl
    · have := ((family hs).2.2.1 hh)
      rw [ha.sp] at this
      cases this
  unfold makeTx
  rw [hsp, how, ha.sp]
  simp only [i2leOpt, e1, e2, e3, ok_bind, makeSapling, asSapling, h]
  rfl

example : ∃ ins outs lt ex vb ss so js pk sig bs t, SaplingTx.make sapEnv ins outs lt ex vb ss so js pk sig bs = .ok t ∧ t = exSap 3 := by
  obtain ⟨ins, outs, lt, ex, vb, ss, so, js, pk, sig, bs, -, -, -, -, -, h⟩ := exSap_built (n := 3) (by omega)
  exact ⟨ins, outs, lt, ex, vb, ss, so, js, pk, sig, bs, _, h, rfl⟩

/-- **C69** is false on Sapling: `unsigned_legacy_tx` never succeeds, whatever its arguments (it leaves the shielded lists `None`);
with arguments that fit, and an expiry height in range, the error is a TypeError. -/
theorem C69_sapling_false (E : Env) (hs : E.net.Supported) (hsp : E.net.isSapling = true) (ins : List TxIn) (outs : List TxOut)
    (k : Simple.Kwargs) :
    (∀ r, Simple.unsignedLegacyTx E ins outs k ≠ .ok r) ∧
    (U32 (k.lockTime.getD 0) → 0 ≤ k.expiry.getD 0 → k.expiry.getD 0 ≤ 499999999 →
      Simple.unsignedLegacyTx E ins outs k = .error .typeError) := by
  have hz : E.net.isZcash = true := by
    have := (family hs).2.2.2.1
    cases hh : E.net.isZcash
    · rw [(this hh).2.2] at hsp; cases hsp
    · rfl
  have h1 : E.net.isSprout = false := by
    cases hh : E.net.isSprout
    · rfl
    · have := ((family hs).2.1 hh).2
      rw [hsp] at this; cases this
  have h2 : E.net.isOverwinter = false := by
    cases hh : E.net.isOverwinter
    · rfl
    · have := ((family hs).2.2.1 hh)
      rw [hsp] at this; cases this
  constructor
  · intro r h
    unfold Simple.unsignedLegacyTx at h
    rcases C69_fields E hs _ _ _ _ _ _ _ _ _ _ _ _ _ _ h with ⟨t, -, -, h, -⟩ | ⟨t, -, h, -⟩ | ⟨t, -, -, -, -, -, -, -, h, -⟩
    · rw [hsp] at h; cases h
    · rw [h2] at h; cases h
    · cases h
  · intro hl h0 hx
    obtain ⟨l, a, -, -⟩ := u32_i2le hl
    obtain ⟨e, b, -, hev⟩ := u32_i2le (n := k.expiry.getD 0) ⟨h0, by omega⟩
    unfold Simple.unsignedLegacyTx makeTx
    rw [h1, h2, hsp]
    have hev' : le2i e ≤ 499999999 := by
      rw [(C01_le2i_roundtrip e).1]; omega
    simp only [i2leOpt, a, b, i2le_zero8, ok_bind, makeSapling, saplingNone, zcashGate]
    simp only [check_bind, hz, hsp]
    simp [Nat.not_lt.2 hev']

example : ∃ E : Env, E.net.Supported ∧ E.net.isSapling = true := ⟨sapEnv, zcash_supported.2.2, by decide⟩

/-- **C69** is false on Sapling and Overwinter: `unsigned_witness_tx` raises AttributeError (the expiry height is `None`), and a negative
value balance (value entering the shielded pool) is an OverflowError. -/
theorem C69_expiry_false (E : Env) (hs : E.net.Supported) (hz : E.net.isOverwinter = true ∨ E.net.isSapling = true) (ins : List TxIn)
    (outs : List TxOut) (k : Simple.Kwargs) (hl : U32 (k.lockTime.getD 0)) :
    Simple.unsignedWitnessTx E ins outs k = .error .attributeError := by
  have hw : makeEmptyWitness = .ok ⟨[], [0]⟩ := by decide
  have hws : mapPy (fun _ => makeEmptyWitness) ins = .ok (ins.map fun _ => (⟨[], [0]⟩ : InputWitness)) := mapPy_ok (fun _ _ => hw)
  obtain ⟨l, a, -, -⟩ := u32_i2le hl
  unfold Simple.unsignedWitnessTx makeTx
  rw [hws, ok_bind, if_neg (by simp)]
  by_cases how : E.net.isOverwinter = true
  · rw [if_pos how]
    simp only [a, i2leOpt, ok_bind]
    rfl
  · rw [if_neg how, if_pos (hz.resolve_left how)]
    simp only [a, i2leOpt, ok_bind]
    rfl

theorem C69_balance_false (E : Env) (hsp : E.net.isSapling = true) (hno : E.net.isSprout = false ∧ E.net.isOverwinter = false) (v lt ex vb : Int)
    (hl : U32 lt) (hx : U32 ex) (hvb : vb < 0) (ins : List TxIn) (outs : List TxOut) (ss : Option (List SaplingShieldedSpend))
    (so : Option (List SaplingShieldedOutput)) (ws : Option (List InputWitness)) (js : Option Joinsplits) (pk sig bs : Option Bytes) :
    makeTx E v ins outs lt (some ex) vb ss so ws js pk sig bs = .error .overflowError := by
  obtain ⟨l, a, -, -⟩ := u32_i2le hl
  obtain ⟨x, b, -, -⟩ := u32_i2le hx
  unfold makeTx
  rw [hno.1, hno.2, hsp]
  simp only [i2leOpt, a, b, ok_bind]
  rw [i2le_error (n := vb) (by omega)]
  rfl

example : zcashSaplingMain.isSapling = true ∧ zcashSaplingMain.isSprout = false ∧ zcashSaplingMain.isOverwinter = false ∧
    zcashOverwinterMain.isOverwinter = true := by decide

/-- **C69** is false on Sprout: with joinsplits (even an empty list) `make_tx` never succeeds, so no `SproutTx` can be built, and
`unsigned_legacy_tx`, which always passes a list, never succeeds. -/
theorem C69_sprout_false (E : Env) (hs : E.net.Supported) (hsp : E.net.isSprout = true) (ins : List TxIn) (outs : List TxOut) :
    (∀ v lt ex vb ss so ws js pk sig bs, makeTx E v ins outs lt ex vb ss so ws (some js) pk sig bs =
      if U32 lt then .error .valueError else .error .overflowError) ∧
    (∀ k r, Simple.unsignedLegacyTx E ins outs k ≠ .ok r) ∧
    (∀ v lt ex vb ss so ws js pk sig bs t, makeTx E v ins outs lt ex vb ss so ws js pk sig bs ≠ .ok (.sprout t)) := by
  have h1 : ∀ v lt ex vb ss so ws js pk sig bs, makeTx E v ins outs lt ex vb ss so ws (some js) pk sig bs =
      if U32 lt then .error .valueError else .error .overflowError := by
    intro v lt ex vb ss so ws js pk sig bs
    unfold makeTx
    rw [if_pos ⟨hsp, rfl⟩]
    by_cases hl : U32 lt
    · obtain ⟨l, a, -, -⟩ := u32_i2le hl
      rw [a, if_pos hl]; rfl
    · rw [u32_error hl, if_neg hl]; rfl
  refine ⟨h1, ?_, ?_⟩
  · intro k r h
    unfold Simple.unsignedLegacyTx at h
    rw [h1] at h
    split at h <;> cases h
  · intro v lt ex vb ss so ws js pk sig bs t h
    rcases C69_fields E hs _ _ _ _ _ _ _ _ _ _ _ _ _ _ h with ⟨t, h, -⟩ | ⟨t, h, -⟩ | ⟨t, h, -⟩ <;> cases h

example : ∃ E : Env, E.net.Supported ∧ E.net.isSprout = true := ⟨sproutEnv, zcash_supported.1, by decide⟩

/-- **C69** is false on Decred: no output can be made without the version (which no caller passes), and `make_tx` refuses every list of
witnesses and no witnesses. -/
theorem C69_decred_false (E : Env) (hd : E.net.isDecred = true) :
    (∀ value script, makeOutput E value script = .error .valueError) ∧
    (∀ v a o, Simple.output E v a ≠ .ok o) ∧ (∀ v s w o, makeShOutput E v s w ≠ .ok o) ∧ (∀ v p w o, makePkhOutput E v p w ≠ .ok o) ∧
    (∀ d, makeOpReturnOutput E d = .error .valueError) ∧
    (∀ v ins outs lt ex r, makeTxDecred E v ins outs lt ex .absent ≠ .ok r) ∧
    (∀ v ins outs lt ex ws r, makeTxDecred E v ins outs lt ex (.list ws) ≠ .ok r) ∧
    (∀ ins outs k r, Simple.unsignedLegacyTxDecred E ins outs k ≠ .ok r) := by
  have h1 : ∀ value script, makeOutput E value script = .error .valueError := by
    intro value script
    unfold makeOutput
    rw [if_pos hd]
    simp only [decredGate, check, hd, if_true, ok_bind, validateBytes_eq]
    split <;> rfl
  have h6 : ∀ v ins outs lt ex r, makeTxDecred E v ins outs lt ex .absent ≠ .ok r := by
    intro v ins outs lt ex r h
    unfold makeTxDecred at h
    simp only [bind_ok_iff] at h
    obtain ⟨_, -, _, -, _, -, h⟩ := h
    cases h
  refine ⟨h1, ?_, ?_, ?_, ?_, h6, ?_, ?_⟩
  · intro v a o h
    unfold Simple.output at h
    simp only [bind_ok_iff, h1] at h
    obtain ⟨_, -, _, -, h⟩ := h
    cases h
  · intro v s w o h
    unfold makeShOutput at h
    simp only [bind_ok_iff, h1] at h
    obtain ⟨_, -, _, -, h⟩ := h
    cases h
  · intro v s w o h
    unfold makePkhOutput at h
    simp only [bind_ok_iff, h1] at h
    obtain ⟨_, -, _, -, h⟩ := h
    cases h
  · intro d
    unfold makeOpReturnOutput
    rw [check_bind]
    simp only [i2le_zero8, ok_bind, h1]
    split <;> rfl
  · intro v ins outs lt ex ws r h
    unfold makeTxDecred at h
    simp only [bind_ok_iff] at h
    obtain ⟨_, -, _, -, _, -, h⟩ := h
    cases h
  · intro ins outs k r h
    exact h6 _ _ _ _ _ _ h

example : ∃ E : Env, E.net.Supported ∧ E.net.isDecred = true := ⟨⟨decredMain, toyHashes⟩, dcr_supported, by decide⟩

/-- **C69** (Decred): what does work is a single witness not put in a list; it gives exactly the transactions of the class with one
witness. Missing for the full property: every other number of witnesses (`C69_decred_false`). -/
theorem C69_decred_partial (E : Env) (v lt ex : Bytes) (ins : List DecredTxIn) (outs : List DecredTxOut) (w : DecredInputWitness)
    (t : DecredTx) (h : DecredTx.make E.net v ins outs lt ex [w] = .ok t) :
    makeTxDecred E (leValue v) ins outs (leValue lt) (some (leValue ex)) (.one w) = .ok (.decred t) := by
  have ha := (DecredTx.make_iff.1 h).1
  have e1 : i2lePadded (leValue v) 4 = .ok v := i2le_iff.2 ⟨ha.v4, rfl⟩
  have e2 : i2lePadded (leValue lt) 4 = .ok lt := i2le_iff.2 ⟨ha.lt4, rfl⟩
  have e3 : i2lePadded (leValue ex) 4 = .ok ex := i2le_iff.2 ⟨ha.ex4, rfl⟩
  unfold makeTxDecred
  simp only [i2leOpt, e1, e2, e3, ok_bind, h]

example : ∃ v ins outs lt ex w t, DecredTx.make decredMain v ins outs lt ex [w] = .ok t := by
  refine ⟨[1, 0, 0, 0], [exDIn], [exDOut], [0, 0, 0, 0], [0, 0, 0, 0], exDWit, _, DecredTx.make_iff.2 ⟨?_, rfl⟩⟩
  refine ⟨by decide, rfl, rfl, rfl, by simp, by simp, by simp, by simp, by simp, by decide +kernel⟩

/-! ### C70 -/

theorem toHex_hexVal (d : Bytes) : ∀ c ∈ toHex d, (hexVal c).isSome := by
  induction d with
  | nil => intro c h; cases h
  | cons x d ih =>
    intro c h
    have hx := x.toNat_lt
    rcases List.mem_cons.1 h with rfl | h
    · rw [hexVal_hexDigit _ (by omega)]; rfl
    rcases List.mem_cons.1 h with rfl | h
    · rw [hexVal_hexDigit _ (by omega)]; rfl
    · exact ih c h

/-- **C70**: `make_script_sig` appends one push of the serialized redeem script (1 to 1000 bytes) to the serialized stack script. -/
theorem C70_script_sig (E : Env) (hs : E.net.Supported) (stack redeem : PyStr) (x b : Bytes) (hx : serialize E.net stack = .ok x)
    (hb : serialize E.net redeem = .ok b) (h1 : 1 ≤ b.length) (h2 : b.length ≤ 1000) :
    makeScriptSig E stack redeem = .ok (x ++ minimalPush b) := by
  unfold makeScriptSig hexSerialize
  rw [hb, ok_bind, ok_bind, C12_homomorphism _ _ _ _ (by decide), hx, ok_bind]
  have hp : serialize E.net (toHex b) = .ok (minimalPush b) := by
    have f := C12_push_forms hs (t := toHex b) (d := b) (toHex_hexVal b) (fromHex_toHex b) h1
    unfold minimalPush
    by_cases c1 : b.length ≤ 75
    · rw [if_pos c1]; exact f.1 c1
    · rw [if_neg c1]
      by_cases c2 : b.length ≤ 255
      · rw [if_pos c2]; exact f.2.1 (by omega) c2
      · rw [if_neg c2]; exact f.2.2.1 (by omega) h2
  rw [hp]; rfl

/-- **C70**: a redeem script longer than 1000 bytes is refused; an empty one is not pushed at all. -/
theorem C70_script_sig_ends (E : Env) (hs : E.net.Supported) (stack redeem : PyStr) (x b : Bytes) (hx : serialize E.net stack = .ok x)
    (hb : serialize E.net redeem = .ok b) :
    (1000 < b.length → makeScriptSig E stack redeem = .error .notImplementedError) ∧
    (b = [] → makeScriptSig E stack redeem = .ok x) := by
  unfold makeScriptSig hexSerialize
  rw [hb, ok_bind, ok_bind, C12_homomorphism _ _ _ _ (by decide), hx, ok_bind]
  constructor
  · intro h
    rw [(C12_push_forms hs (t := toHex b) (d := b) (toHex_hexVal b) (fromHex_toHex b) (by omega)).2.2.2 h]
    rfl
  · rintro rfl
    have : serialize E.net (toHex []) = .ok [] := rfl
    rw [this, ok_bind, List.append_nil]

/-- **C70**: the script made from canonical texts reads back as the stack's tokens followed by the hex of the redeem script. -/
theorem C70_script_sig_text (E : Env) (hs : E.net.Supported) (ts : List PyStr) (ht : ∀ t ∈ ts, CanonTok E.net t) (redeem : PyStr) (b : Bytes)
    (hb : serialize E.net redeem = .ok b) (h1 : 1 ≤ b.length) (h2 : b.length ≤ 1000) :
    ∃ s, makeScriptSig E (joinSpace ts) redeem = .ok s ∧ deserialize E.net s = .ok (joinSpace (ts ++ [toHex b])) := by
  have hc : ∀ t ∈ ts ++ [toHex b], CanonTok E.net t := by
    intro t h
    rcases List.mem_append.1 h with h | h
    · exact ht t h
    · rw [List.mem_singleton.1 h]
      exact .inr ⟨b, h1, h2, rfl⟩
  obtain ⟨s, hs1, hs2⟩ := C10_roundtrip hs _ hc
  obtain ⟨x, hx, -⟩ := C10_roundtrip hs _ ht
  have e := C70_script_sig E hs (joinSpace ts) redeem x b hx hb h1 h2
  refine ⟨s, ?_, hs2⟩
  rw [← hs1]
  unfold makeScriptSig hexSerialize
  rw [hb, ok_bind, ok_bind]
  unfold serialize
  congr 1
  have hne : ∀ t, CanonTok E.net t → t ≠ [] ∧ ∀ c ∈ t, isPySpace c = false := by
    intro t h
    rcases h with ⟨c, hc, hn⟩ | ⟨d, d1, d2, rfl⟩
    · exact ⟨hn, fun a ha => by
        obtain ⟨ho, hon⟩ := single_byte hs hc hn
        obtain ⟨t', e1, -, e3, -⟩ := opName_isOk hs ho
        rw [hon] at e1
        cases e1
        exact e3 a ha⟩
    · exact ⟨toHex_ne_nil d1, fun c hc => hex_not_space (toHex_hexVal d c hc)⟩
  rw [pySplit_joinSpace _ (fun t h => (hne t (hc t h)).1) (fun t h => (hne t (hc t h)).2)]
  have := splitAux_sep [] ' ' (joinSpace ts) (toHex b) (by decide)
  have e : pySplit (joinSpace ts ++ ' ' :: toHex b) = pySplit (joinSpace ts) ++ pySplit (toHex b) := this
  rw [e, pySplit_joinSpace _ (fun t h => (hne t (ht t h)).1) (fun t h => (hne t (ht t h)).2),
    pySplit_token _ (toHex_ne_nil h1) (fun c hc => hex_not_space (toHex_hexVal b c hc))]

example : makeScriptSig ⟨bitcoinMain, toyHashes⟩ (pystr "OP_0 aabb") (pystr "OP_1 OP_DROP") = .ok [0, 2, 0xaa, 0xbb, 2, 0x51, 0x75] := by
  decide +kernel

/-- **C70**: the output scripts deserialize to the standard templates. -/
theorem C70_templates (E : Env) (hs : E.net.Supported) (hH : E.H.LengthOK) (pubkey : Bytes) (script : PyStr) (b : Bytes)
    (hb : serialize E.net script = .ok b) :
    (∃ s, makeP2pkhOutputScript E pubkey = .ok s ∧ deserialize E.net s =
      .ok (pystr "OP_DUP OP_HASH160 " ++ toHex (E.hash160 pubkey) ++ pystr " OP_EQUALVERIFY OP_CHECKSIG")) ∧
    (∃ s, makeP2shOutputScript E script = .ok s ∧ deserialize E.net s =
      .ok (pystr "OP_HASH160 " ++ toHex (E.hash160 b) ++ pystr " OP_EQUAL")) ∧
    (E.net.segwit = true →
      (∃ s, makeP2wpkhOutputScript E pubkey = .ok s ∧ deserialize E.net s = .ok (pystr "OP_0 " ++ toHex (E.hash160 pubkey))) ∧
      (∃ s, makeP2wshOutputScript E script = .ok s ∧ deserialize E.net s = .ok (pystr "OP_0 " ++ toHex (E.H.sha256 b)))) := by
  obtain ⟨t1, t2, t3, -⟩ := C29_templates E hs pubkey script b hb
  have hj5 : ∀ x : PyStr, joinSpace [pystr "OP_DUP", pystr "OP_HASH160", x, pystr "OP_EQUALVERIFY", pystr "OP_CHECKSIG"] =
      pystr "OP_DUP OP_HASH160 " ++ x ++ pystr " OP_EQUALVERIFY OP_CHECKSIG" := by intro x; simp [joinSpace]
  have hj3 : ∀ x : PyStr, joinSpace [pystr "OP_HASH160", x, pystr "OP_EQUAL"] = pystr "OP_HASH160 " ++ x ++ pystr " OP_EQUAL" := by
    intro x; simp [joinSpace]
  refine ⟨⟨_, t1, ?_⟩, ⟨_, t2, ?_⟩, fun hsw => ⟨⟨_, (t3 hsw).1, ?_⟩, ⟨_, (t3 hsw).2, ?_⟩⟩⟩
  · rw [deserialize_of_tokens (tokens_p2pkh hs (Env.hash160_length E hH _)), hj5]
  · rw [deserialize_of_tokens (tokens_p2sh hs (Env.hash160_length E hH _)), hj3]
  · rw [deserialize_of_tokens (tokens_p2wpkh hs (Env.hash160_length E hH _))]; rfl
  · rw [deserialize_of_tokens (tokens_p2wsh hs (hH.sha256 _))]; rfl

example : ∃ E : Env, E.net.Supported ∧ E.H.LengthOK ∧ E.net.segwit = true := ⟨⟨bitcoinMain, toyHashes⟩, btc_supported, toyHashes_ok, by decide⟩

/-- **C70**: `length_prepend` of anything below 2^64 bytes; outside Overwinter and Sapling (and there unless 253 to 255 bytes long)
`VarInt.from_bytes` reads the length back and what follows its bytes is the data. -/
theorem C70_length_prepend_partial (net : Network) (b rest : Bytes) (hl : b.length < 2 ^ 64)
    (hz : (net.isOverwinter = false ∧ net.isSapling = false) ∨ ¬ (253 ≤ b.length ∧ b.length < 256)) :
    ∃ p v, lengthPrepend b = .ok p ∧ p = varBytes b ∧ VarInt.fromBytes net (p ++ rest) = .ok v ∧ v.number = b.length ∧
      p ++ rest = v.bytes ++ b ++ rest := by
  refine ⟨varBytes b, ⟨compactSize b.length, b.length⟩, ?_, rfl, ?_, rfl, rfl⟩
  · unfold lengthPrepend
    rw [VarInt.make_len hl]; rfl
  · unfold varBytes
    rw [List.append_assoc]
    exact VarInt.fromBytes_len hl hz _

/-- **C70** is false for `length_prepend` on Overwinter and Sapling: 253 to 255 bytes are not read back. -/
theorem C70_length_prepend_false (net : Network) (hz : net.isOverwinter = true ∨ net.isSapling = true) (b rest : Bytes)
    (h1 : 253 ≤ b.length) (h2 : b.length ≤ 255) :
    ∃ p, lengthPrepend b = .ok p ∧ VarInt.fromBytes net (p ++ rest) = .error .valueError := by
  have hm := VarInt.make_len (n := b.length) (by omega)
  refine ⟨compactSize b.length ++ b, ?_, ?_⟩
  · unfold lengthPrepend
    rw [hm]; rfl
  · rw [List.append_assoc]
    have hc : IsCompactSize b.length (compactSize b.length) := ((C06_varint_is_compactsize _ _).1 hm).2.2
    exact (C08_compact_accepted_partial net hz b.length _ _ hc).2 ⟨h1, h2⟩

example : zcashSaplingMain.isSapling = true ∧ (List.replicate 254 (0 : UInt8)).length = 254 := ⟨by decide, List.length_replicate⟩

end Verif.Props
