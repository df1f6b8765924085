import Verif.Lemmas.Sighash2
import Verif.Props.Tx

/-! Properties C46–C53: signature hashes of `Tx`. `Tx.sig` lists the plain fields of a transaction; `bip143` and `legacyPreimage` are the
protocol's definitions (Spec/Sighash.lean). -/

namespace Verif.Props
open Verif Spec

attribute [local irreducible] Env.hash256

/-! ## C46 -/

/-- C46: witness SIGHASH_ALL is BIP143, for every index Python accepts (`i` is the position it means), with and without
ANYONECANPAY. The types are 0x01 and 0x81. -/
theorem C46_all (E : Env) (hf : E.net.forkid = none) (t : Tx) (h : t.Built E) (hw : t.flag ≠ none ∨ t.txWitnesses ≠ none)
    (index : Int) (i : Nat) (inp : TxIn) (hi : index = i ∨ index = (i : Int) - t.txIns.length) (hinp : t.txIns[i]? = some inp)
    (script value : Bytes) (acp : Bool) :
    t.sighashAll E index script (some value) acp =
      .ok (E.hash256 (bip143 E.hash256 t.sig i (inp.outpoint.txId ++ inp.outpoint.index) inp.sequence script value
        (if acp then 0x81 else 0x01))) := by
  obtain ⟨hl, rfl⟩ := List.getElem?_eq_some_iff.1 hinp
  have hp : pyIndex index t.txIns.length = some i := by
    unfold pyIndex
    rcases hi with rfl | rfl
    · rw [if_pos (by omega), if_pos (by omega)]; simp
    · rw [if_neg (by omega), if_pos (by omega)]; congr 1; omega
  have hw' : t.isWitness = true := by
    unfold Tx.isWitness
    rcases hw with h | h
    · cases hh : t.flag <;> simp_all
    · cases hh : t.txWitnesses <;> simp_all
  unfold Tx.sighashAll
  rw [hf]
  simp only [hw', if_true]
  have := Tx.segwitSighash_eq h hp false acp (by simp) script value
  simp only [Bool.false_eq_true, if_false] at this
  rw [this]
  cases acp <;> rfl

/-- C46: witness SIGHASH_SINGLE is BIP143, when there is an output at the index. The types are 0x03 and 0x83. -/
theorem C46_single (E : Env) (hf : E.net.forkid = none) (t : Tx) (h : t.Built E) (hw : t.flag ≠ none ∨ t.txWitnesses ≠ none)
    (i : Nat) (inp : TxIn) (hinp : t.txIns[i]? = some inp) (ho : i < t.txOuts.length) (script value : Bytes) (acp : Bool) :
    t.sighashSingle E i script (some value) acp =
      .ok (E.hash256 (bip143 E.hash256 t.sig i (inp.outpoint.txId ++ inp.outpoint.index) inp.sequence script value
        (if acp then 0x83 else 0x03))) := by
  obtain ⟨hl, rfl⟩ := List.getElem?_eq_some_iff.1 hinp
  have hw' : t.isWitness = true := by
    unfold Tx.isWitness
    rcases hw with h | h
    · cases hh : t.flag <;> simp_all
    · cases hh : t.txWitnesses <;> simp_all
  unfold Tx.sighashSingle
  rw [if_neg (by omega), hf]
  simp only [hw', if_true]
  have := Tx.segwitSighash_eq h (pyIndex_nat hl) true acp (fun _ => ⟨rfl, ho⟩) script value
  simp only [if_true] at this
  rw [this]
  cases acp <;> rfl

example : toyEnv.net.forkid = none ∧ exTx.Built toyEnv ∧ exTx.flag ≠ none ∧ exTx.txIns[0]? = some exIn ∧ 0 < exTx.txOuts.length :=
  ⟨rfl, exTx_built, by decide, rfl, by decide⟩

/-! ## C47 -/

/-- C47: on a network with a fork id, SIGHASH_ALL is the BIP143-style digest whose type word carries the fork id, for witness and
legacy transactions alike. -/
theorem C47_all (E : Env) (hn : E.net.Supported) (k : Nat) (hf : E.net.forkid = some k) (t : Tx) (h : t.Built E) (index : Int) (i : Nat)
    (inp : TxIn) (hi : index = i ∨ index = (i : Int) - t.txIns.length) (hinp : t.txIns[i]? = some inp) (script value : Bytes)
    (hv : value.length = 8) (acp : Bool) :
    t.sighashAll E index script (some value) acp =
      .ok (E.hash256 (bip143 E.hash256 t.sig i (inp.outpoint.txId ++ inp.outpoint.index) inp.sequence script value
        (k * 256 + (if acp then 0x81 else 0x01) + 0x40))) := by
  obtain ⟨hl, rfl⟩ := List.getElem?_eq_some_iff.1 hinp
  have hp : pyIndex index t.txIns.length = some i := by
    unfold pyIndex
    rcases hi with rfl | rfl
    · rw [if_pos (by omega), if_pos (by omega)]; simp
    · rw [if_neg (by omega), if_pos (by omega)]; congr 1; omega
  unfold Tx.sighashAll
  rw [hf]
  simp only []
  have := Tx.sighashForkid_eq h (forkid_facts hn hf) hp false acp (by simp) script value hv
  simp only [Bool.false_eq_true, if_false] at this
  rw [this]
  cases acp <;> rfl

/-- C47: likewise SIGHASH_SINGLE. -/
theorem C47_single (E : Env) (hn : E.net.Supported) (k : Nat) (hf : E.net.forkid = some k) (t : Tx) (h : t.Built E) (i : Nat)
    (inp : TxIn) (hinp : t.txIns[i]? = some inp) (ho : i < t.txOuts.length) (script value : Bytes)
    (hv : value.length = 8) (acp : Bool) :
    t.sighashSingle E i script (some value) acp =
      .ok (E.hash256 (bip143 E.hash256 t.sig i (inp.outpoint.txId ++ inp.outpoint.index) inp.sequence script value
        (k * 256 + (if acp then 0x83 else 0x03) + 0x40))) := by
  obtain ⟨hl, rfl⟩ := List.getElem?_eq_some_iff.1 hinp
  unfold Tx.sighashSingle
  rw [if_neg (by omega), hf]
  simp only []
  have := Tx.sighashForkid_eq h (forkid_facts hn hf) (pyIndex_nat hl) true acp (fun _ => ⟨rfl, ho⟩) script value hv
  simp only [if_true] at this
  rw [this]
  cases acp <;> rfl

/-- C47: the prevout value must be given and have 8 bytes, else ValueError, whatever the other arguments. -/
theorem C47_value_required (E : Env) (k : Nat) (hf : E.net.forkid = some k) (t : Tx) (index : Int) (script : Bytes)
    (value : Option Bytes) (hv : ∀ v, value = some v → v.length ≠ 8) (acp : Bool) :
    t.sighashAll E index script value acp = .error .valueError ∧
    (index < t.txOuts.length → t.sighashSingle E index script value acp = .error .valueError) := by
  have key : ∀ ty, t.sighashForkid E k index script value ty acp = .error .valueError := by
    intro ty
    unfold Tx.sighashForkid
    cases value with
    | none => rfl
    | some v =>
      simp only []
      rw [validateBytes_eq, if_neg (hv v rfl)]; rfl
  constructor
  · unfold Tx.sighashAll; rw [hf]; exact key _
  · intro h
    unfold Tx.sighashSingle
    rw [if_neg (by omega), hf]; exact key _

/-- C47: which networks have a fork id: Bitcoin Cash 0, Bitcoin Gold 79, and 42 for Super Bitcoin's family. -/
theorem C47_fork_ids (net : Network) (hn : net.Supported) (k : Nat) (hf : net.forkid = some k) : k = 0 ∨ k = 79 ∨ k = 42 := by
  have : ∀ net : Network, net.Supported → (match net.forkid with | some k => decide (k = 0 ∨ k = 79 ∨ k = 42) | none => true) = true := by
    unfold Network.Supported; decide +kernel
  have := this net hn
  rw [hf] at this
  simpa using this

example : (⟨bitcoinCashMain, toyHashes⟩ : Env).net.Supported ∧ (⟨bitcoinCashMain, toyHashes⟩ : Env).net.forkid = some 0 :=
  ⟨by unfold Network.Supported; decide +kernel, rfl⟩

/-! ## C48 -/

/-- C48: legacy SIGHASH_ALL, with and without ANYONECANPAY, is the original algorithm applied to the script without its length prefix. -/
theorem C48_all (E : Env) (hf : E.net.forkid = none) (t : Tx) (h : t.Built E) (hw : t.flag = none ∧ t.txWitnesses = none)
    (index : Int) (i : Nat) (hi : index = i ∨ index = (i : Int) - t.txIns.length) (hl : i < t.txIns.length)
    (script : Bytes) (hs : script.length ≤ 1650)
    (hz : (E.net.isOverwinter = false ∧ E.net.isSapling = false) ∨ ¬ (253 ≤ script.length ∧ script.length < 256))
    (value : Option Bytes) (acp : Bool) :
    t.sighashAll E index (varBytes script) value acp =
      .ok (E.hash256 (legacyPreimage t.sig i script (if acp then 0x81 else 0x01))) := by
  have hp : pyIndex index t.txIns.length = some i := by
    unfold pyIndex
    rcases hi with rfl | rfl
    · rw [if_pos (by omega), if_pos (by omega)]; simp
    · rw [if_neg (by omega), if_pos (by omega)]; congr 1; omega
  rw [Tx.sighashAll_legacy h hf (by simp [Tx.isWitness, hw.1, hw.2]) hp hs hz value acp]
  cases acp <;> rfl

/-- C48: the digest does not depend on the script sigs the inputs carry. -/
theorem C48_ignores_script_sigs (E : Env) (hf : E.net.forkid = none) (t t' : Tx) (h : t.Built E) (h' : t'.Built E)
    (hw : t.flag = none ∧ t.txWitnesses = none) (hw' : t'.flag = none ∧ t'.txWitnesses = none)
    (e : t.version = t'.version ∧ t.txIns.map (·.outpoint) = t'.txIns.map (·.outpoint) ∧
      t.txIns.map (·.sequence) = t'.txIns.map (·.sequence) ∧ t.txOuts = t'.txOuts ∧ t.lockTime = t'.lockTime)
    (i : Nat) (hl : i < t.txIns.length) (script : Bytes) (hs : script.length ≤ 1650)
    (hz : (E.net.isOverwinter = false ∧ E.net.isSapling = false) ∨ ¬ (253 ≤ script.length ∧ script.length < 256)) (acp : Bool) :
    t.sighashAll E i (varBytes script) none acp = t'.sighashAll E i (varBytes script) none acp := by
  obtain ⟨e1, e2, e3, e4, e5⟩ := e
  have el : t.txIns.length = t'.txIns.length := by simpa using congrArg List.length e2
  rw [C48_all E hf t h hw i i (.inl rfl) hl script hs hz, C48_all E hf t' h' hw' i i (.inl rfl) (by omega) script hs hz]
  have : t.sig = t'.sig := by
    unfold Tx.sig
    rw [e1, e4, e5]
    congr 1
    have key : ∀ l : List TxIn, l.map (fun i => (i.outpoint.txId ++ i.outpoint.index, i.sequence)) =
        ((l.map (·.outpoint)).zip (l.map (·.sequence))).map (fun p => (p.1.txId ++ p.1.index, p.2)) := by
      intro l
      induction l with
      | nil => rfl
      | cons x xs ih => simp only [List.map_cons, List.zip_cons_cons, ih]
    rw [key, key, e2, e3]
  rw [this]

example : toyEnv.net.forkid = none ∧ exLegacy.Built toyEnv ∧ exLegacy.flag = none ∧ exLegacy.txWitnesses = none ∧ 1 < exLegacy.txIns.length :=
  ⟨rfl, exLegacy_built, rfl, rfl, by decide⟩

/-! ## C49 -/

/-- C49: legacy SIGHASH_SINGLE is the original algorithm when the signed input is the last one. -/
theorem C49_last_input_partial (E : Env) (hf : E.net.forkid = none) (t : Tx) (h : t.Built E) (hw : t.flag = none ∧ t.txWitnesses = none)
    (i : Nat) (hl : i + 1 = t.txIns.length) (ho : i < t.txOuts.length) (script : Bytes) (hs : script.length ≤ 1650)
    (hz : (E.net.isOverwinter = false ∧ E.net.isSapling = false) ∨ ¬ (253 ≤ script.length ∧ script.length < 256))
    (value : Option Bytes) (acp : Bool) :
    t.sighashSingle E i (varBytes script) value acp =
      .ok (E.hash256 (legacyPreimage t.sig i script (if acp then 0x83 else 0x03))) := by
  rw [Tx.sighashSingle_legacy h hf (by simp [Tx.isWitness, hw.1, hw.2]) (by omega) ho hs hz value acp, ← hl,
    codeSingleOuts_last (by simpa [Tx.sig] using ho)]
  have := legacyIns_eq_of_single (t := t.sig) (k := i) (s := script) (acp := acp)
  cases acp <;> exact congrArg (fun x => Except.ok (E.hash256 x)) this.symm

/-- C49 fails for every other input: the code hashes a preimage that differs from the protocol's. So it agrees with the protocol exactly
on the last input, up to a hash collision. -/
theorem C49_false (E : Env) (hf : E.net.forkid = none) (t : Tx) (h : t.Built E) (hw : t.flag = none ∧ t.txWitnesses = none)
    (i : Nat) (hl : i < t.txIns.length) (hl' : i + 1 ≠ t.txIns.length) (ho : i < t.txOuts.length) (script : Bytes)
    (hs : script.length ≤ 1650)
    (hz : (E.net.isOverwinter = false ∧ E.net.isSapling = false) ∨ ¬ (253 ≤ script.length ∧ script.length < 256))
    (value : Option Bytes) (acp : Bool) :
    ∃ preimage, t.sighashSingle E i (varBytes script) value acp = .ok (E.hash256 preimage) ∧
      preimage ≠ legacyPreimage t.sig i script (if acp then 0x83 else 0x03) := by
  refine ⟨_, Tx.sighashSingle_legacy h hf (by simp [Tx.isWitness, hw.1, hw.2]) hl ho hs hz value acp, ?_⟩
  have hst : (if acp then 0x83 else 0x03 : Nat) = sigType true acp := by cases acp <;> rfl
  rw [hst, legacyIns_eq_of_single]
  have hlen := h.facts.args.2.2.2.2.2.2
  apply wireLegacy_ne
  · rw [codeSingleOuts_length]
    simp only [List.length_append, List.length_replicate, List.length_take, List.length_drop, Tx.sig, List.length_map]
    omega
  · rw [codeSingleOuts_length]; exact hlen.1
  · simp only [List.length_append, List.length_replicate, List.length_take, List.length_drop, Tx.sig, List.length_map]
    omega

example : exLegacy.Built toyEnv ∧ exLegacy.flag = none ∧ exLegacy.txWitnesses = none ∧ 0 < exLegacy.txIns.length ∧
    0 + 1 ≠ exLegacy.txIns.length ∧ 1 + 1 = exLegacy.txIns.length ∧ 1 < exLegacy.txOuts.length :=
  ⟨exLegacy_built, rfl, rfl, by decide, by decide, by decide, by decide⟩

/-! ## C50 -/

/-- C50: SIGHASH_SINGLE without a matching output is refused, for every `Tx` on every network; SIGHASH_NONE always. -/
theorem C50_refused (E : Env) (t : Tx) (index : Int) (script : Bytes) (value : Option Bytes) (acp : Bool) :
    (index ≥ t.txOuts.length → t.sighashSingle E index script value acp = .error .notImplementedError) ∧
    t.sighashNone = .error .notImplementedError := by
  constructor
  · intro h; unfold Tx.sighashSingle; rw [if_pos h]
  · rfl

theorem pyIndex_none {i : Int} {n : Nat} (h : i ≥ n ∨ i < -(n : Int)) : pyIndex i n = none := by
  unfold pyIndex
  rcases h with h | h
  · rw [if_pos (by omega), if_neg (by omega)]
  · rw [if_neg (by omega), if_neg (by omega)]

theorem sighashPrep_range (E : Env) (t : Tx) (h : t.Built E) (index : Int) (hr : index ≥ t.txIns.length ∨ index < -(t.txIns.length : Int))
    (script : Bytes) : ∃ e, t.sighashPrep E index script = .error e ∧ ((∃ v, VarInt.fromBytes E.net script = .ok v) → e = .indexError) := by
  unfold Tx.sighashPrep
  have hc : ∀ i ∈ t.txIns, i.copy (stackScript := some []) (redeemScript := some []) = .ok (inWith [] i.sequence i) := by
    intro i hi
    unfold TxIn.copy
    simp only [Option.getD_none, Option.getD_some]
    have := (h.facts.ins i hi).eq
    exact inWith_make this.1 (by simp) this.2.1
  rw [mapPy_ok hc, ok_bind]
  cases hv : VarInt.fromBytes E.net script with
  | error e => exact ⟨e, rfl, by rintro ⟨v, hv⟩; cases hv⟩
  | ok v =>
    rw [ok_bind, getItem_none (by rw [List.length_map]; exact pyIndex_none hr)]
    exact ⟨_, rfl, fun _ => rfl⟩

/-- C50: an index that is not one of the inputs' never yields a digest; it is an IndexError unless another argument is refused before it
(a script without a readable length, a missing prevout value on a fork-id network, or no output at the index). -/
theorem C50_out_of_range (E : Env) (t : Tx) (h : t.Built E) (index : Int)
    (hr : index ≥ t.txIns.length ∨ index < -(t.txIns.length : Int)) (script : Bytes) (value : Option Bytes) (acp : Bool) :
    (∃ e, t.sighashAll E index script value acp = .error e) ∧ (∃ e, t.sighashSingle E index script value acp = .error e) ∧
    ((∃ v, VarInt.fromBytes E.net script = .ok v) → (∃ v, value = some v ∧ v.length = 8) →
      t.sighashAll E index script value acp = .error .indexError ∧
      (index < t.txOuts.length → t.sighashSingle E index script value acp = .error .indexError)) := by
  have hn : getItem t.txIns index = .error .indexError := getItem_none (pyIndex_none hr)
  obtain ⟨e, he, hee⟩ := sighashPrep_range E t h index hr script
  have hfork : ∀ k ty, ∃ e, t.sighashForkid E k index script value ty acp = .error e ∧
      ((∃ v, value = some v ∧ v.length = 8) → e = .indexError) := by
    intro k ty
    unfold Tx.sighashForkid
    cases value with
    | none => exact ⟨_, rfl, by rintro ⟨v, hv, _⟩; cases hv⟩
    | some v =>
      simp only []
      rw [validateBytes_eq]
      by_cases c : v.length = 8
      · rw [if_pos c]; simp only [ok_bind]; rw [hn]; exact ⟨_, rfl, fun _ => rfl⟩
      · rw [if_neg c]; exact ⟨_, rfl, by rintro ⟨v', hv, hv'⟩; cases hv; exact absurd hv' c⟩
  have hseg : ∀ ty, t.segwitSighash E index ty value script acp = .error .indexError := by
    intro ty; unfold Tx.segwitSighash; rw [hn]; rfl
  have hall : ∃ e, t.sighashAll E index script value acp = .error e ∧
      ((∃ v, VarInt.fromBytes E.net script = .ok v) → (∃ v, value = some v ∧ v.length = 8) → e = .indexError) := by
    unfold Tx.sighashAll
    cases hfk : E.net.forkid with
    | some k =>
      obtain ⟨e, h1, h2⟩ := hfork k SIGHASH_ALL
      exact ⟨e, h1, fun _ => h2⟩
    | none =>
      simp only []
      split
      · exact ⟨_, hseg _, fun _ _ => rfl⟩
      · rw [he]; exact ⟨e, rfl, fun h _ => hee h⟩
  have hsingle : ∃ e, t.sighashSingle E index script value acp = .error e ∧
      ((∃ v, VarInt.fromBytes E.net script = .ok v) → (∃ v, value = some v ∧ v.length = 8) → index < t.txOuts.length → e = .indexError) := by
    unfold Tx.sighashSingle
    by_cases c : index ≥ t.txOuts.length
    · rw [if_pos c]; exact ⟨_, rfl, fun _ _ h => absurd c (by omega)⟩
    rw [if_neg c]
    cases hfk : E.net.forkid with
    | some k =>
      obtain ⟨e, h1, h2⟩ := hfork k SIGHASH_SINGLE
      exact ⟨e, h1, fun _ h _ => h2 h⟩
    | none =>
      simp only []
      split
      · exact ⟨_, hseg _, fun _ _ _ => rfl⟩
      · unfold Tx.sighashSingleLegacy; rw [he]; exact ⟨e, rfl, fun h _ _ => hee h⟩
  obtain ⟨e1, h1, h1'⟩ := hall
  obtain ⟨e2, h2, h2'⟩ := hsingle
  refine ⟨⟨e1, h1⟩, ⟨e2, h2⟩, fun ha hb => ⟨?_, fun hc => ?_⟩⟩
  · rw [h1, h1' ha hb]
  · rw [h2, h2' ha hb hc]

example : exLegacy.Built toyEnv ∧ (2 : Int) ≥ exLegacy.txIns.length ∧ (-3 : Int) < -(exLegacy.txIns.length : Int) ∧
    ∃ v, VarInt.fromBytes toyEnv.net [1, 0x51] = .ok v := ⟨exLegacy_built, by decide, by decide, ⟨⟨[1], 1⟩, by decide⟩⟩

/-- C50 for the public `segwit_sighash`, called directly with any hash type on any transaction, index and prevout value: a type other than ALL (1)
and SINGLE (3), and SINGLE without a matching output, give no digest but NotImplementedError; ALL and SINGLE give the BIP143 digest. -/
theorem C50_segwit_types (E : Env) (t : Tx) (h : t.Built E) (i : Nat) (hi : i < t.txIns.length) (ty : Nat) (value script : Bytes) (acp : Bool) :
    ((ty ≠ 1 ∧ (ty = 3 → t.txOuts.length ≤ i)) → t.segwitSighash E i ty (some value) script acp = .error .notImplementedError) ∧
    (ty = 1 ∨ (ty = 3 ∧ i < t.txOuts.length) → t.segwitSighash E i ty (some value) script acp =
      .ok (E.hash256 (bip143 E.hash256 t.sig i (t.txIns[i].outpoint.txId ++ t.txIns[i].outpoint.index) t.txIns[i].sequence script value
        (if acp then ty + 128 else ty)))) ∧
    t.segwitSighash E i ty none script acp = .error .typeError := by
  refine ⟨fun ⟨h1, h2⟩ => ?_, ?_, ?_⟩
  · unfold Tx.segwitSighash
    rw [getItem_ok (pyIndex_nat hi)]
    simp only [ok_bind]
    have : t.hashOutputs E i ty = .error .notImplementedError := by
      unfold Tx.hashOutputs
      rw [if_neg (show ¬ ty = SIGHASH_ALL from h1), if_neg]
      rintro ⟨a, b⟩
      have := h2 a
      omega
    rw [this]
    rfl
  · rintro (rfl | ⟨rfl, ho⟩)
    · have := Tx.segwitSighash_eq h (pyIndex_nat hi) false acp (by simp) script value
      cases acp <;> exact this
    · have := Tx.segwitSighash_eq h (pyIndex_nat hi) true acp (fun _ => ⟨rfl, ho⟩) script value
      cases acp <;> exact this
  · unfold Tx.segwitSighash
    rw [getItem_ok (pyIndex_nat hi)]
    rfl

example : exLegacy.Built toyEnv ∧ 1 < exLegacy.txIns.length ∧ (2 ≠ 1 ∧ (2 = 3 → exLegacy.txOuts.length ≤ 1)) ∧ 1 < exLegacy.txOuts.length :=
  ⟨exLegacy_built, by decide, by decide, by decide⟩

/-! ## C51 -/

/-- C51 fails for every legacy transaction that can be parsed back, on every network without fork id: before parsing the digest exists,
after parsing TypeError is raised. -/
theorem C51_false (E : Env) (hn : E.net.Supported) (hf : E.net.forkid = none) (t : Tx) (h : t.Built E) (hs : t.Stable E.net)
    (hw : t.flag = none ∧ t.txWitnesses = none) (i : Nat) (hl : i < t.txIns.length) (script : Bytes) (hsl : script.length ≤ 1650)
    (hz : (E.net.isOverwinter = false ∧ E.net.isSapling = false) ∨ ¬ (253 ≤ script.length ∧ script.length < 256)) :
    ∃ t' d, Tx.fromBytes E t.bytes = .ok t' ∧ t.sighashAll E i (varBytes script) = .ok d ∧
      t'.sighashAll E i (varBytes script) = .error .typeError := by
  obtain ⟨t', h1, h2, h3, h4, h5, h6, h7, h8, h9, h10, h11, h12, h13⟩ := C40_roundtrip E hn t h hs [] (fun h => absurd hw.1 h)
  rw [List.append_nil] at h1
  refine ⟨t', _, h1, C48_all E hf t h hw i i (.inl rfl) hl script hsl hz none false, ?_⟩
  unfold Tx.sighashAll
  rw [hf]
  have hl' : i < t'.txIns.length := by
    have := congrArg List.length h11
    simp only [List.length_map] at this; omega
  simp only [Tx.isWitness, h9, Option.isSome_some, Bool.or_true, if_true]
  unfold Tx.segwitSighash
  rw [getItem_ok (pyIndex_nat hl')]; rfl

/-- C51 on fork-id networks: the digests before and after parsing agree, for every transaction, index, script, value and type. -/
theorem C51_forkid_partial (E : Env) (hn : E.net.Supported) (k : Nat) (hf : E.net.forkid = some k) (t : Tx) (h : t.Built E)
    (hs : t.Stable E.net) (hw : t.flag = none) (t' : Tx) (ht : Tx.fromBytes E t.bytes = .ok t') (i : Nat) (hl : i < t.txIns.length)
    (script value : Bytes) (hv : value.length = 8) (acp : Bool) :
    t'.sighashAll E i script (some value) acp = t.sighashAll E i script (some value) acp := by
  obtain ⟨ins', g1, g2, g3⟩ := Tx.fromBytes_bytes hn h.facts hs [] (fun h => absurd hw h)
  rw [List.append_nil, ht] at g3
  cases g3
  have el := List.forall₂_length g1
  have hb : Tx.Built E (txObj E t.version t.flag ins' t.txOuts (some (t.txWitnesses.getD [])) t.lockTime) := by
    obtain ⟨a1, a2, a3, a4, a5, a6, a7, a8⟩ := h.facts.args
    refine ⟨t.version, t.flag, ins', t.txOuts, some (t.txWitnesses.getD []), t.lockTime, forall₂_right (fun _ _ h => h.1) g1,
      h.facts.outs, h.facts.wits, Tx.make_iff.2 ⟨?_, rfl⟩⟩
    refine ⟨a1, a2, a3, by rw [Option.getD_some, ← el]; exact a4, ?_, a6, by omega, a8⟩
    rintro rfl; apply a5; simpa using el
  have hp : ∀ j (hj : j < t.txIns.length) (hj' : j < ins'.length), ins'[j].outpoint = t.txIns[j].outpoint ∧ ins'[j].sequence = t.txIns[j].sequence := by
    intro j hj hj'
    have := List.forall₂_iff_get.1 g1 |>.2 j hj hj'
    exact ⟨this.2.1, this.2.2.2⟩
  have hsig : Tx.sig (txObj E t.version t.flag ins' t.txOuts (some (t.txWitnesses.getD [])) t.lockTime) = t.sig := by
    unfold Tx.sig
    simp only [txObj]
    congr 1
    apply List.ext_getElem
    · simp [el]
    · intro j h1 h2
      simp only [List.length_map] at h1 h2
      simp only [List.getElem_map, (hp j h2 h1).1, (hp j h2 h1).2]
  rw [C47_all E hn k hf t h i i _ (.inl rfl) (List.getElem?_eq_getElem hl) script value hv,
    C47_all E hn k hf _ hb i i ins'[i] (.inl rfl) (List.getElem?_eq_getElem (by simp only [txObj]; omega)) script value hv, hsig,
    (hp i hl (by omega)).1, (hp i hl (by omega)).2]

example : exLegacy.Built toyEnv ∧ exLegacy.Stable toyEnv.net ∧ exLegacy.flag = none ∧ exLegacy.txWitnesses = none :=
  ⟨exLegacy_built, ⟨.inl ⟨rfl, rfl⟩, .inl ⟨rfl, rfl⟩, by
    intro i hi; rw [show i = exIn by simpa [exLegacy, txObj] using hi]; exact exIn_stable, by simp [exLegacy, txObj, exOut], by
    simp [exLegacy, txObj]⟩, rfl, rfl⟩

end Verif.Props
