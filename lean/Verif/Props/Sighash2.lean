import Verif.Lemmas.Sighash4
import Verif.Props.Sighash

/-! Properties C52 and C53: what signature hashes leave open and what they commit to. -/

namespace Verif.Props
open Verif Spec

attribute [local irreducible] Env.hash256

/-- Two signing requests (transaction and index of the signed input) agree on the parts the hash type covers. -/
structure SameCommitted (single acp : Bool) (t : Tx) (i : Nat) (t' : Tx) (i' : Nat) : Prop where
  version : t.version = t'.version
  lockTime : t.lockTime = t'.lockTime
  /-- the signed input -/
  signed : ∃ x x', t.txIns[i]? = some x ∧ t'.txIns[i']? = some x' ∧ x.outpoint = x'.outpoint ∧ x.sequence = x'.sequence
  /-- the other inputs, unless ANYONECANPAY -/
  outpoints : acp = false → t.txIns.map (·.outpoint) = t'.txIns.map (·.outpoint)
  sequences : acp = false → single = false → t.txIns.map (·.sequence) = t'.txIns.map (·.sequence)
  /-- the outputs, or with SINGLE the one at the index -/
  outs : single = false → t.txOuts = t'.txOuts
  out : single = true → ∃ o, t.txOuts[i]? = some o ∧ t'.txOuts[i']? = some o

theorem sig_fst (t : Tx) : t.sig.ins.map (·.1) = (t.txIns.map (·.outpoint)).map (fun o => o.txId ++ o.index) := by
  simp [Tx.sig]

theorem sig_snd (t : Tx) : t.sig.ins.map (·.2) = t.txIns.map (·.sequence) := by simp [Tx.sig]

/-- C52 (BIP143: witness transactions, and every transaction on fork-id networks): the digest depends only on the covered parts. -/
theorem C52_bip143 (E : Env) (hn : E.net.Supported) (single acp : Bool) (t t' : Tx) (h : t.Built E) (h' : t'.Built E)
    (hb : E.net.forkid ≠ none ∨ t.flag ≠ none ∨ t.txWitnesses ≠ none) (hb' : E.net.forkid ≠ none ∨ t'.flag ≠ none ∨ t'.txWitnesses ≠ none)
    (i i' : Nat) (same : SameCommitted single acp t i t' i') (script value : Bytes) (hv : value.length = 8) :
    (single = true → t.sighashSingle E i script (some value) acp = t'.sighashSingle E i' script (some value) acp) ∧
    (single = false → t.sighashAll E i script (some value) acp = t'.sighashAll E i' script (some value) acp) := by
  obtain ⟨x, x', hx, hx', s1, s2⟩ := same.signed
  obtain ⟨hi, rfl⟩ := List.getElem?_eq_some_iff.1 hx
  obtain ⟨hi', rfl⟩ := List.getElem?_eq_some_iff.1 hx'
  have key : t.digest E single acp i script (some value) = t'.digest E single acp i' script (some value) := by
    have ho : single = true → i < t.txOuts.length ∧ i' < t'.txOuts.length := by
      intro hs
      obtain ⟨o, h1, h2⟩ := same.out hs
      exact ⟨(List.getElem?_eq_some_iff.1 h1).1, (List.getElem?_eq_some_iff.1 h2).1⟩
    rw [Tx.digest_bip143 hn h hb single acp hi (fun hs => (ho hs).1) script value hv,
      Tx.digest_bip143 hn h' hb' single acp hi' (fun hs => (ho hs).2) script value hv]
    obtain ⟨f1, f2, f3⟩ := typeWord_facts hn single acp
    unfold bip143
    rw [s1, s2]
    have e1 : hashPrevouts E.hash256 t.sig (typeWord E.net single acp) = hashPrevouts E.hash256 t'.sig (typeWord E.net single acp) := by
      unfold hashPrevouts
      rw [f1]
      cases acp with
      | true => rfl
      | false => simp only [Bool.false_eq_true, if_false]; rw [sig_fst, sig_fst, same.outpoints rfl]
    have e2 : hashSequence E.hash256 t.sig (typeWord E.net single acp) = hashSequence E.hash256 t'.sig (typeWord E.net single acp) := by
      unfold hashSequence
      rw [f1, f2]
      cases acp with
      | true => rfl
      | false =>
        cases single with
        | true => rfl
        | false => rw [sig_snd, sig_snd, same.sequences rfl rfl]
    have e3 : Spec.hashOutputs E.hash256 t.sig i (typeWord E.net single acp) = Spec.hashOutputs E.hash256 t'.sig i' (typeWord E.net single acp) := by
      unfold Spec.hashOutputs
      rw [f2]
      cases single with
      | true =>
        obtain ⟨o, h1, h2⟩ := same.out rfl
        simp [Tx.sig, h1, h2]
      | false => simp [Tx.sig, same.outs rfl]
    rw [e1, e2, e3]
    simp only [Tx.sig, same.version, same.lockTime]
  unfold Tx.digest at key
  cases single with
  | true => exact ⟨fun _ => key, fun h => by cases h⟩
  | false => exact ⟨fun h => (by cases h), fun _ => key⟩

/-- A transaction with another second input and another second output. -/
def exTx' : Tx := txObj toyEnv [2, 0, 0, 0] (some [0, 1]) [exIn, exIn] [exOut] (some [exWit, exWit]) [0, 0, 0, 0]
theorem exTx'_built : exTx'.Built toyEnv := by
  refine ⟨_, _, _, _, _, _, ?_, ?_, ?_, Tx.make_iff.2 ⟨?_, rfl⟩⟩
  · intro i hi; simp at hi; rw [hi]; exact exIn_built
  · intro i hi; simp at hi; rw [hi]; exact exOut_built
  · intro i hi; simp at hi; rw [hi]; exact exWit_built
  · decide

example : SameCommitted true true exTx 0 exTx' 0 ∧ exTx.Built toyEnv ∧ exTx'.Built toyEnv ∧ exTx.flag ≠ none ∧ exTx'.flag ≠ none :=
  ⟨⟨rfl, rfl, ⟨exIn, exIn, rfl, rfl, rfl, rfl⟩, by decide, by decide, by decide, fun _ => ⟨exOut, rfl, rfl⟩⟩, exTx_built, exTx'_built,
    by decide, by decide⟩

/-- The legacy digest with its preimage. -/
theorem legacy_digest (E : Env) (hf : E.net.forkid = none) (single acp : Bool) (t : Tx) (h : t.Built E)
    (hw : t.flag = none ∧ t.txWitnesses = none) (i : Nat) (hi : i < t.txIns.length) (ho : single = true → i < t.txOuts.length)
    (script : Bytes) (hs : script.length ≤ 1650) (hz : LenOK E.net script.length) (value : Option Bytes) :
    t.digest E single acp i (varBytes script) value = .ok (E.hash256 (wireLegacy t.version (legacyIns t.sig i (sigType single acp) script)
      (if single then codeSingleOuts t.txIns.length t.sig.outs i else t.sig.outs) t.lockTime ++ leBytes 4 (sigType single acp))) := by
  have hw' : t.isWitness = false := by simp [Tx.isWitness, hw.1, hw.2]
  unfold Tx.digest
  cases single with
  | true =>
    simp only [if_true]
    exact Tx.sighashSingle_legacy h hf hw' hi (ho rfl) hs hz value acp
  | false =>
    simp only [Bool.false_eq_true, if_false]
    rw [Tx.sighashAll_legacy h hf hw' (pyIndex_nat hi) hs hz value acp]
    unfold legacyPreimage legacyOuts
    rw [(sigType_facts false acp).2.1]; rfl

theorem map_getElem_eq {α β : Type} {f : α → β} {l l' : List α} (h : l.map f = l'.map f) {j : Nat} (h1 : j < l.length) (h2 : j < l'.length) :
    f l[j] = f l'[j] := by
  have := congrArg (fun l => l[j]?) h
  simpa [List.getElem?_eq_getElem h1, List.getElem?_eq_getElem h2] using this

/-- The inputs of the modified copy depend only on the covered parts. -/
theorem legacyIns_same {E : Env} {single acp : Bool} {t t' : Tx} (h : t.Built E) (h' : t'.Built E) {i : Nat}
    (same : SameCommitted single acp t i t' i) (script : Bytes) :
    legacyIns t.sig i (sigType single acp) script = legacyIns t'.sig i (sigType single acp) script := by
  obtain ⟨x, x', hx, hx', s1, s2⟩ := same.signed
  obtain ⟨hi, rfl⟩ := List.getElem?_eq_some_iff.1 hx
  obtain ⟨hi', rfl⟩ := List.getElem?_eq_some_iff.1 hx'
  obtain ⟨f1, f2, f3, -⟩ := sigType_facts single acp
  cases acp with
  | true => rw [legacyIns_acp h f1 hi, legacyIns_acp h' f1 hi', s1, s2]
  | false =>
    have el : t.txIns.length = t'.txIns.length := by simpa using congrArg List.length (same.outpoints rfl)
    unfold legacyIns
    simp only [f1, Bool.false_eq_true, if_false]
    apply List.ext_getElem
    · simp [Tx.sig, el]
    · intro j h1 h2
      simp only [List.length_mapIdx, Tx.sig, List.length_map] at h1 h2
      have eo : t.txIns[j].outpoint = t'.txIns[j].outpoint := by
        exact map_getElem_eq (same.outpoints rfl) _ _
      simp only [List.getElem_mapIdx, legacyIn, Tx.sig, List.getElem_map, f2]
      rw [eo]
      by_cases c : j = i
      · subst c; simp only [ne_eq, not_true_eq_false, false_and, if_false, if_true, s2]
      · cases single with
        | true => simp [c]
        | false =>
          have es : t.txIns[j].sequence = t'.txIns[j].sequence := by
            exact map_getElem_eq (same.sequences rfl rfl) _ _
          rw [es]

/-- C52 (legacy): the digest depends only on the covered parts — except that an ANYONECANPAY|SINGLE digest also depends on how many
inputs there are (`C52_false_legacy`), so those must agree. -/
theorem C52_legacy_partial (E : Env) (hf : E.net.forkid = none) (single acp : Bool) (t t' : Tx) (h : t.Built E) (h' : t'.Built E)
    (hw : t.flag = none ∧ t.txWitnesses = none) (hw' : t'.flag = none ∧ t'.txWitnesses = none) (i : Nat)
    (same : SameCommitted single acp t i t' i) (hl : single = true → acp = true → t.txIns.length = t'.txIns.length)
    (script : Bytes) (hs : script.length ≤ 1650)
    (hz : (E.net.isOverwinter = false ∧ E.net.isSapling = false) ∨ ¬ (253 ≤ script.length ∧ script.length < 256)) (value : Option Bytes) :
    (single = true → t.sighashSingle E i (varBytes script) value acp = t'.sighashSingle E i (varBytes script) value acp) ∧
    (single = false → t.sighashAll E i (varBytes script) value acp = t'.sighashAll E i (varBytes script) value acp) := by
  obtain ⟨x, x', hx, hx', s1, s2⟩ := same.signed
  have hi := (List.getElem?_eq_some_iff.1 hx).1
  have hi' := (List.getElem?_eq_some_iff.1 hx').1
  have ho : single = true → i < t.txOuts.length ∧ i < t'.txOuts.length := by
    intro hs
    obtain ⟨o, h1, h2⟩ := same.out hs
    exact ⟨(List.getElem?_eq_some_iff.1 h1).1, (List.getElem?_eq_some_iff.1 h2).1⟩
  have key : t.digest E single acp i (varBytes script) value = t'.digest E single acp i (varBytes script) value := by
    rw [legacy_digest E hf single acp t h hw i hi (fun hs => (ho hs).1) script hs hz value,
      legacy_digest E hf single acp t' h' hw' i hi' (fun hs => (ho hs).2) script hs hz value, legacyIns_same h h' same,
      same.version, same.lockTime]
    cases single with
    | false => simp [Tx.sig, same.outs rfl]
    | true =>
      have el : t.txIns.length = t'.txIns.length := by
        cases acp with
        | true => exact hl rfl rfl
        | false => simpa using congrArg List.length (same.outpoints rfl)
      obtain ⟨o, h1, h2⟩ := same.out rfl
      simp only [if_true, el, codeSingleOuts, Tx.sig, List.getD_eq_getElem?_getD, List.getElem?_map, h1, h2]
  unfold Tx.digest at key
  cases single with
  | true => exact ⟨fun _ => key, fun h => by cases h⟩
  | false => exact ⟨fun h => (by cases h), fun _ => key⟩

/-- C52 fails for legacy ANYONECANPAY|SINGLE: whenever another input is added, the hashed bytes change. -/
theorem C52_false_legacy (E : Env) (hf : E.net.forkid = none) (t t' : Tx) (h : t.Built E) (h' : t'.Built E)
    (hw : t.flag = none ∧ t.txWitnesses = none) (hw' : t'.flag = none ∧ t'.txWitnesses = none) (i : Nat)
    (same : SameCommitted true true t i t' i) (hl : t.txIns.length ≠ t'.txIns.length)
    (script : Bytes) (hs : script.length ≤ 1650)
    (hz : (E.net.isOverwinter = false ∧ E.net.isSapling = false) ∨ ¬ (253 ≤ script.length ∧ script.length < 256)) (value : Option Bytes) :
    ∃ p p', t.sighashSingle E i (varBytes script) value true = .ok (E.hash256 p) ∧
      t'.sighashSingle E i (varBytes script) value true = .ok (E.hash256 p') ∧ p ≠ p' := by
  obtain ⟨x, x', hx, hx', s1, s2⟩ := same.signed
  have hi := (List.getElem?_eq_some_iff.1 hx).1
  have hi' := (List.getElem?_eq_some_iff.1 hx').1
  obtain ⟨o, h1, h2⟩ := same.out rfl
  have g1 := legacy_digest E hf true true t h hw i hi (fun _ => (List.getElem?_eq_some_iff.1 h1).1) script hs hz value
  have g2 := legacy_digest E hf true true t' h' hw' i hi' (fun _ => (List.getElem?_eq_some_iff.1 h2).1) script hs hz value
  unfold Tx.digest at g1 g2
  simp only [if_true] at g1 g2
  refine ⟨_, _, g1, g2, ?_⟩
  rw [legacyIns_same h h' same, same.version, same.lockTime]
  apply wireLegacy_ne
  · rw [codeSingleOuts_length, codeSingleOuts_length]; exact hl
  · rw [codeSingleOuts_length]; exact h.facts.args.2.2.2.2.2.2.1
  · rw [codeSingleOuts_length]; exact h'.facts.args.2.2.2.2.2.2.1

/-- One input more than `exLegacy`. -/
def exLegacy' : Tx := txObj toyEnv [2, 0, 0, 0] none [exIn, exIn, exIn] [exOut] none [0, 0, 0, 0]
theorem exLegacy'_built : exLegacy'.Built toyEnv := by
  refine ⟨_, _, _, _, _, _, ?_, ?_, ?_, Tx.make_iff.2 ⟨?_, rfl⟩⟩
  · intro i hi; simp at hi; rw [hi]; exact exIn_built
  · intro i hi; simp at hi; rw [hi]; exact exOut_built
  · intro i hi; simp at hi
  · decide

example : SameCommitted true true exLegacy 0 exLegacy' 0 ∧ exLegacy.Built toyEnv ∧ exLegacy'.Built toyEnv ∧
    exLegacy.txIns.length ≠ exLegacy'.txIns.length :=
  ⟨⟨rfl, rfl, ⟨exIn, exIn, rfl, rfl, rfl, rfl⟩, by decide, by decide, by decide, fun _ => ⟨exOut, rfl, rfl⟩⟩, exLegacy_built, exLegacy'_built,
    by decide⟩

/-! ## C53 -/

/-- Equal hashes of different byte strings, among the listed pairs. -/
def Collision (hash : Bytes → Bytes) (pairs : List (Bytes × Bytes)) : Prop := ∃ p ∈ pairs, p.1 ≠ p.2 ∧ hash p.1 = hash p.2

/-- The BIP143 preimage of a request. -/
def preimage143 (E : Env) (t : Tx) (i : Nat) (x : TxIn) (script value : Bytes) (type : Nat) : Bytes :=
  bip143 E.hash256 t.sig i (x.outpoint.txId ++ x.outpoint.index) x.sequence script value type

/-- C53 (BIP143): equal digests mean that hash type, covered parts, script code and value are equal, or that one of five explicit pairs of
byte strings is a hash collision: the preimages, all outpoints, all sequences, all outputs, the signed output. Any two hash types. -/
theorem C53_bip143 (E : Env) (hn : E.net.Supported) (hH : E.H.LengthOK) (single acp single' acp' : Bool) (t t' : Tx) (h : t.Built E)
    (h' : t'.Built E) (hb : E.net.forkid ≠ none ∨ t.flag ≠ none ∨ t.txWitnesses ≠ none)
    (hb' : E.net.forkid ≠ none ∨ t'.flag ≠ none ∨ t'.txWitnesses ≠ none) (i i' : Nat) (x x' : TxIn) (hx : t.txIns[i]? = some x)
    (hx' : t'.txIns[i']? = some x') (ho : single = true → i < t.txOuts.length) (ho' : single' = true → i' < t'.txOuts.length)
    (script script' value value' : Bytes) (hv : value.length = 8) (hv' : value'.length = 8)
    (e : (if single then t.sighashSingle E i script (some value) acp else t.sighashAll E i script (some value) acp) =
      (if single' then t'.sighashSingle E i' script' (some value') acp' else t'.sighashAll E i' script' (some value') acp')) :
    (single = single' ∧ acp = acp' ∧ SameCommitted single acp t i t' i' ∧ script = script' ∧ value = value') ∨
    Collision E.hash256 [
      (preimage143 E t i x script value (typeWord E.net single acp), preimage143 E t' i' x' script' value' (typeWord E.net single' acp')),
      ((t.sig.ins.map (·.1)).flatten, (t'.sig.ins.map (·.1)).flatten), ((t.sig.ins.map (·.2)).flatten, (t'.sig.ins.map (·.2)).flatten),
      (t.sig.outs.flatten, t'.sig.outs.flatten), (t.sig.outs.getD i [], t'.sig.outs.getD i' [])] := by
  obtain ⟨hi, rfl⟩ := List.getElem?_eq_some_iff.1 hx
  obtain ⟨hi', rfl⟩ := List.getElem?_eq_some_iff.1 hx'
  have e' : t.digest E single acp i script (some value) = t'.digest E single' acp' i' script' (some value') := e
  rw [Tx.digest_bip143 hn h hb single acp hi ho script value hv, Tx.digest_bip143 hn h' hb' single' acp' hi' ho' script' value' hv'] at e'
  injection e' with e'
  by_cases c1 : preimage143 E t i t.txIns[i] script value (typeWord E.net single acp) =
      preimage143 E t' i' t'.txIns[i'] script' value' (typeWord E.net single' acp')
  case neg => exact .inr ⟨_, .head _, c1, e'⟩
  by_cases c2 : (t.sig.ins.map (·.1)).flatten = (t'.sig.ins.map (·.1)).flatten ∨
      E.hash256 (t.sig.ins.map (·.1)).flatten ≠ E.hash256 (t'.sig.ins.map (·.1)).flatten
  case neg => exact .inr ⟨_, .tail _ (.head _), fun h => c2 (.inl h), Classical.not_not.1 fun h => c2 (.inr h)⟩
  by_cases c3 : (t.sig.ins.map (·.2)).flatten = (t'.sig.ins.map (·.2)).flatten ∨
      E.hash256 (t.sig.ins.map (·.2)).flatten ≠ E.hash256 (t'.sig.ins.map (·.2)).flatten
  case neg => exact .inr ⟨_, .tail _ (.tail _ (.head _)), fun h => c3 (.inl h), Classical.not_not.1 fun h => c3 (.inr h)⟩
  by_cases c4 : t.sig.outs.flatten = t'.sig.outs.flatten ∨ E.hash256 t.sig.outs.flatten ≠ E.hash256 t'.sig.outs.flatten
  case neg => exact .inr ⟨_, .tail _ (.tail _ (.tail _ (.head _))), fun h => c4 (.inl h), Classical.not_not.1 fun h => c4 (.inr h)⟩
  by_cases c5 : t.sig.outs.getD i [] = t'.sig.outs.getD i' [] ∨ E.hash256 (t.sig.outs.getD i []) ≠ E.hash256 (t'.sig.outs.getD i' [])
  case neg => exact .inr ⟨_, .tail _ (.tail _ (.tail _ (.tail _ (.head _)))), fun h => c5 (.inl h), Classical.not_not.1 fun h => c5 (.inr h)⟩
  left
  have b1 := (h.facts.ins _ (List.getElem_mem hi)).eq
  have b2 := (h'.facts.ins _ (List.getElem_mem hi')).eq
  have a1 := h.facts.args
  have a2 := h'.facts.args
  obtain ⟨f1, f2, f3⟩ := typeWord_facts hn single acp
  obtain ⟨g1, g2, g3⟩ := typeWord_facts hn single' acp'
  obtain ⟨r1, r2, r3, r4, r5, r6, r7, r8, r9, r10⟩ := bip143_inj (fun b => E.hash256_length hH b)
    (t := t.sig) (t' := t'.sig) a1.1 a2.1 a1.2.1 a2.2.1
    b1.1.len36 b2.1.len36 b1.2.1 b2.2.1 hv hv' f3 g3 c1
  obtain ⟨rfl, rfl⟩ := typeWord_inj hn r10
  refine ⟨rfl, rfl, ?_, r5, r6⟩
  refine ⟨r1, r9, ⟨_, _, hx, hx', b1.1.inj b2.1 r4, r7⟩, ?_, ?_, ?_, ?_⟩
  · rintro rfl
    unfold hashPrevouts at r2
    rw [f1] at r2
    simp only [Bool.false_eq_true, if_false] at r2
    exact sig_prevouts_inj h h' (c2.resolve_right (fun hh => hh r2))
  · rintro rfl rfl
    unfold hashSequence at r3
    rw [f1, f2] at r3
    simp only [Bool.false_eq_true, if_false] at r3
    exact sig_sequences_inj h h' (c3.resolve_right (fun hh => hh r3))
  · rintro rfl
    unfold Spec.hashOutputs at r8
    rw [f2] at r8
    simp only [Bool.false_eq_true, if_false] at r8
    exact sig_outs_inj h h' (c4.resolve_right (fun hh => hh r8))
  · rintro rfl
    have l1 := ho rfl
    have l2 := ho' rfl
    unfold Spec.hashOutputs at r8
    rw [f2] at r8
    have q1 : t.sig.outs[i]? = some t.txOuts[i].bytes := by
      simp only [Tx.sig]; rw [← outs_map h]; simp [l1]
    have q2 : t'.sig.outs[i']? = some t'.txOuts[i'].bytes := by
      simp only [Tx.sig]; rw [← outs_map h']; simp [l2]
    rw [q1, q2] at r8
    simp only [List.getD_eq_getElem?_getD, q1, q2, Option.getD_some] at c5
    have ee := c5.resolve_right (fun hh => hh (by simpa using r8))
    have := ((h.facts.outs _ (List.getElem_mem l1)).inj (h'.facts.outs _ (List.getElem_mem l2)) (r := []) (s := []) (by rw [ee])).1
    exact ⟨_, List.getElem?_eq_getElem l1, by rw [this]; exact List.getElem?_eq_getElem l2⟩

example : exTx.Built toyEnv ∧ toyEnv.H.LengthOK ∧ toyEnv.net.Supported ∧ exTx.flag ≠ none ∧ exTx.txIns[0]? = some exIn :=
  ⟨exTx_built, toyHashes_ok, by unfold Network.Supported; decide +kernel, by decide, rfl⟩

/-- C53 (legacy SIGHASH_ALL, with and without ANYONECANPAY): equal digests mean equal type, covered parts and script (where two requests
on different inputs can only agree if both scripts are empty or ANYONECANPAY is set), or the two preimages collide. -/
theorem C53_legacy (E : Env) (hf : E.net.forkid = none) (acp acp' : Bool) (t t' : Tx) (h : t.Built E) (h' : t'.Built E)
    (hw : t.flag = none ∧ t.txWitnesses = none) (hw' : t'.flag = none ∧ t'.txWitnesses = none) (i i' : Nat) (hi : i < t.txIns.length)
    (hi' : i' < t'.txIns.length) (script script' : Bytes) (hs : script.length ≤ 1650) (hs' : script'.length ≤ 1650)
    (hz : (E.net.isOverwinter = false ∧ E.net.isSapling = false) ∨ ¬ (253 ≤ script.length ∧ script.length < 256))
    (hz' : (E.net.isOverwinter = false ∧ E.net.isSapling = false) ∨ ¬ (253 ≤ script'.length ∧ script'.length < 256))
    (value value' : Option Bytes)
    (e : t.sighashAll E i (varBytes script) value acp = t'.sighashAll E i' (varBytes script') value' acp') :
    (acp = acp' ∧ t.version = t'.version ∧ t.lockTime = t'.lockTime ∧ t.txOuts = t'.txOuts ∧ script = script' ∧
      (acp = false → t.txIns.map (·.outpoint) = t'.txIns.map (·.outpoint) ∧ t.txIns.map (·.sequence) = t'.txIns.map (·.sequence) ∧
        (i = i' ∨ script = [])) ∧
      (acp = true → t.txIns[i].outpoint = t'.txIns[i'].outpoint ∧ t.txIns[i].sequence = t'.txIns[i'].sequence)) ∨
    Collision E.hash256 [(legacyPreimage t.sig i script (if acp then 0x81 else 0x01),
      legacyPreimage t'.sig i' script' (if acp' then 0x81 else 0x01))] := by
  rw [C48_all E hf t h hw i i (.inl rfl) hi script hs hz, C48_all E hf t' h' hw' i' i' (.inl rfl) hi' script' hs' hz'] at e
  injection e with e
  have st : ∀ acp : Bool, (if acp then 0x81 else 0x01 : Nat) = sigType false acp := by intro a; cases a <;> rfl
  rw [st, st] at e ⊢
  by_cases c : legacyPreimage t.sig i script (sigType false acp) = legacyPreimage t'.sig i' script' (sigType false acp')
  case neg => exact .inr ⟨_, .head _, c, e⟩
  left
  obtain ⟨f1, f2, f3, -⟩ := sigType_facts false acp
  obtain ⟨g1, g2, g3, -⟩ := sigType_facts false acp'
  simp only [Bool.false_eq_true, if_false] at f2 g2
  have o1 : legacyOuts t.sig i (sigType false acp) = t.sig.outs := by unfold legacyOuts; rw [f2]; rfl
  have o2 : legacyOuts t'.sig i' (sigType false acp') = t'.sig.outs := by unfold legacyOuts; rw [g2]; rfl
  unfold legacyPreimage at c
  rw [o1, o2] at c
  have p1 := legacyIns_pieces h (i := i) f2 (s := script) (by omega)
  have p2 := legacyIns_pieces h' (i := i') g2 (s := script') (by omega)
  have a1 := h.facts.args
  have a2 := h'.facts.args
  obtain ⟨r1, r2, r3, r4, r5⟩ := wireLegacy_inj inPiece_selfDelim TxOut.selfDelim a1.1 a2.1 a1.2.1 a2.2.1 p1.1 p2.1
    (outs_pieces h).1 (outs_pieces h').1 p1.2 p2.2 (outs_pieces h).2 (outs_pieces h').2 c
  have hT := leBytes4_inj f3 g3 r5
  have hacp : acp = acp' := by rw [hT] at f1; exact f1.symm.trans g1
  subst hacp
  have hs64 : script.length < 2 ^ 64 := by omega
  have hs64' : script'.length < 2 ^ 64 := by omega
  have fin : script = script' ∧ (acp = false → t.txIns.map (·.outpoint) = t'.txIns.map (·.outpoint) ∧
        t.txIns.map (·.sequence) = t'.txIns.map (·.sequence) ∧ (i = i' ∨ script = [])) ∧
      (acp = true → t.txIns[i].outpoint = t'.txIns[i'].outpoint ∧ t.txIns[i].sequence = t'.txIns[i'].sequence) := by
    have b1 := (h.facts.ins _ (List.getElem_mem hi)).eq
    have b2 := (h'.facts.ins _ (List.getElem_mem hi')).eq
    cases acp with
    | true =>
      rw [legacyIns_acp h f1 hi, legacyIns_acp h' f1 hi'] at r2
      injection r2 with r2 _
      obtain ⟨q1, q2, q3, _⟩ := piece_inj (r := []) (r' := []) b1.1.len36
        b2.1.len36 hs64 hs64' b1.2.1 b2.2.1 (by rw [r2])
      exact ⟨q2, fun h => (by cases h), fun _ => ⟨b1.1.inj b2.1 q1, q3⟩⟩
    | false =>
      unfold legacyIns at r2
      simp only [f1, Bool.false_eq_true, if_false] at r2
      have el : t.txIns.length = t'.txIns.length := by
        have := congrArg List.length r2
        simpa [Tx.sig] using this
      have at' : ∀ j (hj : j < t.txIns.length) (hj' : j < t'.txIns.length), t.txIns[j].outpoint = t'.txIns[j].outpoint ∧
          (if j = i then script else []) = (if j = i' then script' else []) ∧ t.txIns[j].sequence = t'.txIns[j].sequence := by
        intro j hj hj'
        have := congrArg (fun l => l[j]?) r2
        simp only [Tx.sig, List.getElem?_mapIdx, List.getElem?_map, List.getElem?_eq_getElem hj, List.getElem?_eq_getElem hj',
          Option.map_some, legacyIn_all f2, Option.some.injEq] at this
        have b1 := (h.facts.ins _ (List.getElem_mem hj)).eq
        have b2 := (h'.facts.ins _ (List.getElem_mem hj')).eq
        obtain ⟨q1, q2, q3, _⟩ := piece_inj (r := []) (r' := []) b1.1.len36
          b2.1.len36 (s := if j = i then script else []) (s' := if j = i' then script' else [])
          (by split <;> simp [hs64]) (by split <;> simp [hs64']) b1.2.1 b2.2.1
          (by rw [this])
        exact ⟨b1.1.inj b2.1 q1, q2, q3⟩
      have hlists : t.txIns.map (·.outpoint) = t'.txIns.map (·.outpoint) ∧ t.txIns.map (·.sequence) = t'.txIns.map (·.sequence) := by
        constructor
        · apply List.ext_getElem (by simp [el])
          intro j h1 h2
          simp only [List.length_map] at h1 h2
          simpa using (at' j h1 h2).1
        · apply List.ext_getElem (by simp [el])
          intro j h1 h2
          simp only [List.length_map] at h1 h2
          simpa using (at' j h1 h2).2.2
      have hsc := (at' i hi (by omega)).2.1
      have hsc' := (at' i' (by omega) hi').2.1
      by_cases ci : i = i'
      · rw [if_pos rfl, if_pos ci] at hsc
        exact ⟨hsc, fun _ => ⟨hlists.1, hlists.2, .inl ci⟩, fun h => by cases h⟩
      · rw [if_pos rfl, if_neg ci] at hsc
        rw [if_pos rfl, if_neg (fun h => ci h.symm)] at hsc'
        exact ⟨by rw [hsc, ← hsc'], fun _ => ⟨hlists.1, hlists.2, .inr hsc⟩, fun h => by cases h⟩
  refine ⟨rfl, r1, r4, sig_outs_inj h h' (by rw [r3]), fin⟩

example : exLegacy.Built toyEnv ∧ exLegacy'.Built toyEnv ∧ exLegacy.flag = none ∧ exLegacy.txWitnesses = none ∧ 1 < exLegacy.txIns.length :=
  ⟨exLegacy_built, exLegacy'_built, rfl, rfl, by decide⟩

end Verif.Props
