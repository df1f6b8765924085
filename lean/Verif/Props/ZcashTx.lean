import Verif.Props.Zcash
import Verif.Lemmas.Sprout2

/-! Properties C45 (Zcash), C44 (Zcash), C55, C57, C58, C59, C62 (Zcash) and C75: Zcash transactions. -/

namespace Verif.Props
open Verif Spec

attribute [local irreducible] Env.hash256

theorem sameIns {ins ins' : List TxIn} (h : List.Forall₂ SameIn ins ins') :
    ins'.map (·.outpoint) = ins.map (·.outpoint) ∧ ins'.map (·.scriptSig) = ins.map (·.scriptSig) ∧
    ins'.map (·.sequence) = ins.map (·.sequence) := by
  induction h with
  | nil => exact ⟨rfl, rfl, rfl⟩
  | cons h _ ih =>
    obtain ⟨_, h1, h2, h3⟩ := h
    simp [h1, h2, h3, ih]

theorem ins_wire {ins : List TxIn} (h : ∀ i ∈ ins, i.Built) :
    ins.map (·.bytes) = ins.map fun i => wireIn i.outpoint.txId i.outpoint.index i.scriptSig i.sequence :=
  List.map_congr_left fun i hi => (h i hi).wire

theorem outs_wire' {outs : List TxOut} (h : ∀ o ∈ outs, o.Built) :
    outs.map (·.bytes) = outs.map fun o => wireOut o.value o.outputScript :=
  List.map_congr_left fun o ho => (h o ho).eq.2.2

/-! ### concrete transactions for the examples -/

def sproutEnv : Env := ⟨zcashSproutMain, toyHashes⟩
def overEnv : Env := ⟨zcashOverwinterMain, toyHashes⟩
def sapEnv : Env := ⟨zcashSaplingMain, toyHashes⟩

theorem zcash_supported : sproutEnv.net.Supported ∧ overEnv.net.Supported ∧ sapEnv.net.Supported := by
  unfold Network.Supported; decide +kernel

theorem exIn_stable' (net : Network) : exIn.Stable net :=
  ⟨.inr (by decide), .inr (.inl ⟨[.push [7], .push [0x51, 0x51]], by simp [ScriptItem.Valid], by decide⟩)⟩

theorem replicate_mem {α : Type} {P : α → Prop} {a : α} (h : P a) (n : Nat) : ∀ x ∈ List.replicate n a, P x := by
  intro x hx; rw [List.eq_of_mem_replicate hx]; exact h

theorem flatten_replicate_length (n : Nat) (b : Bytes) : (List.replicate n b).flatten.length = n * b.length := by
  simp

/-- A version 2 transaction with a joinsplit. -/
def exSprout2 : SproutTx :=
  sproutObj sproutEnv v2 [exIn] [exOut, exOut] [0, 0, 0, 0] [exSproutJs] (some (List.replicate 32 9)) (some (List.replicate 64 8))

theorem compactSize_1 : compactSize 1 = [1] := by decide
theorem compactSize_2 : compactSize 2 = [2] := by decide
theorem compactSize_0 : compactSize 0 = [0] := by decide
theorem compactSize_256 : compactSize 256 = [0xfd, 0, 1] := by decide
theorem exIn_len : exIn.bytes.length = 46 := by decide
theorem exOut_len : exOut.bytes.length = 10 := by decide
theorem exSproutJs_len : exSproutJs.bytes.length = 1802 := (exSproutJs_built (net := zcashSproutMain) (by decide)).length
theorem exSaplingJs_len : exSaplingJs.bytes.length = 1698 := (exSaplingJs_built (net := zcashSaplingMain) (by decide)).length
theorem exSpend_len : exSpend.bytes.length = 384 := (exSpend_built (net := zcashSaplingMain) (by decide)).length
theorem exShieldedOut_len : exShieldedOut.bytes.length = 948 := (exShieldedOut_built (net := zcashSaplingMain) (by decide)).length

theorem exSprout2_built : exSprout2.Built sproutEnv := by
  refine ⟨v2, [exIn], [exOut, exOut], [0, 0, 0, 0], some [exSproutJs], some (List.replicate 32 9), some (List.replicate 64 8), ?_, ?_, ?_, ?_⟩
  · simpa using exIn_built
  · simpa using exOut_built
  · simpa using exSproutJs_built (by decide)
  · refine SproutTx.make_iff.2 ⟨⟨by decide, by decide, rfl, rfl, .inr ⟨rfl, ⟨_, rfl, by decide⟩, ⟨_, rfl, List.length_replicate⟩,
      _, rfl, .inr List.length_replicate⟩, by decide, by decide, ?_⟩, rfl⟩
    rw [sproutBytes_v2 rfl]
    simp [wireLegacy, vector, compactSize_1, compactSize_2, exIn_len, exOut_len, exSproutJs_len]

/-- A version 1 transaction. -/
def exSprout1 : SproutTx := sproutObj sproutEnv v1 [exIn] [exOut] [0, 0, 0, 0] [] none none

theorem exSprout1_built : exSprout1.Built sproutEnv := by
  refine ⟨v1, [exIn], [exOut], [0, 0, 0, 0], some [], none, none, ?_, ?_, ?_, ?_⟩
  · simpa using exIn_built
  · simpa using exOut_built
  · simp
  · refine SproutTx.make_iff.2 ⟨⟨by decide, by decide, rfl, rfl, .inl ⟨rfl, rfl, by simp⟩, by decide, by decide, ?_⟩, rfl⟩
    rw [sproutBytes_v1 rfl]
    simp [wireLegacy, vector, compactSize_1, exIn_len, exOut_len]

/-- An Overwinter transaction with a joinsplit and `n` outputs. -/
def exOver (n : Nat) : OverwinterTx :=
  overObj overEnv [exIn] (List.replicate n exOut) [0, 0, 0, 0] [9, 0, 0, 0] [exSproutJs] (some (List.replicate 32 9)) (some (List.replicate 64 8))

theorem exOver_built {n : Nat} (h : n ≤ 1000) : (exOver n).Built overEnv := by
  refine ⟨[exIn], List.replicate n exOut, [0, 0, 0, 0], [9, 0, 0, 0], [exSproutJs], some (List.replicate 32 9), some (List.replicate 64 8),
    ?_, ?_, ?_, ?_⟩
  · simpa using exIn_built
  · exact replicate_mem exOut_built n
  · simpa using exSproutJs_built (by decide)
  · refine OverwinterTx.make_iff.2 ⟨⟨by decide, by decide, rfl, rfl, by decide, by decide, fun _ => ⟨⟨_, rfl, List.length_replicate⟩,
      _, rfl, List.length_replicate⟩, by simp, by decide, by rw [List.length_replicate]; omega, ?_⟩, rfl⟩
    have : (compactSize n).length ≤ 3 := by
      unfold compactSize; split
      · simp [leBytes]
      · rw [if_pos (by omega)]; simp [leBytes]
    simp [wireOverwinter, wireJoinsplits, vector, compactSize_1, exIn_len, exOut_len, exSproutJs_len]
    omega

/-- A Sapling transaction with a joinsplit, a shielded spend, a shielded output, balance -3 and `n` transparent outputs. -/
def exSap (n : Nat) : SaplingTx :=
  saplingObj sapEnv [exIn] (List.replicate n exOut) [0, 0, 0, 0] [9, 0, 0, 0] [0xfd, 0xff, 0xff, 0xff, 0xff, 0xff, 0xff, 0xff]
    [exSpend] [exShieldedOut] [exSaplingJs] (some (List.replicate 32 9)) (some (List.replicate 64 8)) (some (List.replicate 64 7))

theorem exSap_built {n : Nat} (h : n ≤ 1000) : (exSap n).Built sapEnv := by
  refine ⟨[exIn], List.replicate n exOut, [0, 0, 0, 0], [9, 0, 0, 0], [0xfd, 0xff, 0xff, 0xff, 0xff, 0xff, 0xff, 0xff], [exSpend],
    [exShieldedOut], [exSaplingJs], some (List.replicate 32 9), some (List.replicate 64 8), some (List.replicate 64 7), ?_, ?_, ?_, ?_, ?_, ?_⟩
  · simpa using exIn_built
  · exact replicate_mem exOut_built n
  · simpa using exSpend_built (by decide)
  · simpa using exShieldedOut_built (by decide)
  · simpa using exSaplingJs_built (by decide)
  · refine SaplingTx.make_iff.2 ⟨⟨by decide, by decide, rfl, rfl, rfl, by decide, by simp, ?_, fun _ => ⟨_, rfl⟩, by decide,
      fun _ => ⟨⟨_, rfl, List.length_replicate⟩, _, rfl, List.length_replicate⟩, by simp, by decide, by rw [List.length_replicate]; omega,
      by decide, by decide, ?_⟩, rfl⟩
    · rintro s hs; cases hs; exact List.length_replicate
    · have : (compactSize n).length ≤ 3 := by
        unfold compactSize; split
        · simp [leBytes]
        · rw [if_pos (by omega)]; simp [leBytes]
      rw [saplingBytes_wire]
      simp only [vector, List.map_cons, List.map_nil, List.map_replicate, List.length_append, List.flatten_cons, List.flatten_nil,
        flatten_replicate_length, List.length_replicate, List.length_cons, List.length_nil, compactSize_1, Option.getD_some, List.cons_ne_nil,
        false_and, if_false, exIn_len, exOut_len, exSaplingJs_len, exSpend_len, exShieldedOut_len]
      rw [show (compactSize (0 + 1)).length = 1 from rfl]
      omega

theorem ex_stable (net : Network) {n : Nat} (h : n < 253 ∨ 256 ≤ n) :
    InsOutsStable net [exIn] (List.replicate n exOut) :=
  ⟨.inr (by decide), .inr (by rw [List.length_replicate]; omega), by simpa using exIn_stable' net, replicate_mem (by decide) n⟩

theorem sproutObj_ins {E : Env} {v : Bytes} {ins ins' : List TxIn} {outs : List TxOut} {lt : Bytes} {js : List SproutJoinsplit}
    {pk sig : Option Bytes} (h : ins'.map (·.bytes) = ins.map (·.bytes)) :
    sproutObj E v ins' outs lt js pk sig = { sproutObj E v ins outs lt js pk sig with txIns := ins' } := by
  unfold sproutObj; rw [h]

theorem overObj_ins {E : Env} {ins ins' : List TxIn} {outs : List TxOut} {lt ex : Bytes} {js : List SproutJoinsplit}
    {pk sig : Option Bytes} (h : ins'.map (·.bytes) = ins.map (·.bytes)) :
    overObj E ins' outs lt ex js pk sig = { overObj E ins outs lt ex js pk sig with txIns := ins' } := by
  unfold overObj; rw [h]

theorem saplingObj_ins {E : Env} {ins ins' : List TxIn} {outs : List TxOut} {lt ex vb : Bytes} {ss : List SaplingShieldedSpend}
    {so : List SaplingShieldedOutput} {js : List SaplingJoinsplit} {pk sig bs : Option Bytes} (h : ins'.map (·.bytes) = ins.map (·.bytes)) :
    saplingObj E ins' outs lt ex vb ss so js pk sig bs = { saplingObj E ins outs lt ex vb ss so js pk sig bs with txIns := ins' } := by
  unfold saplingObj saplingBytes; rw [h]

/-! ## C55 -/

/-- C55: a version 2 transaction with a 64-byte joinsplit signature parses back, whatever follows; also one with an empty signature
when nothing follows. Inputs and outputs have to be ones that parse back (C38, C39). -/
theorem C55_roundtrip (E : Env) (hn : E.net.Supported) (t : SproutTx) (h : t.Built E) (hs : InsOutsStable E.net t.txIns t.txOuts)
    (hv : t.version = [2, 0, 0, 0]) (rest : Bytes)
    (hsig : (∃ s, t.joinsplitSig = some s ∧ s.length = 64) ∨ (t.joinsplitSig = some [] ∧ rest = [])) :
    ∃ t', SproutTx.fromBytes E (t.bytes ++ rest) = .ok t' ∧ t'.bytes = t.bytes ∧ t'.version = t.version ∧ t'.lockTime = t.lockTime ∧
      t'.txOuts = t.txOuts ∧ t'.txJoinsplits = t.txJoinsplits ∧ t'.joinsplitPubkey = t.joinsplitPubkey ∧ t'.joinsplitSig = t.joinsplitSig ∧
      t'.hsigs = t.hsigs ∧ t'.primaryInputs = t.primaryInputs ∧ t'.txId = t.txId ∧ t'.txIdLe = t.txIdLe ∧
      t'.txIns.map (·.bytes) = t.txIns.map (·.bytes) ∧
      t'.txIns.map (·.outpoint) = t.txIns.map (·.outpoint) ∧ t'.txIns.map (·.scriptSig) = t.txIns.map (·.scriptSig) ∧
      t'.txIns.map (·.sequence) = t.txIns.map (·.sequence) := by
  have f := h.facts
  obtain ⟨s, e, hl⟩ : ∃ s, t.joinsplitSig = some s ∧ (s.length = 64 ∨ (s = [] ∧ rest = [])) := by
    rcases hsig with ⟨s, e, hl⟩ | ⟨e, hr⟩
    · exact ⟨s, e, .inl hl⟩
    · exact ⟨[], e, .inr ⟨rfl, hr⟩⟩
  obtain ⟨ins', p, q, r⟩ := SproutTx.fromBytes_bytes hn f hs hv e rest hl
  obtain ⟨s1, s2, s3⟩ := sameIns p
  refine ⟨_, r, ?_⟩
  rw [sproutObj_ins q, ← f.obj]
  exact ⟨rfl, rfl, rfl, rfl, rfl, rfl, rfl, rfl, rfl, rfl, rfl, q, s1, s2, s3⟩

example : sproutEnv.net.Supported ∧ exSprout2.Built sproutEnv ∧ InsOutsStable sproutEnv.net exSprout2.txIns exSprout2.txOuts ∧
    exSprout2.version = [2, 0, 0, 0] ∧ ∃ s, exSprout2.joinsplitSig = some s ∧ s.length = 64 :=
  ⟨zcash_supported.1, exSprout2_built, ex_stable _ (n := 2) (by omega), rfl, _, rfl, List.length_replicate⟩

/-- C55 is false for version 1: a serialized version 1 transaction never parses; when inputs and outputs do, the error is a TypeError. -/
theorem C55_false_v1 (E : Env) (t : SproutTx) (h : t.Built E) (hv : t.version = [1, 0, 0, 0]) (rest : Bytes) :
    (∀ t', SproutTx.fromBytes E (t.bytes ++ rest) ≠ .ok t') ∧
    (E.net.Supported → InsOutsStable E.net t.txIns t.txOuts → SproutTx.fromBytes E (t.bytes ++ rest) = .error .typeError) := by
  have f := h.facts
  refine ⟨fun t' => SproutTx.fromBytes_v1 ?_ t', fun hn hs => SproutTx.fromBytes_v1_error hn f hs hv rest⟩
  have : slice (t.bytes ++ rest) 0 4 = t.version := by
    rw [f.bytes, sproutBytes_v1 hv, wireLegacy]
    simp only [List.append_assoc]
    exact slice_take f.args.v4
  rw [this, hv]; decide

example : sproutEnv.net.Supported ∧ exSprout1.Built sproutEnv ∧ InsOutsStable sproutEnv.net exSprout1.txIns exSprout1.txOuts ∧
    exSprout1.version = [1, 0, 0, 0] := ⟨zcash_supported.1, exSprout1_built, ex_stable _ (n := 1) (by omega), rfl⟩

/-! ## C57 -/

/-- C57 up to the limit at which it fails: an Overwinter transaction parses back, whatever follows, if it has no joinsplits or fewer
than 253 outputs. (Inputs and outputs have to be ones that parse back; the vectors' sizes are not in the range 253..255 that
`VarInt.from_bytes` rejects on these networks, C08.) -/
theorem C57_roundtrip_partial (E : Env) (hn : E.net.Supported) (t : OverwinterTx) (h : t.Built E)
    (hs : InsOutsStable E.net t.txIns t.txOuts) (hc : t.txJoinsplits = [] ∨ t.txOuts.length < 253) (rest : Bytes) :
    ∃ t', OverwinterTx.fromBytes E (t.bytes ++ rest) = .ok t' ∧ t'.bytes = t.bytes ∧ t'.lockTime = t.lockTime ∧
      t'.expiryHeight = t.expiryHeight ∧
      t'.txOuts = t.txOuts ∧ t'.txJoinsplits = t.txJoinsplits ∧ t'.joinsplitPubkey = t.joinsplitPubkey ∧ t'.joinsplitSig = t.joinsplitSig ∧
      t'.hsigs = t.hsigs ∧ t'.primaryInputs = t.primaryInputs ∧ t'.txId = t.txId ∧ t'.txIdLe = t.txIdLe ∧
      t'.txIns.map (·.bytes) = t.txIns.map (·.bytes) ∧
      t'.txIns.map (·.outpoint) = t.txIns.map (·.outpoint) ∧ t'.txIns.map (·.scriptSig) = t.txIns.map (·.scriptSig) ∧
      t'.txIns.map (·.sequence) = t.txIns.map (·.sequence) := by
  have f := h.facts
  obtain ⟨ins', p, q, r⟩ := OverwinterTx.fromBytes_bytes hn f hs hc rest
  obtain ⟨s1, s2, s3⟩ := sameIns p
  refine ⟨_, r, ?_⟩
  rw [overObj_ins q, ← f.obj]
  exact ⟨rfl, rfl, rfl, rfl, rfl, rfl, rfl, rfl, rfl, rfl, rfl, q, s1, s2, s3⟩

example : overEnv.net.Supported ∧ (exOver 3).Built overEnv ∧ InsOutsStable overEnv.net (exOver 3).txIns (exOver 3).txOuts ∧
    (exOver 3).txOuts.length < 253 := ⟨zcash_supported.2.1, exOver_built (by omega), ex_stable _ (by omega), by decide⟩

/-- C57 is false beyond: with joinsplits and 253 or more outputs the serialized transaction is always rejected, although inputs and
outputs parse back. -/
theorem C57_false (E : Env) (hn : E.net.Supported) (t : OverwinterTx) (h : t.Built E) (hs : InsOutsStable E.net t.txIns t.txOuts)
    (hj : t.txJoinsplits ≠ []) (hm : 253 ≤ t.txOuts.length) : OverwinterTx.fromBytes E t.bytes = .error .valueError :=
  OverwinterTx.fromBytes_many hn h.facts hs hj hm

/-- A transaction that shows it: 256 outputs and one joinsplit. -/
example : overEnv.net.Supported ∧ (exOver 256).Built overEnv ∧ InsOutsStable overEnv.net (exOver 256).txIns (exOver 256).txOuts ∧
    (exOver 256).txJoinsplits ≠ [] ∧ 253 ≤ (exOver 256).txOuts.length :=
  ⟨zcash_supported.2.1, exOver_built (by omega), ex_stable _ (by omega), List.cons_ne_nil _ _,
    by rw [show (exOver 256).txOuts = List.replicate 256 exOut from rfl, List.length_replicate]; omega⟩

/-! ## C58 -/

/-- C58 up to the limit at which it fails: a Sapling transaction parses back, whatever follows, if it has neither joinsplits nor
shielded parts, or fewer than 253 transparent outputs. -/
theorem C58_roundtrip_partial (E : Env) (hn : E.net.Supported) (t : SaplingTx) (h : t.Built E)
    (hs : InsOutsStable E.net t.txIns t.txOuts) (hss : ¬ (253 ≤ t.txShieldedSpends.length ∧ t.txShieldedSpends.length < 256))
    (hc : (t.txJoinsplits = [] ∧ t.txShieldedSpends = [] ∧ t.txShieldedOutputs = []) ∨ t.txOuts.length < 253) (rest : Bytes) :
    ∃ t', SaplingTx.fromBytes E (t.bytes ++ rest) = .ok t' ∧ t'.bytes = t.bytes ∧ t'.lockTime = t.lockTime ∧
      t'.expiryHeight = t.expiryHeight ∧ t'.valueBalance = t.valueBalance ∧ t'.txShieldedSpends = t.txShieldedSpends ∧
      t'.txShieldedOutputs = t.txShieldedOutputs ∧ t'.bindingSig = t.bindingSig ∧
      t'.txOuts = t.txOuts ∧ t'.txJoinsplits = t.txJoinsplits ∧ t'.joinsplitPubkey = t.joinsplitPubkey ∧ t'.joinsplitSig = t.joinsplitSig ∧
      t'.hsigs = t.hsigs ∧ t'.primaryInputs = t.primaryInputs ∧ t'.txId = t.txId ∧ t'.txIdLe = t.txIdLe ∧
      t'.txIns.map (·.bytes) = t.txIns.map (·.bytes) ∧
      t'.txIns.map (·.outpoint) = t.txIns.map (·.outpoint) ∧ t'.txIns.map (·.scriptSig) = t.txIns.map (·.scriptSig) ∧
      t'.txIns.map (·.sequence) = t.txIns.map (·.sequence) := by
  have f := h.facts
  obtain ⟨ins', p, q, r⟩ := SaplingTx.fromBytes_bytes hn f hs (.inr hss) hc rest
  obtain ⟨s1, s2, s3⟩ := sameIns p
  refine ⟨_, r, ?_⟩
  rw [saplingObj_ins q, ← f.obj]
  exact ⟨rfl, rfl, rfl, rfl, rfl, rfl, rfl, rfl, rfl, rfl, rfl, rfl, rfl, rfl, rfl, q, s1, s2, s3⟩

example : sapEnv.net.Supported ∧ (exSap 3).Built sapEnv ∧ InsOutsStable sapEnv.net (exSap 3).txIns (exSap 3).txOuts ∧
    (exSap 3).txShieldedSpends.length < 253 ∧ (exSap 3).txOuts.length < 253 :=
  ⟨zcash_supported.2.2, exSap_built (by omega), ex_stable _ (by omega), by decide, by decide⟩

/-- C58 is false beyond: with joinsplits or shielded parts and 253 or more outputs the serialized transaction is always rejected. -/
theorem C58_false (E : Env) (hn : E.net.Supported) (t : SaplingTx) (h : t.Built E) (hs : InsOutsStable E.net t.txIns t.txOuts)
    (hss : ¬ (253 ≤ t.txShieldedSpends.length ∧ t.txShieldedSpends.length < 256))
    (hj : t.txJoinsplits ≠ [] ∨ t.txShieldedSpends ≠ [] ∨ t.txShieldedOutputs ≠ []) (hm : 253 ≤ t.txOuts.length) :
    SaplingTx.fromBytes E t.bytes = .error .valueError :=
  SaplingTx.fromBytes_many hn h.facts hs (.inr hss) hj hm

example : sapEnv.net.Supported ∧ (exSap 256).Built sapEnv ∧ InsOutsStable sapEnv.net (exSap 256).txIns (exSap 256).txOuts ∧
    (exSap 256).txShieldedSpends.length < 253 ∧ (exSap 256).txJoinsplits ≠ [] ∧ 253 ≤ (exSap 256).txOuts.length :=
  ⟨zcash_supported.2.2, exSap_built (by omega), ex_stable _ (by omega), (by decide : [exSpend].length < 253), List.cons_ne_nil _ _,
    by rw [show (exSap 256).txOuts = List.replicate 256 exOut from rfl, List.length_replicate]; omega⟩

/-- The counts 253, 254 and 255 are refused on Overwinter and Sapling networks. -/
theorem fromBytes_count {net : Network} (hz : net.isOverwinter = true ∨ net.isSapling = true) {n : Nat} (h1 : 253 ≤ n) (h2 : n < 256) (rest : Bytes) :
    VarInt.fromBytes net (compactSize n ++ rest) = .error .valueError := by
  have c : n = 253 ∨ n = 254 ∨ n = 255 := by omega
  have e : compactSize n = [0xfd, UInt8.ofNat n, 0] := by
    rcases c with rfl | rfl | rfl <;> decide
  rw [e]
  rcases c with rfl | rfl | rfl <;> rcases hz with k | k <;> simp [VarInt.fromBytes, VarInt.split, k, slice] <;> decide

/-- C58 is false for 253, 254 and 255 shielded spends too: the serialized transaction is always rejected, whatever follows. -/
theorem C58_false_spends (E : Env) (hn : E.net.Supported) (t : SaplingTx) (h : t.Built E) (hs : InsOutsStable E.net t.txIns t.txOuts)
    (h1 : 253 ≤ t.txShieldedSpends.length) (h2 : t.txShieldedSpends.length < 256) (rest : Bytes) :
    SaplingTx.fromBytes E (t.bytes ++ rest) = .error .valueError := by
  have f := h.facts
  have a := f.args
  generalize hT : (t.txShieldedSpends.map (·.bytes)).flatten ++ (vector (t.txShieldedOutputs.map (·.bytes)) ++ (compactSize t.txJoinsplits.length ++
    ((t.txJoinsplits.map (·.bytes)).flatten ++ ((if t.txJoinsplits = [] then [] else t.joinsplitPubkey.getD [] ++ t.joinsplitSig.getD []) ++
      ((if t.txShieldedSpends = [] ∧ t.txShieldedOutputs = [] then [] else t.bindingSig.getD []) ++ rest))))) = T
  obtain ⟨ins', -, -, p⟩ := SaplingTx.fromBytes_start hn f.ins f.outs hs a.li a.lo a.lt4 a.ex4 a.vb8 (compactSize t.txShieldedSpends.length ++ T)
  have hB : t.bytes ++ rest = saplingHeader ++ (vector (t.txIns.map (·.bytes)) ++ (vector (t.txOuts.map (·.bytes)) ++ (t.lockTime ++
      (t.expiryHeight ++ (t.valueBalance ++ (compactSize t.txShieldedSpends.length ++ T)))))) := by
    rw [f.bytes, saplingBytes_wire, ← hT]; simp only [vector, List.append_assoc, List.length_map]
  rw [p _ hB]
  unfold SaplingTx.parseRest
  have d := List.drop_left' (l₁ := saplingHeader ++ (vector (t.txIns.map (·.bytes)) ++ (vector (t.txOuts.map (·.bytes)) ++ (t.lockTime ++
      (t.expiryHeight ++ t.valueBalance))))) (l₂ := compactSize t.txShieldedSpends.length ++ T) rfl
  simp only [List.append_assoc] at d
  rw [← hB] at d
  rw [d, fromBytes_count (.inr a.sp) h1 h2]
  rfl

/-- A Sapling transaction with `n` shielded spends. -/
def exSpends (n : Nat) : SaplingTx :=
  saplingObj sapEnv [exIn] [exOut] [0, 0, 0, 0] [9, 0, 0, 0] [0xfd, 0xff, 0xff, 0xff, 0xff, 0xff, 0xff, 0xff]
    (List.replicate n exSpend) [] [] none none (some (List.replicate 64 7))

theorem exSpends_built {n : Nat} (h : n ≤ 255) (h1 : n ≠ 0) : (exSpends n).Built sapEnv := by
  refine ⟨[exIn], [exOut], [0, 0, 0, 0], [9, 0, 0, 0], [0xfd, 0xff, 0xff, 0xff, 0xff, 0xff, 0xff, 0xff], List.replicate n exSpend,
    [], [], none, none, some (List.replicate 64 7), ?_, ?_, ?_, ?_, ?_, ?_⟩
  · simpa using exIn_built
  · simpa using exOut_built
  · exact replicate_mem (exSpend_built (by decide)) n
  · simp
  · simp
  · refine SaplingTx.make_iff.2 ⟨⟨by decide, by decide, rfl, rfl, rfl, by decide, ?_, ?_, fun _ => ⟨_, rfl⟩, by decide,
      by simp, by simp, by decide, by decide, by rw [List.length_replicate]; omega, by decide, ?_⟩, rfl⟩
    · simp [h1]
    · rintro s hs; cases hs; exact List.length_replicate
    · have : (compactSize n).length ≤ 3 := by
        unfold compactSize; split
        · simp [leBytes]
        · rw [if_pos (by omega)]; simp [leBytes]
      rw [saplingBytes_wire]
      simp only [vector, List.map_cons, List.map_nil, List.map_replicate, List.length_append, List.flatten_cons, List.flatten_nil,
        flatten_replicate_length, List.length_replicate, List.length_cons, List.length_nil, Option.getD_some, exIn_len, exOut_len, exSpend_len]
      rw [show (compactSize (0 + 1)).length = 1 from rfl, show (compactSize 0).length = 1 from rfl]
      have e : ∀ c : Prop, [Decidable c] → (if c then ([] : Bytes) else List.replicate 64 7).length ≤ 64 := by
        intro c _; split <;> simp
      have e' := e (List.replicate n exSpend = [] ∧ True)
      simp only [if_true, List.length_nil]
      omega

example : sapEnv.net.Supported ∧ (exSpends 254).Built sapEnv ∧ InsOutsStable sapEnv.net (exSpends 254).txIns (exSpends 254).txOuts ∧
    (exSpends 254).txShieldedSpends.length = 254 :=
  ⟨zcash_supported.2.2, exSpends_built (by omega) (by omega), ex_stable (n := 1) _ (by omega), List.length_replicate⟩

end Verif.Props
