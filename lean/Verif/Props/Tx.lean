import Verif.Lemmas.TxParse3

/-! Properties C37–C45: transaction elements and transactions. -/

namespace Verif.Props
open Verif Spec

/-! ## C37 -/

/-- C37: an `Outpoint` is built exactly from 32 + 4 bytes, and its bytes are their concatenation; otherwise ValueError. -/
theorem C37_outpoint (txId index : Bytes) :
    (txId.length = 32 ∧ index.length = 4 → ∃ o, Outpoint.make txId index = .ok o ∧ o.txId = txId ∧ o.index = index ∧ o.bytes = txId ++ index) ∧
    (¬ (txId.length = 32 ∧ index.length = 4) → Outpoint.make txId index = .error .valueError) := by
  constructor
  · rintro ⟨h1, h2⟩
    exact ⟨_, Outpoint.make_iff.2 ⟨h1, h2, rfl⟩, rfl, rfl, rfl⟩
  · intro h
    cases hm : Outpoint.make txId index with
    | error e => rw [Outpoint.make_error hm]
    | ok o => exact absurd ⟨(Outpoint.make_iff.1 hm).1, (Outpoint.make_iff.1 hm).2.1⟩ h

/-- C37: a `TxIn` is built exactly with a 36-byte outpoint, a 4-byte sequence and at most 1650 bytes of script, and its bytes
are the wire format of an input. -/
theorem C37_txin (o : Outpoint) (ho : o.Built) (stack redeem sequence : Bytes) :
    (sequence.length = 4 ∧ (stack ++ redeem).length ≤ 1650 → ∃ t, TxIn.make o stack redeem sequence = .ok t ∧ t.outpoint = o ∧
      t.stackScript = stack ∧ t.redeemScript = redeem ∧ t.scriptSig = stack ++ redeem ∧ t.sequence = sequence ∧
      t.bytes = wireIn o.txId o.index (stack ++ redeem) sequence) ∧
    (¬ (sequence.length = 4 ∧ (stack ++ redeem).length ≤ 1650) → TxIn.make o stack redeem sequence = .error .valueError) := by
  constructor
  · rintro ⟨h1, h2⟩
    refine ⟨_, TxIn.make_iff.2 ⟨ho.length, h1, by simpa using h2, rfl⟩, rfl, rfl, rfl, rfl, rfl, ?_⟩
    simp only []
    rw [ho.eq.2.2]; rfl
  · intro h
    cases hm : TxIn.make o stack redeem sequence with
    | error e => rw [TxIn.make_error hm]
    | ok t =>
      obtain ⟨_, h1, h2, _⟩ := TxIn.make_iff.1 hm
      exact absurd ⟨h1, by simpa using h2⟩ h

/-- C37: a `TxOut` is built exactly from an 8-byte value (and a script a 64-bit length can describe). -/
theorem C37_txout (value script : Bytes) :
    (value.length = 8 ∧ script.length < 2 ^ 64 → ∃ t, TxOut.make value script = .ok t ∧ t.value = value ∧ t.outputScript = script ∧
      t.bytes = wireOut value script) ∧
    (¬ (value.length = 8 ∧ script.length < 2 ^ 64) → TxOut.make value script = .error .valueError) := by
  constructor
  · rintro ⟨h1, h2⟩
    exact ⟨_, TxOut.make_iff.2 ⟨h1, h2, rfl⟩, rfl, rfl, rfl⟩
  · intro h
    cases hm : TxOut.make value script with
    | error e => rw [TxOut.make_error hm]
    | ok t => exact absurd ⟨(TxOut.make_iff.1 hm).1, (TxOut.make_iff.1 hm).2.1⟩ h

/-- C37: witness stack items are length-prefixed byte strings. -/
theorem C37_witness_item (item : Bytes) (h : item.length < 2 ^ 64) :
    ∃ w, WitnessStackItem.make item = .ok w ∧ w.item = item ∧ w.bytes = varBytes item :=
  ⟨_, WitnessStackItem.make_iff.2 ⟨h, rfl⟩, rfl, rfl⟩

/-- C37: the witness of an input is the counted sequence of its items. -/
theorem C37_witness (stack : List WitnessStackItem) (hs : ∀ i ∈ stack, i.Built) (h : stack.length < 2 ^ 64) :
    ∃ w, InputWitness.make stack = .ok w ∧ w.stack = stack ∧ w.bytes = wireWitness (stack.map (·.item)) := by
  have hm := InputWitness.make_iff.2 ⟨h, rfl⟩
  exact ⟨_, hm, rfl, (InputWitness.Built.eq ⟨stack, hs, hm⟩).2.2.2⟩

/-- An outpoint for examples. -/
def exOutpoint : Outpoint := ⟨List.replicate 32 0xaa, [1, 0, 0, 0], List.replicate 32 0xaa ++ [1, 0, 0, 0]⟩
theorem exOutpoint_built : exOutpoint.Built := ⟨List.replicate 32 0xaa, [1, 0, 0, 0], by decide⟩

/-- An input for examples: a 2-byte push of `OP_1 OP_1` after a 1-byte push. -/
def exIn : TxIn := ⟨exOutpoint, [1, 7], [2, 0x51, 0x51], [1, 7, 2, 0x51, 0x51], [0xfe, 0xff, 0xff, 0xff],
  exOutpoint.bytes ++ [5, 1, 7, 2, 0x51, 0x51, 0xfe, 0xff, 0xff, 0xff]⟩
theorem exIn_built : exIn.Built := ⟨exOutpoint, [1, 7], [2, 0x51, 0x51], [0xfe, 0xff, 0xff, 0xff], exOutpoint_built, by decide⟩

/-- An output for examples. -/
def exOut : TxOut := ⟨[0, 0xe4, 0xb, 0x54, 2, 0, 0, 0], [0x51], [0, 0xe4, 0xb, 0x54, 2, 0, 0, 0, 1, 0x51]⟩
theorem exOut_built : exOut.Built := ⟨[0, 0xe4, 0xb, 0x54, 2, 0, 0, 0], [0x51], by decide⟩

/-- A witness for examples: two items, one empty. -/
def exWit : InputWitness := ⟨[⟨[], [0]⟩, ⟨[9, 9], [2, 9, 9]⟩], [2, 0, 2, 9, 9]⟩
theorem exWit_built : exWit.Built := ⟨[⟨[], [0]⟩, ⟨[9, 9], [2, 9, 9]⟩], by
  simp only [List.mem_cons, List.not_mem_nil, or_false, forall_eq_or_imp, forall_eq]
  exact ⟨⟨[], by decide⟩, ⟨[9, 9], by decide⟩⟩, by decide⟩

example : exOutpoint.Built ∧ ([0xfe, 0xff, 0xff, 0xff] : Bytes).length = 4 ∧ (([1, 7] : Bytes) ++ [2, 0x51, 0x51]).length ≤ 1650 :=
  ⟨exOutpoint_built, by decide, by decide⟩
example : TxIn.make exOutpoint (List.replicate 1651 0) [] [0, 0, 0, 0] = .error .valueError :=
  (C37_txin exOutpoint exOutpoint_built _ _ _).2 (by simp only [List.append_nil, List.length_replicate]; omega)

/-! ## C38 -/

/-- C38: outpoints parse back, whatever follows. -/
theorem C38_outpoint (o : Outpoint) (h : o.Built) (rest : Bytes) : Outpoint.fromBytes (o.bytes ++ rest) = .ok o :=
  Outpoint.fromBytes_bytes h rest

/-- C38: outputs with scripts under 252 bytes parse back on every network, whatever follows. -/
theorem C38_txout (net : Network) (o : TxOut) (h : o.Built) (hs : o.outputScript.length < 252) (rest : Bytes) :
    TxOut.fromBytes net (o.bytes ++ rest) = .ok o := TxOut.fromBytes_bytes h hs rest

/-- C38: longer scripts can be built but not parsed. -/
theorem C38_txout_long (net : Network) (hz : net.isOverwinter = false ∧ net.isSapling = false) (o : TxOut) (h : o.Built)
    (hs : 252 ≤ o.outputScript.length) (rest : Bytes) :
    TxOut.fromBytes net (o.bytes ++ rest) = .error .notImplementedError :=
  TxOut.fromBytes_long h (by omega) (.inl hz) rest

/-- C38: witness items parse back, whatever follows. -/
theorem C38_witness_item (net : Network) (w : WitnessStackItem) (h : w.Built)
    (hz : (net.isOverwinter = false ∧ net.isSapling = false) ∨ ¬ (253 ≤ w.item.length ∧ w.item.length < 256)) (rest : Bytes) :
    WitnessStackItem.fromBytes net (w.bytes ++ rest) = .ok w := WitnessStackItem.fromBytes_bytes h hz rest

/-- C38: witnesses parse back, whatever follows. -/
theorem C38_witness (net : Network) (hz : net.isOverwinter = false ∧ net.isSapling = false) (w : InputWitness) (h : w.Built)
    (rest : Bytes) : InputWitness.fromBytes net (w.bytes ++ rest) = .ok w :=
  InputWitness.fromBytes_bytes h ⟨.inl hz, fun _ _ => .inl hz⟩ rest

/-- C38 as stated for all outputs fails: an output with a 252-byte script is built, and not parsed. -/
theorem C38_false_txout : ∃ o : TxOut, o.Built ∧ TxOut.fromBytes bitcoinMain o.bytes = .error .notImplementedError := by
  have hl : (List.replicate 252 (0 : UInt8)).length = 252 := List.length_replicate
  generalize List.replicate 252 (0 : UInt8) = s at hl
  have hb : TxOut.Built _ := ⟨List.replicate 8 0, s, TxOut.make_iff.2 ⟨rfl, by omega, rfl⟩⟩
  have := C38_txout_long bitcoinMain ⟨rfl, rfl⟩ _ hb (by simp only [hl]; omega) []
  rw [List.append_nil] at this
  exact ⟨_, hb, this⟩

example : exOut.Built ∧ exOut.outputScript.length < 252 ∧ exWit.Built := ⟨exOut_built, by decide, exWit_built⟩

/-! ## C39 -/

/-- C39: an input whose outpoint is null, or whose script sig consists of minimal pushes and named opcodes, or does not deserialize
or does not end in something that is itself a printable script, parses back to an input with the same bytes, outpoint, script sig
and sequence, whatever follows. -/
theorem C39_roundtrip_partial (net : Network) (hn : net.Supported) (t : TxIn) (h : t.Built)
    (hz : (net.isOverwinter = false ∧ net.isSapling = false) ∨ ¬ (253 ≤ t.scriptSig.length ∧ t.scriptSig.length < 256))
    (hs : (t.outpoint.txId = List.replicate 32 0x00 ∧ t.outpoint.index = List.replicate 4 0xff) ∨
      MinimalScript net.isDecred t.scriptSig ∨
      ∀ s init last, deserialize net t.scriptSig = .ok s → pySplit s = init ++ [last] → ∀ x, hexDeserialize net last ≠ .ok x)
    (rest : Bytes) :
    ∃ t', TxIn.fromBytes net (t.bytes ++ rest) = .ok t' ∧ t'.outpoint = t.outpoint ∧ t'.scriptSig = t.scriptSig ∧
      t'.sequence = t.sequence ∧ t'.bytes = t.bytes := by
  have hs' : t.Stable net := by
    refine ⟨hz, ?_⟩
    rcases hs with ⟨h1, h2⟩ | h1 | h1
    · left; rw [h.eq.1.eq.2.2, h1, h2]
    · exact .inr (.inl h1)
    · exact .inr (.inr (.inl h1))
  obtain ⟨t', h1, _, h2, h3, h4, h5⟩ := TxIn.fromBytes_bytes hn h hs' rest
  exact ⟨t', h1, h2, h3, h4, h5⟩

/-- C39: parsing a serialized input never fails because of the script's content: the only thing it can run into is the limit of 1650
bytes, which no well-formed input exceeds unless re-serialization grows it. -/
theorem C39_split_total (net : Network) (hn : net.Supported) (b : Bytes) : ∃ x y, TxIn.parseScriptSig net b = .ok (x, y) := by
  rcases parseScriptSig_cases hn b with h | ⟨_, _, _, stack, _, _, _, _, ⟨redeem, _, h⟩ | ⟨_, h⟩⟩
  · exact ⟨_, _, h⟩
  · exact ⟨_, _, h⟩
  · exact ⟨_, _, h⟩

/-- The unrestricted claim fails: a non-minimal push before a push of a script is rewritten. -/
theorem C39_false : ∃ t : TxIn, t.Built ∧ ∃ t', TxIn.fromBytes bitcoinMain t.bytes = .ok t' ∧ t'.scriptSig ≠ t.scriptSig ∧
    t'.bytes.length ≠ t.bytes.length := by
  refine ⟨⟨exOutpoint, [0x4c, 1, 7, 1, 0x51], [], [0x4c, 1, 7, 1, 0x51], [0, 0, 0, 0],
    exOutpoint.bytes ++ [5, 0x4c, 1, 7, 1, 0x51, 0, 0, 0, 0]⟩, ⟨exOutpoint, [0x4c, 1, 7, 1, 0x51], [], [0, 0, 0, 0], exOutpoint_built, by decide⟩,
    ⟨exOutpoint, [1, 7], [1, 0x51], [1, 7, 1, 0x51], [0, 0, 0, 0], exOutpoint.bytes ++ [4, 1, 7, 1, 0x51, 0, 0, 0, 0]⟩, ?_, ?_, ?_⟩
  · decide +kernel
  · decide
  · decide

example : exIn.Built ∧ MinimalScript false exIn.scriptSig := ⟨exIn_built, [.push [7], .push [0x51, 0x51]], by
  simp [ScriptItem.Valid], by decide⟩

/-! ## C40 -/

/-- C40: a transaction whose elements parse back (C38, C39) parses back: same bytes, version, flag, lock time, ids, outputs and witnesses,
and inputs with the same outpoints, script sigs, sequences and bytes. The witness list of a transaction without witnesses comes back
as `[]`. Anything may follow the transaction, except that nothing may follow one that carries the flag but no witness. -/
theorem C40_roundtrip (E : Env) (hn : E.net.Supported) (t : Tx) (h : t.Built E) (hs : t.Stable E.net) (rest : Bytes)
    (hr : t.flag ≠ none → t.txWitnesses.getD [] = [] → rest = []) :
    ∃ t', Tx.fromBytes E (t.bytes ++ rest) = .ok t' ∧ t'.bytes = t.bytes ∧ t'.version = t.version ∧ t'.flag = t.flag ∧
      t'.lockTime = t.lockTime ∧ t'.txId = t.txId ∧ t'.wtxId = t.wtxId ∧ t'.txOuts = t.txOuts ∧
      t'.txWitnesses = some (t.txWitnesses.getD []) ∧ t'.txIns.map (·.bytes) = t.txIns.map (·.bytes) ∧
      t'.txIns.map (·.outpoint) = t.txIns.map (·.outpoint) ∧ t'.txIns.map (·.scriptSig) = t.txIns.map (·.scriptSig) ∧
      t'.txIns.map (·.sequence) = t.txIns.map (·.sequence) := by
  obtain ⟨ins', h1, h2, h3⟩ := Tx.fromBytes_bytes hn h.facts hs rest hr
  refine ⟨_, h3, ?_, rfl, rfl, rfl, ?_, ?_, rfl, rfl, h2, ?_⟩
  · rw [h.facts.bytes]; simp only [txObj, h2, Option.getD_some]
  · have := congrArg Tx.txId h.facts.obj
    rw [this]; simp only [txObj, h2, Option.getD_some]
  · have := congrArg Tx.wtxId h.facts.obj
    rw [this]; simp only [txObj, h2, Option.getD_some]
  · simp only [txObj]
    clear h2 h3
    generalize t.txIns = ins at h1
    induction h1 with
    | nil => simp
    | cons hc _ ih => simp only [List.map_cons, hc.2.1, hc.2.2.1, hc.2.2.2, ih]; simp [ih.1, ih.2.1, ih.2.2]

def toyEnv : Env := ⟨bitcoinMain, toyHashes⟩

/-- A segwit transaction for examples. -/
def exTx : Tx := txObj toyEnv [2, 0, 0, 0] (some [0, 1]) [exIn] [exOut, exOut] (some [exWit]) [0, 0, 0, 0]

theorem exTx_built : exTx.Built toyEnv := by
  refine ⟨[2, 0, 0, 0], some [0, 1], [exIn], [exOut, exOut], some [exWit], [0, 0, 0, 0], ?_, ?_, ?_, ?_⟩
  · simpa using exIn_built
  · simpa using exOut_built
  · simpa using exWit_built
  · rw [Tx.make_iff]; exact ⟨by decide, rfl⟩

/-- A legacy transaction for examples. -/
def exLegacy : Tx := txObj toyEnv [2, 0, 0, 0] none [exIn, exIn] [exOut, exOut] none [0, 0, 0, 0]

theorem exLegacy_built : exLegacy.Built toyEnv := by
  refine ⟨[2, 0, 0, 0], none, [exIn, exIn], [exOut, exOut], none, [0, 0, 0, 0], ?_, ?_, ?_, ?_⟩
  · simpa using exIn_built
  · simpa using exOut_built
  · simp
  · rw [Tx.make_iff]; exact ⟨by decide, rfl⟩

theorem exIn_stable : exIn.Stable bitcoinMain :=
  ⟨.inl ⟨rfl, rfl⟩, .inr (.inl ⟨[.push [7], .push [0x51, 0x51]], by simp [ScriptItem.Valid], by decide⟩)⟩

theorem exTx_stable : exTx.Stable toyEnv.net := ⟨.inl ⟨rfl, rfl⟩, .inl ⟨rfl, rfl⟩, by
  intro i hi; rw [show i = exIn by simpa [exTx, txObj] using hi]; exact exIn_stable, by simp [exTx, txObj, exOut], by
  intro w _; exact ⟨.inl ⟨rfl, rfl⟩, fun _ _ => .inl ⟨rfl, rfl⟩⟩⟩

theorem exLegacy_stable : exLegacy.Stable toyEnv.net := ⟨.inl ⟨rfl, rfl⟩, .inl ⟨rfl, rfl⟩, by
  intro i hi; rw [show i = exIn by simpa [exLegacy, txObj] using hi]; exact exIn_stable, by simp [exLegacy, txObj, exOut], by
  intro w _; exact ⟨.inl ⟨rfl, rfl⟩, fun _ _ => .inl ⟨rfl, rfl⟩⟩⟩

example : exTx.Built toyEnv ∧ exTx.Stable toyEnv.net := ⟨exTx_built, exTx_stable⟩

/-! ## C41 -/

/-- C41: a legacy transaction has the legacy bytes of its fields. -/
theorem C41_wire_legacy (E : Env) (t : Tx) (h : t.Built E) (hf : t.flag = none) :
    t.bytes = wireLegacy t.version
      (t.txIns.map fun i => wireIn i.outpoint.txId i.outpoint.index i.scriptSig i.sequence)
      (t.txOuts.map fun o => wireOut o.value o.outputScript) t.lockTime := by
  have hw : t.txWitnesses.getD [] = [] := by
    by_contra hc
    exact (h.facts.args.2.2.2.1 hc).1 hf
  rw [h.facts.bytes, hf, hw, List.map_nil, txBytes_none]
  congr 1
  · exact List.map_congr_left fun i hi => (h.facts.ins i hi).wire
  · exact List.map_congr_left fun o ho => (h.facts.outs o ho).eq.2.2

/-- C41: a transaction with the segwit flag has the BIP144 bytes of its fields. -/
theorem C41_wire_segwit (E : Env) (hn : E.net.Supported) (t : Tx) (h : t.Built E) (hf : t.flag ≠ none) :
    t.bytes = wireSegwit t.version
      (t.txIns.map fun i => wireIn i.outpoint.txId i.outpoint.index i.scriptSig i.sequence)
      (t.txOuts.map fun o => wireOut o.value o.outputScript)
      ((t.txWitnesses.getD []).map fun w => wireWitness (w.stack.map (·.item))) t.lockTime := by
  have hf' : t.flag = some [0, 1] := by
    rw [← segwitFlag_eq hn]
    exact h.facts.args.2.2.1.resolve_left hf
  rw [h.facts.bytes, hf', txBytes_some]
  congr 1
  · exact List.map_congr_left fun i hi => (h.facts.ins i hi).wire
  · exact List.map_congr_left fun o ho => (h.facts.outs o ho).eq.2.2
  · exact List.map_congr_left fun w hw => (h.facts.wits w hw).eq.2.2.2

/-- C41: serialization is injective. -/
theorem C41_injective (E E' : Env) (hn : E.net.Supported) (hn' : E'.net.Supported) (t t' : Tx) (h : t.Built E) (h' : t'.Built E')
    (e : t.bytes = t'.bytes) :
    t.version = t'.version ∧ t.flag = t'.flag ∧ t.lockTime = t'.lockTime ∧ t.txOuts = t'.txOuts ∧
    t.txWitnesses.getD [] = t'.txWitnesses.getD [] ∧ t.txIns.map (·.bytes) = t'.txIns.map (·.bytes) ∧
    t.txIns.map (fun i => (i.outpoint, i.scriptSig, i.sequence)) = t'.txIns.map (fun i => (i.outpoint, i.scriptSig, i.sequence)) := by
  have f := h.facts
  have f' := h'.facts
  obtain ⟨a1, a2, a3, a4, a5, a6, a7, a8⟩ := f.args
  obtain ⟨b1, b2, b3, b4, b5, b6, b7, b8⟩ := f'.args
  rw [segwitFlag_eq hn] at a3
  rw [segwitFlag_eq hn'] at b3
  rw [f.bytes, f'.bytes] at e
  obtain ⟨h1, h2, h3, h4, h5, h6⟩ := txBytes_inj a3 b3 a1 b1 a2 b2 f.ins f'.ins f.outs f'.outs f.wits f'.wits a7 b7 a8 b8 a5 b5 a4 b4 e
  refine ⟨h1, h2, h6, h4, h5, h3, ?_⟩
  have g := f.ins
  have g' := f'.ins
  revert h3
  clear e h1 h2 h4 h5 h6 a4 a5 a7 b4 b5 b7
  generalize t.txIns = xs at g
  generalize t'.txIns = ys at g'
  intro h3
  induction xs generalizing ys with
  | nil => cases ys with
    | nil => rfl
    | cons _ _ => simp at h3
  | cons x xs ih => cases ys with
    | nil => simp at h3
    | cons y ys =>
      simp only [List.map_cons, List.cons.injEq] at h3 ⊢
      obtain ⟨e1, e2, e3, _⟩ := TxIn.Built.inj (g x (by simp)) (g' y (by simp)) (r := []) (s := []) (by simpa using h3.1)
      exact ⟨by rw [e1, e2, e3], ih (fun i hi => g i (by simp [hi])) ys (fun i hi => g' i (by simp [hi])) h3.2⟩

example : exTx.Built toyEnv ∧ exTx.flag ≠ none := ⟨exTx_built, by decide⟩
example : exLegacy.Built toyEnv ∧ exLegacy.flag = none := ⟨exLegacy_built, by decide⟩

/-! ## C42 -/

/-- C42: `Tx(...)` accepts exactly well-formed transactions, keeping the arguments as attributes; anything else is a ValueError. (A
count of inputs or outputs that no CompactSize can describe is the only other refusal.) -/
theorem C42_accepts (E : Env) (hn : E.net.Supported) (version : Bytes) (flag : Option Bytes) (ins : List TxIn) (outs : List TxOut)
    (wits : Option (List InputWitness)) (lockTime : Bytes) (hi : ins.length < 2 ^ 64) (ho : outs.length < 2 ^ 64) :
    ((version.length = 4 ∧ lockTime.length = 4 ∧ (flag = none ∨ flag = some [0x00, 0x01]) ∧ ins ≠ [] ∧ outs ≠ [] ∧
      (∀ ws, wits = some ws → ws ≠ [] → flag ≠ none ∧ ws.length = ins.length)) →
      ∃ t, Tx.make E version flag ins outs wits lockTime = .ok t ∧ t.version = version ∧ t.flag = flag ∧ t.txIns = ins ∧
        t.txOuts = outs ∧ t.txWitnesses = wits ∧ t.lockTime = lockTime) ∧
    (¬ (version.length = 4 ∧ lockTime.length = 4 ∧ (flag = none ∨ flag = some [0x00, 0x01]) ∧ ins ≠ [] ∧ outs ≠ [] ∧
      (∀ ws, wits = some ws → ws ≠ [] → flag ≠ none ∧ ws.length = ins.length)) →
      Tx.make E version flag ins outs wits lockTime = .error .valueError) := by
  have key : TxArgsOK E version flag ins outs wits lockTime ↔
      (version.length = 4 ∧ lockTime.length = 4 ∧ (flag = none ∨ flag = some [0x00, 0x01]) ∧ ins ≠ [] ∧ outs ≠ [] ∧
      (∀ ws, wits = some ws → ws ≠ [] → flag ≠ none ∧ ws.length = ins.length)) := by
    unfold TxArgsOK
    rw [segwitFlag_eq hn]
    have : (wits.getD [] ≠ [] → flag ≠ none ∧ (wits.getD []).length = ins.length) ↔
        (∀ ws, wits = some ws → ws ≠ [] → flag ≠ none ∧ ws.length = ins.length) := by
      cases wits <;> simp
    rw [this]
    constructor
    · rintro ⟨h1, h2, h3, h4, h5, h6, -, -⟩; exact ⟨h1, h2, h3, h5, h6, h4⟩
    · rintro ⟨h1, h2, h3, h5, h6, h4⟩; exact ⟨h1, h2, h3, h4, h5, h6, hi, ho⟩
  rw [← key, Tx.make_eq]
  constructor
  · intro h; rw [if_pos h]; exact ⟨_, rfl, rfl, rfl, rfl, rfl, rfl, rfl⟩
  · intro h; rw [if_neg h]

/-! ## C43 -/

/-- C43: the ids of a segwit transaction. -/
theorem C43_segwit_ids (E : Env) (t : Tx) (h : t.Built E) (hf : t.flag ≠ none) :
    t.txIdLe = E.hash256 (wireLegacy t.version
      (t.txIns.map fun i => wireIn i.outpoint.txId i.outpoint.index i.scriptSig i.sequence)
      (t.txOuts.map fun o => wireOut o.value o.outputScript) t.lockTime) ∧
    t.wtxIdLe = some (E.hash256 t.bytes) ∧ t.txId = t.txIdLe.reverse ∧ t.wtxId = some (E.hash256 t.bytes).reverse := by
  have f := h.facts
  have hs : t.flag.isSome = true := by cases hh : t.flag <;> simp_all
  have e1 := congrArg Tx.txIdLe f.obj
  have e2 := congrArg Tx.wtxIdLe f.obj
  have e3 := congrArg Tx.txId f.obj
  have e4 := congrArg Tx.wtxId f.obj
  simp only [txObj, hs, if_true, ← f.bytes] at e1 e2 e3 e4
  refine ⟨?_, e2, by rw [e3, e1], e4⟩
  rw [e1]
  congr 2
  · exact List.map_congr_left fun i hi => (h.facts.ins i hi).wire
  · exact List.map_congr_left fun o ho => (h.facts.outs o ho).eq.2.2

/-- C43: the ids of a legacy transaction. -/
theorem C43_legacy_ids (E : Env) (t : Tx) (h : t.Built E) (hf : t.flag = none) :
    t.txIdLe = E.hash256 t.bytes ∧ t.wtxIdLe = none ∧ t.txId = t.txIdLe.reverse ∧ t.wtxId = none := by
  have f := h.facts
  have hs : t.flag.isSome = false := by simp [hf]
  have e1 := congrArg Tx.txIdLe f.obj
  have e2 := congrArg Tx.wtxIdLe f.obj
  have e3 := congrArg Tx.txId f.obj
  have e4 := congrArg Tx.wtxId f.obj
  simp only [txObj, hs, Bool.false_eq_true, if_false, ← f.bytes] at e1 e2 e3 e4
  exact ⟨e1, e2, by rw [e3, e1], e4⟩

/-- C43: transactions that differ only in flag and witnesses have the same `tx_id`. -/
theorem C43_txid_ignores_witnesses (E : Env) (t t' : Tx) (h : t.Built E) (h' : t'.Built E) (hv : t.version = t'.version)
    (hi : t.txIns = t'.txIns) (ho : t.txOuts = t'.txOuts) (hl : t.lockTime = t'.lockTime) : t.txId = t'.txId := by
  have key : ∀ t : Tx, t.Built E → t.txIdLe = E.hash256 (wireLegacy t.version
      (t.txIns.map fun i => wireIn i.outpoint.txId i.outpoint.index i.scriptSig i.sequence)
      (t.txOuts.map fun o => wireOut o.value o.outputScript) t.lockTime) ∧ t.txId = t.txIdLe.reverse := by
    intro t h
    by_cases hf : t.flag = none
    · obtain ⟨h1, _, h2, _⟩ := C43_legacy_ids E t h hf
      exact ⟨by rw [h1, C41_wire_legacy E t h hf], h2⟩
    · obtain ⟨h1, _, h2, _⟩ := C43_segwit_ids E t h hf
      exact ⟨h1, h2⟩
  rw [(key t h).2, (key t' h').2, (key t h).1, (key t' h').1, hv, hi, ho, hl]

example : exTx.Built toyEnv ∧ exTx.flag ≠ none ∧ exLegacy.Built toyEnv ∧ exLegacy.flag = none :=
  ⟨exTx_built, by decide, exLegacy_built, by decide⟩

/-! ## C44 -/

/-- C44: copying without arguments gives an equal object and cannot fail. -/
theorem C44_copy_identity (E : Env) :
    (∀ o : Outpoint, o.Built → o.copy = .ok o) ∧ (∀ i : TxIn, i.Built → i.copy = .ok i) ∧ (∀ o : TxOut, o.Built → o.copy = .ok o) ∧
    (∀ w : InputWitness, w.Built → w.copy = .ok w) ∧ (∀ t : Tx, t.Built E → t.copy E = .ok t) := by
  refine ⟨?_, ?_, ?_, ?_, ?_⟩
  · rintro o ⟨a, b, h⟩
    obtain ⟨h1, h2, rfl⟩ := Outpoint.make_iff.1 h
    exact h
  · rintro t ⟨o, ss, rs, sq, _, h⟩
    obtain ⟨_, _, _, rfl⟩ := TxIn.make_iff.1 h
    exact h
  · rintro t ⟨v, s, h⟩
    obtain ⟨_, _, rfl⟩ := TxOut.make_iff.1 h
    exact h
  · rintro t ⟨st, _, h⟩
    obtain ⟨_, rfl⟩ := InputWitness.make_iff.1 h
    exact h
  · rintro t ⟨v, f, ins, outs, ws, lt, _, _, _, h⟩
    obtain ⟨_, rfl⟩ := Tx.make_iff.1 h
    unfold Tx.copy
    simp only [Option.getD_none, txObj]
    cases f <;> cases ws <;> exact h

/-- C44: copying with arguments replaces those fields and keeps the others. -/
theorem C44_copy_update_txin (t : TxIn) (outpoint : Option Outpoint) (stack redeem sequence : Option Bytes) (t' : TxIn)
    (h : t.copy outpoint stack redeem sequence = .ok t') :
    t'.outpoint = outpoint.getD t.outpoint ∧ t'.stackScript = stack.getD t.stackScript ∧ t'.redeemScript = redeem.getD t.redeemScript ∧
    t'.sequence = sequence.getD t.sequence := by
  obtain ⟨_, _, _, rfl⟩ := TxIn.make_iff.1 h
  exact ⟨rfl, rfl, rfl, rfl⟩

/-- C44 for outpoints and outputs. -/
theorem C44_copy_update_outpoint (o : Outpoint) (txId index : Option Bytes) (o' : Outpoint) (h : o.copy txId index = .ok o') :
    o'.txId = txId.getD o.txId ∧ o'.index = index.getD o.index ∧ o'.bytes = o'.txId ++ o'.index := by
  obtain ⟨_, _, rfl⟩ := Outpoint.make_iff.1 h
  exact ⟨rfl, rfl, rfl⟩

theorem C44_copy_update_txout (o : TxOut) (value script : Option Bytes) (o' : TxOut) (h : o.copy value script = .ok o') :
    o'.value = value.getD o.value ∧ o'.outputScript = script.getD o.outputScript ∧ o'.bytes = wireOut o'.value o'.outputScript := by
  obtain ⟨_, _, rfl⟩ := TxOut.make_iff.1 h
  exact ⟨rfl, rfl, rfl⟩

/-- C44 for transactions. -/
theorem C44_copy_update_tx (E : Env) (t : Tx) (version flag : Option Bytes) (ins : Option (List TxIn)) (outs : Option (List TxOut))
    (wits : Option (List InputWitness)) (lockTime : Option Bytes) (t' : Tx) (h : t.copy E version flag ins outs wits lockTime = .ok t') :
    t'.version = version.getD t.version ∧ t'.txIns = ins.getD t.txIns ∧ t'.txOuts = outs.getD t.txOuts ∧
    t'.lockTime = lockTime.getD t.lockTime ∧ (∀ f, flag = some f → t'.flag = some f) ∧ (flag = none → t'.flag = t.flag) ∧
    (∀ w, wits = some w → t'.txWitnesses = some w) ∧ (wits = none → t'.txWitnesses = t.txWitnesses) := by
  obtain ⟨_, rfl⟩ := Tx.make_iff.1 h
  refine ⟨rfl, rfl, rfl, rfl, ?_, ?_, ?_, ?_⟩
  · rintro f rfl; rfl
  · rintro rfl; rfl
  · rintro f rfl; rfl
  · rintro rfl; rfl

example : (∃ t', exTx.copy toyEnv (version := some [1, 0, 0, 0]) (txOuts := some [exOut]) = .ok t') ∧
    (∃ t', exIn.copy (stackScript := some [1, 8]) = .ok t') :=
  ⟨⟨_, Tx.make_iff.2 ⟨by decide, rfl⟩⟩, ⟨_, TxIn.make_iff.2 ⟨by decide, by decide, by decide, rfl⟩⟩⟩

/-! ## C45 -/

/-- C45: the fee and the output values add up to the input values. -/
theorem C45_fee_balance (t : Tx) (values : List Int) :
    t.calculateFee values + ((t.txOuts.map fun o => ((leToNat o.value : Nat) : Int)).sum) = values.sum := by
  unfold Tx.calculateFee
  have : ((t.txOuts.map fun o => le2i o.value).sum : Nat) = (t.txOuts.map fun o => ((leToNat o.value : Nat) : Int)).sum := by
    induction t.txOuts with
    | nil => rfl
    | cons o os ih => simp only [List.map_cons, List.sum_cons, Int.natCast_add, ih]; rfl
  rw [this]; omega

/-- C45: the fee does not depend on the order of the outputs or of the values. -/
theorem C45_fee_order (t t' : Tx) (values values' : List Int) (h : t.txOuts.Perm t'.txOuts) (hv : values.Perm values') :
    t.calculateFee values = t'.calculateFee values' := by
  unfold Tx.calculateFee
  have e : values.sum = values'.sum := by
    induction hv with
    | nil => rfl
    | cons _ _ ih => simp [ih]
    | swap => simp only [List.sum_cons]; omega
    | trans _ _ h1 h2 => rw [h1, h2]
  rw [(h.map _).sum_nat, e]

example : exTx.calculateFee [2 * 10 ^ 10 + 5] = 5 := by decide

end Verif.Props
