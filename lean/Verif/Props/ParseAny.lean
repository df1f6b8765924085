import Verif.Lemmas.Truncate
import Verif.Props.Tx

/-! # C83, C84: parsing bytes from an untrusted source -/

namespace Verif.Props
open Verif Spec

/-! ## C83: `Tx.from_bytes` on arbitrary bytes -/

/-- Whatever the bytes, a failing parse raises ValueError, IndexError or NotImplementedError. -/
theorem C83_errors (E : Env) (hn : E.net.Supported) (b : Bytes) (e : PyErr) (h : Tx.fromBytes E b = .error e) :
    e = .valueError ∨ e = .indexError ∨ e = .notImplementedError := Tx.fromBytes_error hn h

/-- The same for the elements. Outpoints raise ValueError only. -/
theorem C83_element_errors (net : Network) (hn : net.Supported) (b : Bytes) (e : PyErr) :
    (Outpoint.fromBytes b = .error e → e = .valueError) ∧
    (TxIn.fromBytes net b = .error e → e = .valueError ∨ e = .indexError) ∧
    (TxOut.fromBytes net b = .error e → e = .valueError ∨ e = .indexError ∨ e = .notImplementedError) ∧
    (WitnessStackItem.fromBytes net b = .error e → e = .valueError ∨ e = .indexError) ∧
    (InputWitness.fromBytes net b = .error e → e = .valueError ∨ e = .indexError) :=
  ⟨Outpoint.fromBytes_error, TxIn.fromBytes_error hn, TxOut.fromBytes_error, WitnessStackItem.fromBytes_error, InputWitness.fromBytes_error⟩

/-- All three exceptions occur. -/
example : Tx.fromBytes toyEnv [] = .error .indexError ∧ Tx.fromBytes toyEnv [1, 0, 0, 0, 0, 0] = .error .valueError ∧
    TxOut.fromBytes bitcoinMain ([1, 0, 0, 0, 0, 0, 0, 0, 0xfc] ++ List.replicate 252 0) = .error .notImplementedError := by decide

/-- What is accepted is a transaction that the constructor builds from its attributes, with 4-byte version and lock time, at least one
input and output, and witnesses for every input or for none. It is no longer than the bytes it was read from, so the numbers of inputs and
outputs are bounded by the size of what was received and not by the numbers it declares. -/
theorem C83_accepted (E : Env) (hn : E.net.Supported) (b : Bytes) (t : Tx) (h : Tx.fromBytes E b = .ok t) :
    t.Built E ∧ Tx.make E t.version t.flag t.txIns t.txOuts t.txWitnesses t.lockTime = .ok t ∧
    t.version = b.take 4 ∧ t.lockTime.length = 4 ∧ t.txIns ≠ [] ∧ t.txOuts ≠ [] ∧
    (t.flag ≠ none ↔ (b.drop 4).take 2 = [0, 1]) ∧
    (∃ ws, t.txWitnesses = some ws ∧ (ws = [] ∨ (t.flag ≠ none ∧ ws.length = t.txIns.length))) ∧
    t.bytes.length ≤ b.length ∧ 41 * t.txIns.length + 9 * t.txOuts.length + 10 ≤ b.length := by
  obtain ⟨hB, hle, -, -, hw⟩ := Tx.fromBytes_ok hn h
  have hf := hB.facts
  obtain ⟨a1, a2, a3, a4, a5, a6, a7, a8⟩ := hf.args
  refine ⟨hB, ?_, ?_, a2, a5, a6, ?_, ?_, hle, ?_⟩
  · rw [Tx.make_iff]; exact ⟨hf.args, hf.obj⟩
  · obtain ⟨_, _, _, _, _, _, _, _, -, -, -, -, -, hm⟩ := Tx.fromBytes_steps h
    rw [Tx.make_iff] at hm
    rw [hm.2]; simp [txObj, slice]
  · obtain ⟨_, _, _, _, _, _, _, _, -, -, -, -, -, hm⟩ := Tx.fromBytes_steps h
    rw [Tx.make_iff] at hm
    rw [hm.2]
    simp only [txObj, segwitFlag_eq hn]
    have : slice b 4 6 = (b.drop 4).take 2 := by unfold slice; rw [List.drop_take]
    rw [this]
    split <;> simp_all
  · obtain ⟨ws, hws⟩ := Option.ne_none_iff_exists'.1 hw
    refine ⟨ws, hws, ?_⟩
    rw [hws] at a4
    by_cases c : ws = []
    · exact .inl c
    · exact .inr (a4 c)
  · have hb := hf.bytes
    have l := congrArg List.length hb
    simp only [txBytes, vector, List.length_append, flatten_length, List.length_map] at l
    have i1 : 41 * t.txIns.length ≤ (t.txIns.map fun x => x.bytes.length).sum := sum_ge (fun x hx => (hf.ins x hx).length_ge)
    have o1 : 9 * t.txOuts.length ≤ (t.txOuts.map fun x => x.bytes.length).sum := sum_ge (fun x hx => (hf.outs x hx).length_ge)
    have := compactSize_pos t.txIns.length
    have := compactSize_pos t.txOuts.length
    omega

/-- Reading, writing and reading again gives a transaction with the same bytes, ids and parts (networks other than Overwinter and Sapling). -/
theorem C83_reread (E : Env) (hn : E.net.Supported) (hz : E.net.isOverwinter = false ∧ E.net.isSapling = false) (b : Bytes) (t : Tx)
    (h : Tx.fromBytes E b = .ok t) :
    ∃ t', Tx.fromBytes E t.bytes = .ok t' ∧ t'.bytes = t.bytes ∧ t'.version = t.version ∧ t'.flag = t.flag ∧
      t'.lockTime = t.lockTime ∧ t'.txId = t.txId ∧ t'.wtxId = t.wtxId ∧ t'.txOuts = t.txOuts ∧ t'.txWitnesses = t.txWitnesses ∧
      t'.txIns.map (·.outpoint) = t.txIns.map (·.outpoint) ∧ t'.txIns.map (·.scriptSig) = t.txIns.map (·.scriptSig) ∧
      t'.txIns.map (·.sequence) = t.txIns.map (·.sequence) := by
  obtain ⟨hB, -, hi, ho, hw⟩ := Tx.fromBytes_ok hn h
  obtain ⟨t', h1, h2, h3, h4, h5, h6, h7, h8, h9, h10, h11, h12, h13⟩ := C40_roundtrip E hn t hB
    ⟨.inl hz, .inl hz, fun i hi' => ⟨.inl hz, by rcases hi i hi' with h | h; exacts [.inl h, .inr (.inr (.inr h))]⟩, ho,
      fun w hw => ⟨.inl hz, fun i hi => .inl hz⟩⟩ [] (fun _ _ => rfl)
  rw [List.append_nil] at h1
  obtain ⟨ws, hws⟩ := Option.ne_none_iff_exists'.1 hw
  exact ⟨t', h1, h2, h3, h4, h5, h6, h7, h8, by rw [h9, hws]; rfl, h11, h12, h13⟩

example : ∃ t, Tx.fromBytes toyEnv (exTx.bytes ++ [1, 2, 3]) = .ok t := by
  obtain ⟨t, h, -⟩ := C40_roundtrip toyEnv btc_supported exTx exTx_built exTx_stable [1, 2, 3] (by intro _ h; cases h)
  exact ⟨t, h⟩

/-! ## C84: truncated transactions -/

/-- No proper prefix of a serialized legacy transaction is accepted. -/
theorem C84_legacy (E : Env) (hn : E.net.Supported) (t : Tx) (h : t.Built E) (hs : t.Stable E.net) (hf : t.flag = none) (p : Bytes)
    (hp : p <+: t.bytes) (hne : p ≠ t.bytes) : ∃ e, Tx.fromBytes E p = .error e := by
  cases ht : Tx.fromBytes E p with
  | error e => exact ⟨e, rfl⟩
  | ok t' =>
    exfalso
    have hw : t.txWitnesses.getD [] = [] := Classical.byContradiction fun cw => (h.facts.args.2.2.2.1 cw).1 hf
    have hl := prefix_lt hp hne
    have := Tx.cut hn h.facts hs (by rw [hw]; simp) hp hl ht
    rw [hw] at this
    simp at this
    omega

/-- A proper prefix of a serialized segwit transaction is refused, unless the number of bytes missing is the length of the witnesses.
(For witness items and stacks below 65536.) -/
theorem C84_segwit_partial (E : Env) (hn : E.net.Supported) (t : Tx) (h : t.Built E) (hs : t.Stable E.net)
    (h16 : ∀ w ∈ t.txWitnesses.getD [], w.stack.length < 65536 ∧ ∀ i ∈ w.stack, i.item.length < 65536) (p : Bytes)
    (hp : p <+: t.bytes) (hne : p ≠ t.bytes)
    (hx : p.length + ((t.txWitnesses.getD []).map fun w => w.bytes.length).sum ≠ t.bytes.length) : ∃ e, Tx.fromBytes E p = .error e := by
  cases ht : Tx.fromBytes E p with
  | error e => exact ⟨e, rfl⟩
  | ok t' => exact absurd (Tx.cut hn h.facts hs h16 hp (prefix_lt hp hne) ht) hx

/-- Every segwit transaction with witnesses has a proper prefix that is accepted: the witnesses are gone, and four bytes of them are
read as the lock time. -/
theorem C84_segwit_false (E : Env) (hn : E.net.Supported) (t : Tx) (h : t.Built E) (hs : t.Stable E.net) (hw : t.txWitnesses.getD [] ≠ []) :
    ∃ p t', p <+: t.bytes ∧ p ≠ t.bytes ∧ Tx.fromBytes E p = .ok t' ∧ t'.txWitnesses = some [] ∧ t'.flag = t.flag ∧
      t'.txIns.map (·.bytes) = t.txIns.map (·.bytes) ∧ t'.txOuts = t.txOuts ∧
      t'.lockTime = ((((t.txWitnesses.getD []).map (·.bytes)).flatten) ++ t.lockTime).take 4 := by
  have hf := h.facts
  obtain ⟨a1, a2, a3, a4, a5, a6, a7, a8⟩ := hf.args
  have hwp : 0 < (((t.txWitnesses.getD []).map (·.bytes)).flatten).length := by
    cases hw' : t.txWitnesses.getD [] with
    | nil => exact absurd hw' hw
    | cons w ws =>
      have := (hf.wits w (by rw [hw']; simp)).pos
      simp only [List.map_cons, List.flatten_cons, List.length_append]; omega
  generalize hq : ((((t.txWitnesses.getD []).map (·.bytes)).flatten) ++ t.lockTime).take 4 = q
  have hql : q.length = 4 := by rw [← hq, List.length_take, List.length_append]; omega
  have hm : Tx.make E t.version t.flag t.txIns t.txOuts (some []) q = .ok (txObj E t.version t.flag t.txIns t.txOuts (some []) q) := by
    rw [Tx.make_iff]; exact ⟨⟨a1, hql, a3, by simp, a5, a6, a7, a8⟩, rfl⟩
  have hB : (txObj E t.version t.flag t.txIns t.txOuts (some []) q).Built E := ⟨_, _, _, _, _, _, hf.ins, hf.outs, by simp, hm⟩
  obtain ⟨t', h1, h2, h3, h4, h5, h6, h7, h8, h9, h10, -⟩ := C40_roundtrip E hn _ hB
    ⟨hs.nIns, hs.nOuts, hs.ins, hs.outs, by simp [txObj]⟩ [] (fun _ _ => rfl)
  rw [List.append_nil] at h1
  have hb : (txObj E t.version t.flag t.txIns t.txOuts (some []) q).bytes <+: t.bytes := by
    rw [hf.bytes]
    simp only [txObj, txBytes, Option.getD_some, List.map_nil, List.flatten_nil, List.append_nil, List.append_assoc]
    simp only [List.prefix_append_right_inj]
    rw [← hq]
    exact List.take_prefix _ _
  refine ⟨_, t', hb, ?_, h1, h9, h4, h10, h8, h5⟩
  intro e
  have l := congrArg List.length e
  rw [hf.bytes] at l
  simp only [txObj, txBytes, List.length_append, Option.getD_some, List.map_nil, List.flatten_nil, List.length_nil, hql, a2] at l
  omega

example : exLegacy.Built toyEnv ∧ exLegacy.Stable toyEnv.net ∧ exLegacy.flag = none ∧ (exLegacy.bytes.take 100 <+: exLegacy.bytes) ∧
    exLegacy.bytes.take 100 ≠ exLegacy.bytes := ⟨exLegacy_built, exLegacy_stable, rfl, List.take_prefix _ _, by decide⟩

example : ∃ p t', p <+: exTx.bytes ∧ p ≠ exTx.bytes ∧ Tx.fromBytes toyEnv p = .ok t' ∧ t'.lockTime = [2, 0, 2, 9] := by
  obtain ⟨p, t', h1, h2, h3, -, -, -, -, h4⟩ := C84_segwit_false toyEnv btc_supported exTx exTx_built exTx_stable (by decide)
  exact ⟨p, t', h1, h2, h3, h4⟩


/-- A witness item of 65536 bytes or more: its length takes five bytes and that of what is left of it takes one, so the last four bytes
received are read as the lock time. The bound in `C84_segwit_partial` is needed. -/
theorem C84_long_item_false : ∃ t : Tx, t.Built toyEnv ∧ t.Stable toyEnv.net ∧ ∃ p t', p <+: t.bytes ∧ p ≠ t.bytes ∧
    p.length + ((t.txWitnesses.getD []).map fun w => w.bytes.length).sum ≠ t.bytes.length ∧ Tx.fromBytes toyEnv p = .ok t' ∧
    t'.txWitnesses.getD [] ≠ [] ∧ t'.lockTime = [5, 6, 7, 8] := by
  have hil : ([1, 2, 3, 4, 5, 6, 7, 8] ++ List.replicate 65528 0 : Bytes).length = 65536 := by
    rw [List.length_append, List.length_replicate]; rfl
  generalize hit : ([1, 2, 3, 4, 5, 6, 7, 8] ++ List.replicate 65528 0 : Bytes) = item at hil
  have hw := WitnessStackItem.make_iff (s := item) |>.2 ⟨by omega, rfl⟩
  have hW := InputWitness.make_iff (st := [⟨item, varBytes item⟩]) |>.2 ⟨by simp, rfl⟩
  have hc : compactSize item.length = [0xfe, 0, 0, 1, 0] := by rw [hil]; decide
  have hm := Tx.make_iff (E := toyEnv) (v := [2, 0, 0, 0]) (f := some [0, 1]) (ins := [exIn]) (outs := [exOut])
    (ws := some [⟨[⟨item, varBytes item⟩], vector ([⟨item, varBytes item⟩].map fun i : WitnessStackItem => i.bytes)⟩]) (lt := [0, 0, 0, 0]) |>.2
    ⟨⟨rfl, rfl, .inr rfl, fun _ => ⟨by simp, rfl⟩, by simp, by simp, by decide, by decide⟩, rfl⟩
  refine ⟨_, ⟨_, _, _, _, _, _, by simpa using exIn_built, by simpa using exOut_built, ?_, hm⟩, ?_, ?_⟩
  · simp only [Option.getD_some, List.mem_singleton, forall_eq]
    exact ⟨_, by simp only [List.mem_singleton, forall_eq]; exact ⟨_, hw⟩, hW⟩
  · exact ⟨.inl ⟨rfl, rfl⟩, .inl ⟨rfl, rfl⟩, by simp only [txObj, List.mem_singleton, forall_eq]; exact exIn_stable, by simp [txObj, exOut],
      fun w _ => ⟨.inl ⟨rfl, rfl⟩, fun _ _ => .inl ⟨rfl, rfl⟩⟩⟩
  · refine ⟨[2, 0, 0, 0] ++ ([0, 1] ++ ([1] ++ (exIn.bytes ++ ([1] ++ (exOut.bytes ++ ([1] ++ ([0xfe, 0, 0, 1, 0] ++ [1, 2, 3, 4, 5, 6, 7, 8]))))))),
      txObj toyEnv [2, 0, 0, 0] (some [0, 1]) [exIn] [exOut] (some [⟨[⟨[1, 2, 3, 4, 5, 6, 7, 8], [8, 1, 2, 3, 4, 5, 6, 7, 8]⟩],
        [1, 8, 1, 2, 3, 4, 5, 6, 7, 8]⟩]) [5, 6, 7, 8], ?_, ?_, ?_, ?_, by decide, rfl⟩
    · simp only [txObj, txBytes, vector, List.map_cons, List.map_nil, List.flatten_cons, List.flatten_nil, List.append_nil, Option.getD_some,
        varBytes, hc, List.append_assoc]
      rw [← hit]
      simp only [List.length_cons, List.length_nil, Nat.zero_add, show compactSize 1 = [1] by decide, List.append_assoc, List.prefix_append_right_inj]
      exact List.prefix_append _ _
    · intro e
      have l := congrArg List.length e
      simp only [txObj, txBytes, vector, List.map_cons, List.map_nil, List.flatten_cons, List.flatten_nil, List.append_nil, Option.getD_some,
        varBytes, hc, List.length_append, hil, List.length_cons, List.length_nil, Nat.zero_add, show compactSize 1 = [1] by decide] at l
      omega
    · simp only [txObj, txBytes, vector, List.map_cons, List.map_nil, List.flatten_cons, List.flatten_nil, List.append_nil, Option.getD_some,
        varBytes, hc, List.length_append, hil, List.length_cons, List.length_nil, Nat.zero_add, show compactSize 1 = [1] by decide, List.sum_cons,
        List.sum_nil]
      omega
    · decide

end Verif.Props
