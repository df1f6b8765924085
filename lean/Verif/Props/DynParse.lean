import Verif.Model.DynParse
import Verif.Model.DynEmbed
import Verif.Props.DynFreeze

/-! Property C120: what `from_bytes` does with a value of any type. -/

namespace Verif.Props
open Verif Spec Dyn

/-! ### bytes -/

theorem readMany_typed {α : Type} (f : Val → Py Val) (g : Bytes → Py α) (emb : α → Val) (len : α → Nat) (hf : ∀ b, f (.bytes b) = (g b).map emb)
    (hl : ∀ a, (emb a).len = .ok (len a)) (b : Bytes) (n : Nat) :
    ∀ current, readMany f (.bytes b) n current = (parseMany g len b n current).map fun p => (p.1.map emb, p.2) := by
  induction n with
  | zero => intro c; rfl
  | succ n ih =>
    intro c
    simp only [readMany, parseMany, Val.from_, ok_bind, hf, bind_map, hl, ih, map_bind]
    rfl

theorem read_typed_outpoint (b : Bytes) : readOutpoint (.bytes b) = (Outpoint.fromBytes b).map embO := by
  unfold readOutpoint Outpoint.fromBytes
  simp only [Val.slice, ok_bind, C114_typed_parts.1]

theorem read_typed_scriptSig (net : Network) (b : Bytes) :
    readScriptSig net (.bytes b) = (TxIn.parseScriptSig net b).map fun p => (.bytes p.1, .bytes p.2) := by
  unfold readScriptSig TxIn.parseScriptSig
  simp only [Val.content]
  generalize (deserialize net b >>= _ : Py (Bytes × PyStr)) = first
  cases first with
  | error e =>
    dsimp only
    split <;> rfl
  | ok p =>
    obtain ⟨stack, last⟩ := p
    dsimp only
    cases serialize net last with
    | ok r => rfl
    | error e =>
      dsimp only
      split <;> rfl

theorem read_typed_txIn (net : Network) (b : Bytes) : readTxIn net (.bytes b) = (TxIn.fromBytes net b).map embIn := by
  unfold readTxIn TxIn.fromBytes Outpoint.null
  simp only [Val.slice, ok_bind, read_typed_outpoint, readVarInt, bind_map, map_bind, C114_typed_parts.1]
  congr 1; funext o
  congr 1; funext n
  by_cases h : slice b (36 + n.bytes.length) (36 + n.bytes.length + n.number) = []
  · rw [if_pos (by rw [h]; rfl), if_pos h]
    exact C114_typed_parts.2.1 _ _ _ _
  · rw [if_neg (by simp [Val.neBytes, Val.content, h]), if_neg h]
    simp only [map_bind]
    congr 1; funext z
    have e : ((embO o).content = (embO z).content) = (o.bytes = z.bytes) := by simp [embO, Val.content]
    by_cases hz : o.bytes = z.bytes
    · rw [if_pos (by rw [e]; exact hz), if_pos hz]
      exact C114_typed_parts.2.1 _ _ _ _
    · rw [if_neg (by rw [e]; exact hz), if_neg hz, read_typed_scriptSig]
      simp only [bind_map, map_bind, C114_typed_parts.2.1]

theorem read_typed_txOut (net : Network) (b : Bytes) : readTxOut net (.bytes b) = (TxOut.fromBytes net b).map embOut := by
  unfold readTxOut TxOut.fromBytes
  simp only [Val.slice, Val.from_, ok_bind, readVarInt, map_bind, C114_typed_parts.2.2.1]
  congr 1; funext n
  split <;> rfl

theorem read_typed_item (net : Network) (b : Bytes) : readItem net (.bytes b) = (WitnessStackItem.fromBytes net b).map embItem := by
  unfold readItem WitnessStackItem.fromBytes
  simp only [Val.slice, ok_bind, readVarInt, map_bind, C114_typed_parts.2.2.2.1]

theorem read_typed_witness (net : Network) (b : Bytes) : readWitness net (.bytes b) = (InputWitness.fromBytes net b).map embWit := by
  unfold readWitness InputWitness.fromBytes
  simp only [readVarInt, map_bind, readMany_typed _ _ _ _ (read_typed_item net) (fun a => rfl), bind_map]
  congr 1; funext n; congr 1; funext p
  exact C114_typed_parts.2.2.2.2 _ _ (.inl rfl)

theorem read_typed_tx (E : Env) (b : Bytes) : readTx E (.bytes b) = (Tx.fromBytes E b).map embTx := by
  unfold readTx Tx.fromBytes
  simp only [ok_bind, Val.slice, Val.from_, Val.len, readVarInt, map_bind, readMany_typed _ _ _ _ (read_typed_txIn E.net) (fun a => rfl),
    readMany_typed _ _ _ _ (read_typed_txOut E.net) (fun a => rfl), readMany_typed _ _ _ _ (read_typed_witness E.net) (fun a => rfl), bind_map]
  have e : ((Val.bytes (slice b 4 6)).neBytes E.net.segwitTxFlag = false) = (slice b 4 6 = E.net.segwitTxFlag) := by simp [Val.neBytes, Val.content]
  simp only [e]
  by_cases h : slice b 4 6 = E.net.segwitTxFlag
  · simp only [h, if_true, true_and, Option.getD_some]
    congr 1; funext ni; congr 1; funext p; congr 1; funext no; congr 1; funext q
    by_cases h2 : E.net.segwitTxFlag = []
    · simp only [h2, ne_eq, not_true_eq_false, if_false, false_and]
      exact C114_typed E _ _ (some []) _ _ (some []) _ _ _ (.inl rfl) (.inl rfl) (fun ws hw => by cases hw; exact .inl rfl) (fun hw => nomatch hw)
    · simp only [h2, ne_eq, not_false_eq_true, if_true, true_and]
      by_cases h3 : (b.drop q.2).length > 4
      · simp only [h3, if_true, map_bind]
        congr 1; funext w
        exact C114_typed E _ _ (some _) _ _ (some _) _ _ _ (.inl rfl) (.inl rfl) (fun ws hw => by cases hw; exact .inl rfl) (fun hw => nomatch hw)
      · simp only [h3, if_false]
        exact C114_typed E _ _ (some _) _ _ (some []) _ _ _ (.inl rfl) (.inl rfl) (fun ws hw => by cases hw; exact .inl rfl) (fun hw => nomatch hw)
  · simp only [h, if_false, false_and, Option.getD_none, ne_eq, not_true_eq_false]
    congr 1; funext ni; congr 1; funext p; congr 1; funext no; congr 1; funext q
    exact C114_typed E _ _ none _ _ (some []) _ _ _ (.inl rfl) (.inl rfl) (fun ws hw => by cases hw; exact .inl rfl) (fun hw => nomatch hw)

theorem read_typed_sproutProof (net : Network) (b : Bytes) : readSproutProof net (.bytes b) = (SproutZkproof.fromBytes net b).map embSproutProof := by
  unfold readSproutProof SproutZkproof.fromBytes
  simp only [Val.slice, ok_bind, (C116_typed_parts net).1]

theorem read_typed_saplingProof (net : Network) (b : Bytes) : readSaplingProof net (.bytes b) = (SaplingZkproof.fromBytes net b).map embSapProof := by
  unfold readSaplingProof SaplingZkproof.fromBytes
  simp only [Val.slice, ok_bind, (C116_typed_parts net).2.1]

theorem read_typed_sproutJs (net : Network) (b : Bytes) : readSproutJs net (.bytes b) = (SproutJoinsplit.fromBytes net b).map embSproutJs := by
  unfold readSproutJs SproutJoinsplit.fromBytes
  simp only [Val.slice, ok_bind, read_typed_sproutProof, bind_map, map_bind, (C116_typed_parts net).2.2.1]

theorem read_typed_saplingJs (net : Network) (b : Bytes) : readSaplingJs net (.bytes b) = (SaplingJoinsplit.fromBytes net b).map embSapJs := by
  unfold readSaplingJs SaplingJoinsplit.fromBytes
  simp only [Val.slice, ok_bind, read_typed_saplingProof, bind_map, map_bind, (C116_typed_parts net).2.2.2.1]

theorem read_typed_spend (net : Network) (b : Bytes) : readSpend net (.bytes b) = (SaplingShieldedSpend.fromBytes net b).map embSpend := by
  unfold readSpend SaplingShieldedSpend.fromBytes
  simp only [Val.slice, ok_bind, read_typed_saplingProof, bind_map, map_bind, (C116_typed_parts net).2.2.2.2.1]

theorem read_typed_output (net : Network) (b : Bytes) : readOutput net (.bytes b) = (SaplingShieldedOutput.fromBytes net b).map embOutput := by
  unfold readOutput SaplingShieldedOutput.fromBytes
  simp only [Val.slice, ok_bind, read_typed_saplingProof, bind_map, map_bind, (C116_typed_parts net).2.2.2.2.2]

theorem read_typed_insOuts (net : Network) (b : Bytes) (start : Nat) : readInsOuts net (.bytes b) start =
    (parseInsOuts net b start).map fun p => ⟨p.txIns.map embIn, p.txOuts.map embOut, p.outsNumLen, p.current⟩ := by
  unfold readInsOuts parseInsOuts
  simp only [ok_bind, Val.from_, readVarInt, map_bind, readMany_typed _ _ _ _ (read_typed_txIn net) (fun a => rfl),
    readMany_typed _ _ _ _ (read_typed_txOut net) (fun a => rfl), bind_map, map_ok']

theorem read_typed_sproutRest (net : Network) (b version : Bytes) (current : Nat) : readSproutRest net (.bytes b) (.bytes version) current =
    (SproutTx.parseJs net b version current).map fun p => (p.1.elim .none fun l => .list (l.map embSproutJs), embOpt p.2.1, embOpt p.2.2) := by
  unfold readSproutRest SproutTx.parseJs
  simp only [Val.le2i, ok_bind]
  split
  · simp only [ok_bind, Val.from_, Val.slice, readVarInt, map_bind, readMany_typed _ _ _ _ (read_typed_sproutJs net) (fun a => rfl), bind_map, map_ok', embOpt,
      Option.elim_some]
  · rfl

theorem read_typed_sproutTx (E : Env) (b : Bytes) : readSproutTx E (.bytes b) = (SproutTx.fromBytes E b).map embSprout := by
  unfold readSproutTx SproutTx.fromBytes
  simp only [ok_bind, Val.slice, map_bind, read_typed_insOuts, read_typed_sproutRest, bind_map]
  congr 1; funext p; congr 1; funext q
  obtain ⟨js, pk, sig⟩ := q
  exact C116_typed_sprout E _ _ _ _ _ _ _ _ _ _ (.inl rfl) (.inl rfl) (fun l h => by cases h; exact .inl rfl) (fun h => by cases h; rfl)

theorem read_typed_header (b h g : Bytes) : readHeader (.bytes b) h g = check (¬ (slice b 0 4 ≠ h ∨ slice b 4 8 ≠ g)) .valueError := by
  have e : ∀ x y : Bytes, ((Val.bytes x).neBytes y = true) = (x ≠ y) := by intro x y; simp [Val.neBytes, Val.content]
  unfold readHeader
  simp only [Val.slice, ok_bind, e]
  by_cases c : slice b 0 4 ≠ h ∨ slice b 4 8 ≠ g
  · rw [if_pos c]; simp [check, c, Val.hexAttr, Val.content]
  · rw [if_neg c]; simp [check, c]

theorem read_typed_overwinterRest (net : Network) (b : Bytes) (o current : Nat) : readOverwinterRest net (.bytes b) o current =
    (OverwinterTx.parseJs net b o current).map fun p =>
      (if current = b.length then .tuple (p.1.map embSproutJs) else .list (p.1.map embSproutJs), embOpt p.2.1, embOpt p.2.2) := by
  unfold readOverwinterRest OverwinterTx.parseJs
  simp only [Val.len, ok_bind]
  by_cases h : current = b.length
  · simp only [h, if_true]; rfl
  · simp only [h, if_false, ok_bind, Val.from_, Val.slice, readVarInt, map_bind, readMany_typed _ _ _ _ (read_typed_sproutJs net) (fun a => rfl), bind_map, map_ok', embOpt,
      Option.elim_some]

theorem read_typed_overwinterTx (E : Env) (b : Bytes) : readOverwinterTx E (.bytes b) = (OverwinterTx.fromBytes E b).map embOver := by
  unfold readOverwinterTx OverwinterTx.fromBytes
  simp only [ok_bind, Val.slice, map_bind, read_typed_header, read_typed_insOuts, read_typed_overwinterRest, bind_map]
  congr 1; funext _; congr 1; funext p; congr 1; funext q
  obtain ⟨js, pk, sig⟩ := q
  refine C116_typed_overwinter E _ _ _ _ _ _ _ _ _ _ (.inl rfl) (.inl rfl) ?_
  dsimp only
  split
  · exact .inr rfl
  · exact .inl rfl

theorem read_typed_saplingRest (net : Network) (b : Bytes) (o current : Nat) : readSaplingRest net (.bytes b) o current =
    (SaplingTx.parseRest net b o current).map fun r =>
      ⟨r.spends.map embSpend, r.outputs.map embOutput, r.js.map embSapJs, embOpt r.pk, embOpt r.sig, embOpt r.binding⟩ := by
  unfold readSaplingRest SaplingTx.parseRest
  simp only [ok_bind, Val.from_, Val.slice, readVarInt, map_bind, readMany_typed _ _ _ _ (read_typed_spend net) (fun a => rfl),
    readMany_typed _ _ _ _ (read_typed_output net) (fun a => rfl), readMany_typed _ _ _ _ (read_typed_saplingJs net) (fun a => rfl), bind_map, map_ok', List.length_map]
  congr 1; funext ns; congr 1; funext p; congr 1; funext nso; congr 1; funext q; congr 1; funext nj; congr 1; funext r
  by_cases h : r.1.length > 0 <;> by_cases h' : p.1.length + q.1.length > 0 <;> simp only [h, h', if_true, if_false] <;> rfl

theorem read_typed_saplingTx (E : Env) (b : Bytes) : readSaplingTx E (.bytes b) = (SaplingTx.fromBytes E b).map embSap := by
  unfold readSaplingTx SaplingTx.fromBytes
  simp only [ok_bind, Val.slice, map_bind, read_typed_header, read_typed_insOuts, read_typed_saplingRest, bind_map]
  congr 1; funext _; congr 1; funext p; congr 1; funext r
  exact C116_typed_sapling E _ _ _ _ _ _ _ _ _ _ _ _ _ _ _ _ (.inl rfl) (.inl rfl) (.inl rfl) (.inl rfl) (.inl rfl)

theorem read_typed_dcrOutpoint (net : Network) (b : Bytes) : readDcrOutpoint net (.bytes b) = (DecredOutpoint.fromBytes net b).map embDcrO := by
  unfold readDcrOutpoint DecredOutpoint.fromBytes
  simp only [Val.slice, ok_bind, (C117_typed_parts net).1]

theorem read_typed_dcrTxIn (net : Network) (b : Bytes) : readDcrTxIn net (.bytes b) = (DecredTxIn.fromBytes net b).map embDcrIn := by
  unfold readDcrTxIn DecredTxIn.fromBytes
  simp only [Val.slice, ok_bind, read_typed_dcrOutpoint, bind_map, map_bind, (C117_typed_parts net).2.1]

theorem read_typed_dcrTxOut (net : Network) (b : Bytes) : readDcrTxOut net (.bytes b) = (DecredTxOut.fromBytes net b).map embDcrOut := by
  unfold readDcrTxOut DecredTxOut.fromBytes
  simp only [Val.slice, Val.from_, ok_bind, readVarInt, map_bind, (C117_typed_parts net).2.2.1]
  congr 1; funext n
  split <;> rfl

/-- C120: on bytes, `from_bytes` makes the objects that the model with types makes. -/
theorem C120_bytes (E : Env) (b : Bytes) :
    readOutpoint (.bytes b) = (Outpoint.fromBytes b).map embO ∧ readTxIn E.net (.bytes b) = (TxIn.fromBytes E.net b).map embIn ∧
    readTxOut E.net (.bytes b) = (TxOut.fromBytes E.net b).map embOut ∧ readItem E.net (.bytes b) = (WitnessStackItem.fromBytes E.net b).map embItem ∧
    readWitness E.net (.bytes b) = (InputWitness.fromBytes E.net b).map embWit ∧ readTx E (.bytes b) = (Tx.fromBytes E b).map embTx ∧
    readSproutProof E.net (.bytes b) = (SproutZkproof.fromBytes E.net b).map embSproutProof ∧
    readSproutJs E.net (.bytes b) = (SproutJoinsplit.fromBytes E.net b).map embSproutJs ∧
    readSaplingProof E.net (.bytes b) = (SaplingZkproof.fromBytes E.net b).map embSapProof ∧
    readSpend E.net (.bytes b) = (SaplingShieldedSpend.fromBytes E.net b).map embSpend ∧
    readOutput E.net (.bytes b) = (SaplingShieldedOutput.fromBytes E.net b).map embOutput ∧
    readSaplingJs E.net (.bytes b) = (SaplingJoinsplit.fromBytes E.net b).map embSapJs ∧
    readSproutTx E (.bytes b) = (SproutTx.fromBytes E b).map embSprout ∧ readOverwinterTx E (.bytes b) = (OverwinterTx.fromBytes E b).map embOver ∧
    readSaplingTx E (.bytes b) = (SaplingTx.fromBytes E b).map embSap ∧
    readDcrOutpoint E.net (.bytes b) = (DecredOutpoint.fromBytes E.net b).map embDcrO ∧ readDcrTxIn E.net (.bytes b) = (DecredTxIn.fromBytes E.net b).map embDcrIn ∧
    readDcrTxOut E.net (.bytes b) = (DecredTxOut.fromBytes E.net b).map embDcrOut :=
  ⟨read_typed_outpoint b, read_typed_txIn _ b, read_typed_txOut _ b, read_typed_item _ b, read_typed_witness _ b, read_typed_tx E b, read_typed_sproutProof _ b,
    read_typed_sproutJs _ b, read_typed_saplingProof _ b, read_typed_spend _ b, read_typed_output _ b, read_typed_saplingJs _ b, read_typed_sproutTx E b,
    read_typed_overwinterTx E b, read_typed_saplingTx E b, read_typed_dcrOutpoint _ b, read_typed_dcrTxIn _ b, read_typed_dcrTxOut _ b⟩

end Verif.Props
