import Verif.Lemmas.Reread
import Verif.Props.WireZcash

/-! Property C132: what was read once is read again unchanged. -/

namespace Verif.Props
open Verif Spec

/-- The inputs that a parser returns are kept when they are read again, and the output scripts are short. -/
theorem parseInsOuts_kept {net : Network} (hn : net.Supported) {b : Bytes} {s : Nat} {p : InsOuts} (h : parseInsOuts net b s = .ok p) :
    (∀ i ∈ p.txIns, i.Kept net) ∧ ∀ o ∈ p.txOuts, o.outputScript.length < 252 := by
  obtain ⟨ni, cur, no, -, h2, -, h4, -⟩ := parseInsOuts_steps h
  obtain ⟨-, i2, -⟩ := parseMany_ok (P := fun i : TxIn => i.Kept net) (k := 0) (m := 0) (fun b x hx =>
    ⟨(TxIn.fromBytes_ok hn hx).2.2.2, by omega, by omega⟩) b _ _ _ _ h2
  obtain ⟨-, o2, -⟩ := parseMany_ok (P := fun o : TxOut => o.outputScript.length < 252) (k := 0) (m := 0) (fun b x hx =>
    ⟨(TxOut.fromBytes_ok hx).2.2.2, by omega, by omega⟩) b _ _ _ _ h4
  exact ⟨fun i hi => (i2 i hi).1, fun o ho => (o2 o ho).1⟩

theorem parseInsOuts_stable {net : Network} (hn : net.Supported) {b : Bytes} {s : Nat} {p : InsOuts} (h : parseInsOuts net b s = .ok p)
    (hl : ∀ i ∈ p.txIns, LenOK net i.scriptSig.length) : InsOutsStable net p.txIns p.txOuts := by
  obtain ⟨c1, c2⟩ := parseInsOuts_counts hn h
  obtain ⟨k1, k2⟩ := parseInsOuts_kept hn h
  exact ⟨c1, c2, fun i hi => ⟨hl i hi, (k1 i hi).elim .inl fun c => .inr (.inr (.inr c))⟩, k2⟩

/-! ## Transactions -/

/-- The lengths of a transaction that its second reading needs: of the input scripts and of the items on the witness stacks. -/
def TxLens (net : Network) (t : Tx) : Prop :=
  (∀ i ∈ t.txIns, CountRead net i.scriptSig.length) ∧ ∀ w ∈ t.txWitnesses.getD [], ∀ i ∈ w.stack, CountRead net i.item.length

/-- C132 for `Tx`: whatever bytes a transaction was read from, the bytes it has are read again, and give the same version, flag, outpoints,
scripts, sequences, outputs, witnesses, lock time and ids; unless a script or a witness item has one of the lengths that the Overwinter
and Sapling networks cannot read, and then they are not read at all. -/
theorem C132_tx (E : Env) (hn : E.net.Supported) (b : Bytes) (t : Tx) (ht : Tx.fromBytes E b = .ok t) :
    (TxLens E.net t → ∃ t', Tx.fromBytes E t.bytes = .ok t' ∧ t'.bytes = t.bytes ∧ t'.version = t.version ∧ t'.flag = t.flag ∧
      t'.lockTime = t.lockTime ∧ t'.txId = t.txId ∧ t'.wtxId = t.wtxId ∧ t'.txOuts = t.txOuts ∧ t'.txWitnesses = t.txWitnesses ∧
      t'.txIns.map (·.bytes) = t.txIns.map (·.bytes) ∧
      t'.txIns.map (·.outpoint) = t.txIns.map (·.outpoint) ∧ t'.txIns.map (·.scriptSig) = t.txIns.map (·.scriptSig) ∧
      t'.txIns.map (·.sequence) = t.txIns.map (·.sequence) ∧ Tx.fromBytes E t'.bytes = .ok t') ∧
    (¬ TxLens E.net t → Tx.fromBytes E t.bytes = .error .valueError) := by
  obtain ⟨hB, -, hi, ho, hw⟩ := Tx.fromBytes_ok hn ht
  obtain ⟨n1, n2, n3⟩ := Tx.counts hn ht
  constructor
  · rintro ⟨l1, l2⟩
    have hs : t.Stable E.net := ⟨n1, n2, fun i h => ⟨countRead_iff.1 (l1 i h), (hi i h).elim .inl fun c => .inr (.inr (.inr c))⟩, ho,
      fun w h => ⟨n3 w h, fun i h' => countRead_iff.1 (l2 w h i h')⟩⟩
    obtain ⟨t', h1, h2, h3, h4, h5, h6, h7, h8, h9, h10, h11, h12, h13⟩ := C40_roundtrip E hn t hB hs [] (fun _ _ => rfl)
    rw [List.append_nil] at h1
    refine ⟨t', h1, h2, h3, h4, h5, h6, h7, h8, ?_, h10, h11, h12, h13, h2 ▸ h1⟩
    rw [h9]
    cases h : t.txWitnesses with
    | none => exact absurd h hw
    | some x => rfl
  · intro hl
    have := Tx.fromBytes_bad hn hB.facts n1 n2 hi ho n3 (by
      by_contra hc
      rw [not_or] at hc
      refine hl ⟨fun i h => countRead_iff.2 ?_, fun w h i h' => countRead_iff.2 ?_⟩
      · by_contra c; exact hc.1 ⟨i, h, c⟩
      · by_contra c; exact hc.2 ⟨w, h, fun d => c (d.2 i h')⟩) []
    rwa [List.append_nil] at this

/-- C132 outside the Overwinter and Sapling networks: no condition is left. -/
theorem C132_tx_other (E : Env) (hn : E.net.Supported) (ho : E.net.isOverwinter = false) (hs : E.net.isSapling = false) (b : Bytes) (t : Tx)
    (ht : Tx.fromBytes E b = .ok t) : ∃ t', Tx.fromBytes E t.bytes = .ok t' ∧ t'.bytes = t.bytes ∧ t'.txId = t.txId ∧ t'.wtxId = t.wtxId ∧
      Tx.fromBytes E t'.bytes = .ok t' := by
  have hc : ∀ n, CountRead E.net n := by
    intro n h; rw [ho, hs] at h; simp at h
  obtain ⟨t', h1, h2, -, -, -, h6, h7, -, -, -, -, -, -, h14⟩ := (C132_tx E hn b t ht).1 ⟨fun i _ => hc _, fun w _ i _ => hc _⟩
  exact ⟨t', h1, h2, h6, h7, h14⟩

example : ∃ b t, Tx.fromBytes toyEnv b = .ok t ∧ TxLens toyEnv.net t ∧ t.txIns ≠ [] := by
  obtain ⟨h1, h2⟩ := (by decide +kernel : (match Tx.fromBytes toyEnv ([1, 0, 0, 0] ++ [1] ++ (List.replicate 32 0xaa ++ [1, 0, 0, 0] ++ [2, 1, 0x51] ++
    [0, 0, 0, 0]) ++ [1] ++ ([1, 0, 0, 0, 0, 0, 0, 0] ++ [1, 0x51]) ++ [0, 0, 0, 0]) with | .ok t => decide (t.txIns ≠ []) | .error _ => false) = true ∧ True)
  revert h1
  cases h : Tx.fromBytes toyEnv _ with
  | error e => intro c; cases c
  | ok t =>
    intro c
    exact ⟨_, t, h, ⟨fun _ _ hz => absurd hz (by decide), fun _ _ _ _ hz => absurd hz (by decide)⟩, of_decide_eq_true c⟩

/-! ## Zcash transactions -/

/-- C132 for Sprout transactions: they are always read again. -/
theorem C132_sprout (E : Env) (hn : E.net.Supported) (b : Bytes) (t : SproutTx) (ht : SproutTx.fromBytes E b = .ok t) :
    ∃ t', SproutTx.fromBytes E t.bytes = .ok t' ∧ t'.bytes = t.bytes ∧ t'.version = t.version ∧ t'.lockTime = t.lockTime ∧
      t'.txOuts = t.txOuts ∧ t'.txJoinsplits = t.txJoinsplits ∧ t'.joinsplitPubkey = t.joinsplitPubkey ∧ t'.joinsplitSig = t.joinsplitSig ∧
      t'.hsigs = t.hsigs ∧ t'.primaryInputs = t.primaryInputs ∧ t'.txId = t.txId ∧ t'.txIdLe = t.txIdLe ∧
      t'.txIns.map (·.bytes) = t.txIns.map (·.bytes) ∧
      t'.txIns.map (·.outpoint) = t.txIns.map (·.outpoint) ∧ t'.txIns.map (·.scriptSig) = t.txIns.map (·.scriptSig) ∧
      t'.txIns.map (·.sequence) = t.txIns.map (·.sequence) ∧ SproutTx.fromBytes E t'.bytes = .ok t' := by
  obtain ⟨hB, hv, -⟩ := SproutTx.fromBytes_ok hn ht
  obtain ⟨-, p, n, js, cur, h1, -, -, hm⟩ := SproutTx.fromBytes_steps ht
  obtain ⟨a, e⟩ := SproutTx.make_iff.1 hm
  have hz : E.net.isOverwinter = false ∧ E.net.isSapling = false := by
    have key : ∀ n : Network, n.Supported → n.isSprout = true → n.isOverwinter = false ∧ n.isSapling = false := by
      unfold Network.Supported; decide +kernel
    exact key _ hn a.sp
  have hs : InsOutsStable E.net t.txIns t.txOuts := by
    rw [e]; exact parseInsOuts_stable hn h1 (fun _ _ => .inl hz)
  have hsig : (∃ s, t.joinsplitSig = some s ∧ s.length = 64) ∨ (t.joinsplitSig = some [] ∧ ([] : Bytes) = []) := by
    rcases a.ver with ⟨x, -⟩ | ⟨-, -, -, s, x, y⟩
    · cases x
    · have : t.joinsplitSig = some s := by rw [e, ← x]; rfl
      rcases y with rfl | y
      · exact .inr ⟨this, rfl⟩
      · exact .inl ⟨s, this, y⟩
  obtain ⟨t', h1, h2, h3⟩ := C55_roundtrip E hn t hB hs hv [] hsig
  rw [List.append_nil] at h1
  obtain ⟨g1, g2, g3, g4, g5, g6, g7, g8, g9, g10, g11, g12, g13, g14⟩ := h3
  exact ⟨t', h1, h2, g1, g2, g3, g4, g5, g6, g7, g8, g9, g10, g11, g12, g13, g14, h2 ▸ h1⟩

example : ∃ b t, SproutTx.fromBytes sproutEnv b = .ok t ∧ t.txJoinsplits ≠ [] := by
  obtain ⟨t, h1, -, -, -, -, h6, -⟩ := C55_roundtrip sproutEnv zcash_supported.1 exSprout2 exSprout2_built (ex_stable _ (n := 2) (by omega)) rfl []
    (.inl ⟨_, rfl, List.length_replicate⟩)
  exact ⟨_, t, h1, by rw [h6]; exact List.cons_ne_nil _ _⟩

/-- C132 for Overwinter transactions: they are read again if the lengths of the input scripts can be read and if there are no joinsplits or
fewer than 253 outputs; otherwise not. -/
theorem C132_overwinter (E : Env) (hn : E.net.Supported) (b : Bytes) (t : OverwinterTx) (ht : OverwinterTx.fromBytes E b = .ok t) :
    ((∀ i ∈ t.txIns, CountRead E.net i.scriptSig.length) → t.txJoinsplits = [] ∨ t.txOuts.length < 253 →
      ∃ t', OverwinterTx.fromBytes E t.bytes = .ok t' ∧ t'.bytes = t.bytes ∧ t'.lockTime = t.lockTime ∧ t'.expiryHeight = t.expiryHeight ∧
      t'.txOuts = t.txOuts ∧ t'.txJoinsplits = t.txJoinsplits ∧ t'.joinsplitPubkey = t.joinsplitPubkey ∧ t'.joinsplitSig = t.joinsplitSig ∧
      t'.hsigs = t.hsigs ∧ t'.primaryInputs = t.primaryInputs ∧ t'.txId = t.txId ∧ t'.txIdLe = t.txIdLe ∧
      t'.txIns.map (·.bytes) = t.txIns.map (·.bytes) ∧
      t'.txIns.map (·.outpoint) = t.txIns.map (·.outpoint) ∧ t'.txIns.map (·.scriptSig) = t.txIns.map (·.scriptSig) ∧
      t'.txIns.map (·.sequence) = t.txIns.map (·.sequence) ∧ OverwinterTx.fromBytes E t'.bytes = .ok t') ∧
    (¬ ((∀ i ∈ t.txIns, CountRead E.net i.scriptSig.length) ∧ (t.txJoinsplits = [] ∨ t.txOuts.length < 253)) →
      OverwinterTx.fromBytes E t.bytes = .error .valueError) := by
  have hB := (OverwinterTx.fromBytes_ok hn ht).1
  have f := hB.facts
  obtain ⟨p, js, pk, sig, h1, -, h3⟩ := OverwinterTx.fromBytes_steps ht
  obtain ⟨-, e⟩ := OverwinterTx.make_iff.1 h3
  have e1 : p.txIns = t.txIns := by rw [e]; rfl
  have e2 : p.txOuts = t.txOuts := by rw [e]; rfl
  have hst : (∀ i ∈ t.txIns, CountRead E.net i.scriptSig.length) → InsOutsStable E.net t.txIns t.txOuts := fun h => by
    rw [← e1, ← e2]; exact parseInsOuts_stable hn h1 (fun i hi => countRead_iff.1 (h i (e1 ▸ hi)))
  constructor
  · intro hl hc
    obtain ⟨t', h1, h2, g1, g2, g3, g4, g5, g6, g7, g8, g9, g10, g11, g12, g13, g14⟩ := C57_roundtrip_partial E hn t hB (hst hl) hc []
    rw [List.append_nil] at h1
    exact ⟨t', h1, h2, g1, g2, g3, g4, g5, g6, g7, g8, g9, g10, g11, g12, g13, g14, h2 ▸ h1⟩
  · intro hc
    by_cases hl : ∀ i ∈ t.txIns, CountRead E.net i.scriptSig.length
    · have hc' : ¬ (t.txJoinsplits = [] ∨ t.txOuts.length < 253) := fun c => hc ⟨hl, c⟩
      rw [not_or] at hc'
      exact C57_false E hn t hB (hst hl) hc'.1 (by omega)
    · have hk := (parseInsOuts_kept hn h1).1
      have hn1 := (parseInsOuts_counts hn h1).1
      rw [e1] at hk hn1
      have hb : ∃ i ∈ t.txIns, ¬ LenOK E.net i.scriptSig.length := by
        by_contra c
        exact hl fun i hi => countRead_iff.2 (by by_contra d; exact c ⟨i, hi, d⟩)
      unfold OverwinterTx.fromBytes
      rw [f.bytes, wireOverwinter_eq, check_true (by rintro (h | h) <;> exact h rfl), ok_bind]
      have := parseInsOuts_bad (outs := t.txOuts) hn f.ins hk f.args.li hn1 hb overHeader
      rw [show overHeader.length = 8 from rfl] at this
      rw [this]; rfl

example : ∃ b t, OverwinterTx.fromBytes overEnv b = .ok t ∧ (∀ i ∈ t.txIns, CountRead overEnv.net i.scriptSig.length) ∧ t.txJoinsplits ≠ [] ∧
    t.txOuts.length = 3 := by
  obtain ⟨t, h1, -, -, -, h5, h6, -, -, -, -, -, -, -, -, h7, -⟩ := C57_roundtrip_partial overEnv zcash_supported.2.1 (exOver 3) (exOver_built (by omega))
    (ex_stable _ (by omega)) (.inr (by decide)) []
  refine ⟨_, t, h1, fun i hi => ?_, by rw [h6]; exact List.cons_ne_nil _ _, by rw [h5]; rfl⟩
  have : i.scriptSig ∈ [exIn.scriptSig] := by
    have := List.mem_map_of_mem (f := TxIn.scriptSig) hi
    rw [h7] at this
    exact this
  rw [List.mem_singleton.1 this]
  exact countRead_iff.2 (.inr (by decide))

/-- C132 for Sapling transactions: the same, with the shielded parts. -/
theorem C132_sapling (E : Env) (hn : E.net.Supported) (b : Bytes) (t : SaplingTx) (ht : SaplingTx.fromBytes E b = .ok t) :
    ((∀ i ∈ t.txIns, CountRead E.net i.scriptSig.length) →
      (t.txJoinsplits = [] ∧ t.txShieldedSpends = [] ∧ t.txShieldedOutputs = []) ∨ t.txOuts.length < 253 →
      ∃ t', SaplingTx.fromBytes E t.bytes = .ok t' ∧ t'.bytes = t.bytes ∧ t'.lockTime = t.lockTime ∧
      t'.expiryHeight = t.expiryHeight ∧ t'.valueBalance = t.valueBalance ∧ t'.txShieldedSpends = t.txShieldedSpends ∧
      t'.txShieldedOutputs = t.txShieldedOutputs ∧ t'.bindingSig = t.bindingSig ∧
      t'.txOuts = t.txOuts ∧ t'.txJoinsplits = t.txJoinsplits ∧ t'.joinsplitPubkey = t.joinsplitPubkey ∧ t'.joinsplitSig = t.joinsplitSig ∧
      t'.hsigs = t.hsigs ∧ t'.primaryInputs = t.primaryInputs ∧ t'.txId = t.txId ∧ t'.txIdLe = t.txIdLe ∧
      t'.txIns.map (·.bytes) = t.txIns.map (·.bytes) ∧
      t'.txIns.map (·.outpoint) = t.txIns.map (·.outpoint) ∧ t'.txIns.map (·.scriptSig) = t.txIns.map (·.scriptSig) ∧
      t'.txIns.map (·.sequence) = t.txIns.map (·.sequence) ∧ SaplingTx.fromBytes E t'.bytes = .ok t') ∧
    (¬ ((∀ i ∈ t.txIns, CountRead E.net i.scriptSig.length) ∧
        ((t.txJoinsplits = [] ∧ t.txShieldedSpends = [] ∧ t.txShieldedOutputs = []) ∨ t.txOuts.length < 253)) →
      SaplingTx.fromBytes E t.bytes = .error .valueError) := by
  have hB := (SaplingTx.fromBytes_ok hn ht).1
  have f := hB.facts
  obtain ⟨p, r, h1, h2, h3⟩ := SaplingTx.fromBytes_steps ht
  obtain ⟨-, e⟩ := SaplingTx.make_iff.1 h3
  have e1 : p.txIns = t.txIns := by rw [e]; rfl
  have e2 : p.txOuts = t.txOuts := by rw [e]; rfl
  have e3 : r.spends = t.txShieldedSpends := by rw [e]; rfl
  have hss : LenOK E.net t.txShieldedSpends.length := by
    obtain ⟨ns, c1, nso, c2, nj, c3, g1, g2, -⟩ := SaplingTx.parseRest_steps h2
    rw [← e3]
    exact parseMany_count (fun b x hx => by obtain ⟨hb, a, -⟩ := SaplingShieldedSpend.fromBytes_ok hx; have := hb.length; omega) g1 g2
  have hst : (∀ i ∈ t.txIns, CountRead E.net i.scriptSig.length) → InsOutsStable E.net t.txIns t.txOuts := fun h => by
    rw [← e1, ← e2]; exact parseInsOuts_stable hn h1 (fun i hi => countRead_iff.1 (h i (e1 ▸ hi)))
  constructor
  · intro hl hc
    obtain ⟨ins', p, q, r⟩ := SaplingTx.fromBytes_bytes hn f (hst hl) hss hc []
    obtain ⟨s1, s2, s3⟩ := sameIns p
    rw [List.append_nil, saplingObj_ins q, ← f.obj] at r
    exact ⟨_, r, rfl, rfl, rfl, rfl, rfl, rfl, rfl, rfl, rfl, rfl, rfl, rfl, rfl, rfl, rfl, q, s1, s2, s3, r⟩
  · intro hc
    by_cases hl : ∀ i ∈ t.txIns, CountRead E.net i.scriptSig.length
    · have hc' : ¬ ((t.txJoinsplits = [] ∧ t.txShieldedSpends = [] ∧ t.txShieldedOutputs = []) ∨ t.txOuts.length < 253) := fun c => hc ⟨hl, c⟩
      rw [not_or] at hc'
      refine SaplingTx.fromBytes_many hn f (hst hl) hss ?_ (by omega)
      by_contra c
      simp only [not_or, ne_eq, not_not] at c
      exact hc'.1 c
    · have hk := (parseInsOuts_kept hn h1).1
      have hn1 := (parseInsOuts_counts hn h1).1
      rw [e1] at hk hn1
      have hb : ∃ i ∈ t.txIns, ¬ LenOK E.net i.scriptSig.length := by
        by_contra c
        exact hl fun i hi => countRead_iff.2 (by by_contra d; exact c ⟨i, hi, d⟩)
      unfold SaplingTx.fromBytes
      rw [f.bytes, saplingBytes, wireSapling_parts, check_true (by rintro (h | h) <;> exact h rfl), ok_bind]
      have := parseInsOuts_bad (outs := t.txOuts) hn f.ins hk f.args.li hn1 hb saplingHeader
      rw [show saplingHeader.length = 8 from rfl] at this
      rw [this]; rfl

example : ∃ b t, SaplingTx.fromBytes sapEnv b = .ok t ∧ (∀ i ∈ t.txIns, CountRead sapEnv.net i.scriptSig.length) ∧ t.txShieldedSpends ≠ [] ∧
    t.txOuts.length = 3 := by
  obtain ⟨t, h1, -, -, -, -, h6, -, -, h5, -, -, -, -, -, -, -, -, -, h7, -⟩ := C58_roundtrip_partial sapEnv zcash_supported.2.2 (exSap 3)
    (exSap_built (by omega)) (ex_stable _ (by omega)) (by decide) (.inr (by decide)) []
  refine ⟨_, t, h1, fun i hi => ?_, by rw [h6]; exact List.cons_ne_nil _ _, by rw [h5]; rfl⟩
  have : i.scriptSig ∈ [exIn.scriptSig] := by
    have := List.mem_map_of_mem (f := TxIn.scriptSig) hi
    rw [h7] at this
    exact this
  rw [List.mem_singleton.1 this]
  exact countRead_iff.2 (.inr (by decide))

/-! ## Where it fails -/

/-- A script of 256 bytes that is read as one of 255 bytes: its first push is not minimal. -/
def longSig : Bytes := [0x4c, 0x01, 0x07] ++ List.replicate 251 0x51 ++ [0x01, 0x51]

/-- A transaction with one input with the script `s` and the sequence `q`. -/
def oneIn (s q : Bytes) : Bytes :=
  [1, 0, 0, 0] ++ [1] ++ (List.replicate 32 0xaa ++ [1, 0, 0, 0] ++ varBytes s ++ q) ++ [1] ++ ([1, 0, 0, 0, 0, 0, 0, 0] ++ [1, 0x51]) ++ [0, 0, 0, 0]

/-- C132 fails on Sapling networks: bytes from which a transaction is read whose own bytes are not. (The parser goes on by the length of the
input it built, which is one byte shorter than the one it read; here the count of the outputs stands where it then looks for it.) -/
theorem C132_false : ∃ b t, Tx.fromBytes sapEnv b = .ok t ∧ Tx.fromBytes sapEnv t.bytes = .error .valueError := by
  have h : ∀ r : Py Tx, (match r with | .ok t => decide (Tx.fromBytes sapEnv t.bytes = .error .valueError) | .error _ => false) = true →
      ∃ t, r = .ok t ∧ Tx.fromBytes sapEnv t.bytes = .error .valueError := by
    intro r hr
    cases r with
    | error e => cases hr
    | ok t => exact ⟨t, rfl, of_decide_eq_true hr⟩
  exact ⟨oneIn longSig [0, 0, 0], h _ (by decide +kernel)⟩

/-- And the same for the transactions of version 3 and 4. -/
theorem C132_false_zcash : (∃ b t, OverwinterTx.fromBytes overEnv b = .ok t ∧ OverwinterTx.fromBytes overEnv t.bytes = .error .valueError) ∧
    ∃ b t, SaplingTx.fromBytes sapEnv b = .ok t ∧ SaplingTx.fromBytes sapEnv t.bytes = .error .valueError := by
  have h : ∀ r : Py OverwinterTx, (match r with
      | .ok t => decide (OverwinterTx.fromBytes overEnv t.bytes = .error .valueError) | .error _ => false) = true →
      ∃ t, r = .ok t ∧ OverwinterTx.fromBytes overEnv t.bytes = .error .valueError := by
    intro r hr
    cases r with
    | error e => cases hr
    | ok t => exact ⟨t, rfl, of_decide_eq_true hr⟩
  have h' : ∀ r : Py SaplingTx, (match r with
      | .ok t => decide (SaplingTx.fromBytes sapEnv t.bytes = .error .valueError) | .error _ => false) = true →
      ∃ t, r = .ok t ∧ SaplingTx.fromBytes sapEnv t.bytes = .error .valueError := by
    intro r hr
    cases r with
    | error e => cases hr
    | ok t => exact ⟨t, rfl, of_decide_eq_true hr⟩
  exact ⟨⟨overHeader ++ (oneIn longSig [0, 0, 0]).drop 4 ++ List.replicate 5 0, h _ (by decide +kernel)⟩,
    saplingHeader ++ (oneIn longSig [0, 0, 0]).drop 4 ++ List.replicate 15 0, h' _ (by decide +kernel)⟩

/-- The stack script and the redeem script of every input. -/
def splits (t : Tx) : List (Bytes × Bytes) := t.txIns.map fun i => (i.stackScript, i.redeemScript)

/-- C132 says nothing about how the script of an input is split into the stack and the redeem script, and rightly so: the second reading
can split it in another way. -/
theorem C132_false_split : ∃ b t t', Tx.fromBytes toyEnv b = .ok t ∧ Tx.fromBytes toyEnv t.bytes = .ok t' ∧
    splits t = [([0x01, 0x51], [])] ∧ splits t' = [([], [0x01, 0x51])] := by
  have h : ∀ r : Py Tx, (match r with
      | .ok t => match Tx.fromBytes toyEnv t.bytes with
        | .ok t' => decide (splits t = [([0x01, 0x51], [])] ∧ splits t' = [([], [0x01, 0x51])])
        | .error _ => false
      | .error _ => false) = true →
      ∃ t t', r = .ok t ∧ Tx.fromBytes toyEnv t.bytes = .ok t' ∧ splits t = [([0x01, 0x51], [])] ∧ splits t' = [([], [0x01, 0x51])] := by
    intro r hr
    cases r with
    | error e => cases hr
    | ok t =>
      simp only at hr
      cases h : Tx.fromBytes toyEnv t.bytes with
      | error e => rw [h] at hr; cases hr
      | ok t' => rw [h] at hr; exact ⟨t, t', rfl, h, of_decide_eq_true hr⟩
  exact ⟨oneIn ([0x01, 0x51] ++ exBigPush) [0, 0, 0, 0], h _ (by decide +kernel)⟩

end Verif.Props
