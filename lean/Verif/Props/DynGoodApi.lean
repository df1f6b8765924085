import Verif.Props.DynGood
import Verif.Props.DynSession

/-! Property C130, lemmas: whatever a function of the library is called with, what it returns is good. -/

namespace Verif.Props
open Verif Spec Dyn

variable {S : Network → Prop} {E : Env}

theorem toLe_good {S : Network → Prop} {E : Env} {v w : Val} {k : Nat} (h : v.toLe k = .ok w) : GoodOn S E w := by
  obtain ⟨b, -, rfl⟩ := toLe_ok.1 h
  exact .bytes b

theorem good_output {S : Network → Prop} {E : Env} {a s w v : Val} (ha : GoodOn S E a) (hs : GoodOn S E s) (hw : GoodOn S E w) (h : Dyn.makeOutput E a s w = .ok v) : GoodOn S E v := by
  unfold Dyn.makeOutput at h
  split at h
  · exact .dcrTxOut _ _ _ _ ha hw hs h
  · exact .txOut _ _ _ ha hs h

theorem good_items {S : Network → Prop} {E : Env} {l : List Val} {s : List Val} (hl : ∀ x ∈ l, GoodOn S E x) (h : mapPy Dyn.item l = .ok s) : ∀ x ∈ s, GoodOn S E x := by
  induction l generalizing s with
  | nil => cases h; simp
  | cons a l ih =>
    simp only [mapPy, bind_ok_iff, Except.ok.injEq] at h
    obtain ⟨b, hb, t, ht, rfl⟩ := h
    intro x hx
    rcases List.mem_cons.1 hx with rfl | hx
    · exact .item _ _ (hl a (.head _)) hb
    · exact ih (fun y hy => hl y (.tail _ hy)) ht x hx

theorem good_witness {S : Network → Prop} {E : Env} {a v : Val} (ha : GoodOn S E a) (h : Dyn.makeWitness a = .ok v) : GoodOn S E v := by
  simp only [Dyn.makeWitness, bind_ok_iff] at h
  obtain ⟨l, hl, s, hs, h⟩ := h
  exact .witness _ _ (.list _ (good_items (good_iter ha hl) hs)) h

theorem good_outpoint {S : Network → Prop} {E : Env} {a b c v : Val} (ha : GoodOn S E a) (h : Dyn.makeOutpoint E a b c = .ok v) : GoodOn S E v := by
  unfold Dyn.makeOutpoint at h
  split at h
  · rw [bind_ok_iff] at h
    obtain ⟨t, ht, h⟩ := h
    rw [bind_ok_iff] at h
    obtain ⟨i, hi, h⟩ := h
    refine .dcrOutpoint _ _ _ _ ha (toLe_good hi) ?_ h
    split at ht
    · exact toLe_good ht
    · cases ht; exact .bytes _
  · rw [bind_ok_iff] at h
    obtain ⟨i, hi, h⟩ := h
    exact .outpoint _ _ _ ha (toLe_good hi) h

theorem good_dcrInput {S : Network → Prop} {E : Env} {a b v : Val} (ha : GoodOn S E a) (h : Dyn.makeDecredInput E a b = .ok v) : GoodOn S E v := by
  simp only [Dyn.makeDecredInput, bind_ok_iff] at h
  obtain ⟨i, hi, h⟩ := h
  exact .dcrTxIn _ _ _ ha (toLe_good hi) h

theorem good_legacyInput {S : Network → Prop} {E : Env} {a b c d v : Val} (ha : GoodOn S E a) (hb : GoodOn S E b) (hc : GoodOn S E c) (h : Dyn.makeLegacyInput E a b c d = .ok v) : GoodOn S E v := by
  unfold Dyn.makeLegacyInput at h
  split at h
  · exact good_dcrInput ha h
  · rw [bind_ok_iff] at h
    obtain ⟨i, hi, h⟩ := h
    exact .txIn _ _ _ _ _ ha hb hc (toLe_good hi) h

theorem good_tx {S : Network → Prop} {E : Env} {a b c d v : Val} {k : TxKw} (ha : GoodOn S E a) (hb : GoodOn S E b) (hc : GoodOn S E c) (hk : KwAll (GoodOn S E) k) (h : Dyn.makeTx E a b c d k = .ok v) :
    GoodOn S E v := by
  obtain ⟨k1, k2, k3, k4, k5, k6, k7, k8, k9⟩ := hk
  unfold Dyn.makeTx at h
  split at h
  · simp only [bind_ok_iff] at h
    obtain ⟨x, hx, y, hy, z, hz, h⟩ := h
    exact .dcrTx _ _ _ _ _ _ _ (toLe_good hx) hb hc (toLe_good hy) (toLe_good hz) (.list _ (by simpa using k5)) h
  · split at h
    · simp only [bind_ok_iff] at h
      obtain ⟨y, hy, h⟩ := h
      exact .sproutTx _ _ _ _ _ _ _ _ ha hb hc (toLe_good hy) k6 k7 k8 h
    · split at h
      · simp only [bind_ok_iff] at h
        obtain ⟨y, hy, z, hz, h⟩ := h
        refine .overwinterTx _ _ _ _ _ _ _ _ hb hc (toLe_good hy) (toLe_good hz) ?_ k7 k8 h
        split
        · exact k6
        · exact .list _ (by simp)
      · split at h
        · simp only [bind_ok_iff] at h
          obtain ⟨y, hy, z, hz, x, hx, h⟩ := h
          exact .saplingTx _ _ _ _ _ _ _ _ _ _ _ _ hb hc (toLe_good hy) (toLe_good hz) (toLe_good hx) k3 k4 k6 k7 k8 k9 h
        · simp only [bind_ok_iff] at h
          obtain ⟨x, hx, y, hy, h⟩ := h
          refine .tx _ _ _ _ _ _ _ (toLe_good hx) ?_ hb hc k5 (toLe_good hy) h
          split
          · exact .bytes _
          · exact .none

theorem good_builder {S : Network → Prop} (E : Env) (a b c d : Val) (ha : GoodOn S E a) (hb : GoodOn S E b) (hc : GoodOn S E c) (k : TxKw) (hk : KwAll (GoodOn S E) k) (v : Val) :
    (Dyn.makeOutput E a b c = .ok v → GoodOn S E v) ∧ (Dyn.makeShOutput E a b c = .ok v → GoodOn S E v) ∧ (Dyn.makePkhOutput E a b c = .ok v → GoodOn S E v) ∧
    (Dyn.makeOpReturnOutput E a = .ok v → GoodOn S E v) ∧ (Dyn.makeWitness a = .ok v → GoodOn S E v) ∧ (Dyn.makeOutpoint E a b c = .ok v → GoodOn S E v) ∧
    (Dyn.makeDecredInput E a b = .ok v → GoodOn S E v) ∧ (Dyn.makeLegacyInput E a b c d = .ok v → GoodOn S E v) ∧ (Dyn.makeWitnessInput E a b = .ok v → GoodOn S E v) ∧
    (Dyn.makeTx E a b c d k = .ok v → GoodOn S E v) := by
  refine ⟨good_output ha hb hc, ?_, ?_, ?_, good_witness ha, good_outpoint ha, good_dcrInput ha, good_legacyInput ha hb hc, ?_, good_tx ha hb hc hk⟩
  · intro h
    simp only [Dyn.makeShOutput, Dyn.makeShOutputScript, bind_ok_iff, Except.ok.injEq] at h
    obtain ⟨x, hx, s, ⟨-, -, t, -, rfl⟩, h⟩ := h
    exact good_output (toLe_good hx) (.bytes _) .none h
  · intro h
    simp only [Dyn.makePkhOutput, Dyn.makePkhOutputScript, bind_ok_iff] at h
    obtain ⟨x, hx, s, ⟨_, -, t, -, hs⟩, h⟩ := h
    refine good_output (toLe_good hx) ?_ .none h
    split at hs <;> cases hs <;> exact .bytes _
  · intro h
    simp only [Dyn.makeOpReturnOutput, bind_ok_iff] at h
    obtain ⟨n, -, _, -, xs, -, s, -, z, hz, h⟩ := h
    exact good_output (toLe_good hz) (.bytearray _) .none h
  · intro h
    exact good_legacyInput ha (.bytes _) (.bytes _) h

theorem good_empties {S : Network → Prop} {E : Env} {l ws : List Val} (h : mapPy (fun _ => Dyn.makeWitness (.list [])) l = .ok ws) : ∀ x ∈ ws, GoodOn S E x := by
  induction l generalizing ws with
  | nil => cases h; simp
  | cons a l ih =>
    simp only [mapPy, bind_ok_iff, Except.ok.injEq] at h
    obtain ⟨b, hb, t, ht, rfl⟩ := h
    intro x hx
    rcases List.mem_cons.1 hx with rfl | hx
    · exact good_witness (.list _ (by simp)) hb
    · exact ih ht x hx

theorem good_simple {S : Network → Prop} (E : Env) (a b c d : Val) (ha : GoodOn S E a) (hb : GoodOn S E b) (hc : GoodOn S E c) (k : LegacyKw) (hk : LegacyAll (GoodOn S E) k) (v : Val) :
    (Dyn.simpleOutput E a b = .ok v → GoodOn S E v) ∧ (Dyn.simpleOutpoint E a b c = .ok v → GoodOn S E v) ∧ (Dyn.simpleInput E a b = .ok v → GoodOn S E v) ∧
    (Dyn.simpleLegacyTx E a b k = .ok v → GoodOn S E v) ∧ (Dyn.simpleWitnessTx E a b c d = .ok v → GoodOn S E v) := by
  obtain ⟨k1, k2, k3, k4, k5, k6⟩ := hk
  refine ⟨?_, ?_, good_legacyInput ha (.bytes _) (.bytes _), good_tx k1 ha hb ⟨k3, .int _, .none, .none, .none, k4, k5, k6, .none⟩, ?_⟩
  · intro h
    simp only [Dyn.simpleOutput, bind_ok_iff] at h
    obtain ⟨t, ht, x, hx, h⟩ := h
    refine good_output (toLe_good hx) ?_ .none h
    rcases toOutputScript_raw ht with ⟨y, rfl⟩ | ⟨y, rfl⟩
    · exact .bytes _
    · exact .bytearray _
  · intro h
    simp only [Dyn.simpleOutpoint, bind_ok_iff] at h
    obtain ⟨t, -, h⟩ := h
    exact good_outpoint (.bytes _) h
  · intro h
    simp only [Dyn.simpleWitnessTx, bind_ok_iff] at h
    obtain ⟨xs, -, ws, hws, h⟩ := h
    exact good_tx hc ha hb ⟨.none, .int _, .none, .none, .list _ (good_empties hws), .none, .none, .none, .none⟩ h

theorem good_slice {S : Network → Prop} {E : Env} {v w : Val} {i j : Nat} (hv : GoodOn S E v) (h : v.slice i j = .ok w) : GoodOn S E w := by
  cases v with
  | none => cases h
  | int n => cases h
  | str s => cases h; exact .str _
  | bytes b => cases h; exact .bytes _
  | bytearray b => cases h; exact .bytearray _
  | obj c t b => cases h; exact .bytes _
  | list l => cases h; exact .list _ fun x hx => good_seq hv (.inl rfl) x (List.mem_of_mem_drop (List.mem_of_mem_take hx))
  | tuple l => cases h; exact .tuple _ fun x hx => good_seq hv (.inr rfl) x (List.mem_of_mem_drop (List.mem_of_mem_take hx))

theorem good_rest {S : Network → Prop} {E : Env} {v w : Val} {i : Nat} (hv : GoodOn S E v) (h : v.from_ i = .ok w) : GoodOn S E w := by
  cases v with
  | none => cases h
  | int n => cases h
  | str s => cases h; exact .str _
  | bytes b => cases h; exact .bytes _
  | bytearray b => cases h; exact .bytearray _
  | obj c t b => cases h; exact .bytes _
  | list l => cases h; exact .list _ fun x hx => good_seq hv (.inl rfl) x (List.mem_of_mem_drop hx)
  | tuple l => cases h; exact .tuple _ fun x hx => good_seq hv (.inr rfl) x (List.mem_of_mem_drop hx)

theorem good_many {S : Network → Prop} {E : Env} {f : Val → Py Val} (hf : ∀ v w, GoodOn S E v → f v = .ok w → GoodOn S E w) {v : Val} (hv : GoodOn S E v) (n : Nat) :
    ∀ {current : Nat} {xs : List Val} {fin : Nat}, readMany f v n current = .ok (xs, fin) → ∀ x ∈ xs, GoodOn S E x := by
  induction n with
  | zero => intro current xs fin h; cases h; simp
  | succ n ih =>
    intro current xs fin h
    simp only [readMany, bind_ok_iff] at h
    obtain ⟨r, hr, x, hx, l, -, ⟨ys, fin'⟩, hy, h⟩ := h
    cases h
    intro y hy'
    rcases List.mem_cons.1 hy' with rfl | hy'
    · exact hf _ _ (good_rest hv hr) hx
    · exact ih hy y hy'

theorem good_readOutpoint {S : Network → Prop} {E : Env} {v w : Val} (hv : GoodOn S E v) (h : readOutpoint v = .ok w) : GoodOn S E w := by
  simp only [readOutpoint, bind_ok_iff] at h
  obtain ⟨a, ha, b, hb, h⟩ := h
  exact .outpoint _ _ _ (good_slice hv ha) (good_slice hv hb) h

theorem good_scriptSig {S : Network → Prop} {E : Env} {net : Network} {v a b : Val} (hv : GoodOn S E v) (h : readScriptSig net v = .ok (a, b)) : GoodOn S E a ∧ GoodOn S E b := by
  unfold readScriptSig at h
  split at h
  · cases h
  · dsimp only at h
    split at h
    · split at h
      · cases h; exact ⟨hv, .bytes _⟩
      · cases h
    · split at h
      · cases h; exact ⟨.bytes _, .bytes _⟩
      · split at h
        · cases h; exact ⟨.bytes _, .bytes _⟩
        · cases h

theorem good_readTxIn {S : Network → Prop} {E : Env} {net : Network} {v w : Val} (hv : GoodOn S E v) (h : readTxIn net v = .ok w) : GoodOn S E w := by
  simp only [readTxIn, bind_ok_iff] at h
  obtain ⟨a, ha, o, ho, b, -, n, -, s, hs, q, hq, h⟩ := h
  have mo := good_readOutpoint (good_slice hv ha) ho
  have ms := good_slice hv hs
  have mq := good_slice hv hq
  split at h
  · exact .txIn _ _ _ _ _ mo (.bytes _) (.bytes _) mq h
  · simp only [bind_ok_iff] at h
    obtain ⟨z, -, h⟩ := h
    split at h
    · exact .txIn _ _ _ _ _ mo ms (.bytes _) mq h
    · simp only [bind_ok_iff] at h
      obtain ⟨⟨x, y⟩, hxy, h⟩ := h
      obtain ⟨mx, my⟩ := good_scriptSig ms hxy
      exact .txIn _ _ _ _ _ mo mx my mq h

theorem good_readTxOut {S : Network → Prop} {E : Env} {net : Network} {v w : Val} (hv : GoodOn S E v) (h : readTxOut net v = .ok w) : GoodOn S E w := by
  simp only [readTxOut, bind_ok_iff] at h
  obtain ⟨r, -, n, -, h⟩ := h
  split at h
  · simp only [bind_ok_iff] at h
    obtain ⟨a, ha, b, hb, h⟩ := h
    exact .txOut _ _ _ (good_slice hv ha) (good_slice hv hb) h
  · cases h

theorem good_readItem {S : Network → Prop} {E : Env} {net : Network} {v w : Val} (hv : GoodOn S E v) (h : readItem net v = .ok w) : GoodOn S E w := by
  simp only [readItem, bind_ok_iff] at h
  obtain ⟨n, -, a, ha, h⟩ := h
  exact .item _ _ (good_slice hv ha) h

theorem good_readWitness {S : Network → Prop} {E : Env} {net : Network} {v w : Val} (hv : GoodOn S E v) (h : readWitness net v = .ok w) : GoodOn S E w := by
  simp only [readWitness, bind_ok_iff] at h
  obtain ⟨n, -, ⟨xs, fin⟩, hx, h⟩ := h
  exact .witness _ _ (.list _ (good_many (fun _ _ => good_readItem) hv _ hx)) h

theorem good_readTx {S : Network → Prop} {E : Env} {v w : Val} (hv : GoodOn S E v) (h : readTx E v = .ok w) : GoodOn S E w := by
  simp only [readTx, bind_ok_iff] at h
  obtain ⟨version, hver, mark, -, r, -, ni, -, ⟨ins, c1⟩, hi, r', -, no, -, ⟨outs, c2⟩, ho, h⟩ := h
  have mi := good_many (fun _ _ => good_readTxIn) hv _ hi
  have mo := good_many (fun _ _ => good_readTxOut) hv _ ho
  have flag : ∀ {p : Prop} [Decidable p] {b : Bytes}, GoodOn S E (if p then Val.bytes b else Val.none) := by
    intro p _ b; split
    · exact .bytes _
    · exact .none
  split at h
  · simp only [bind_ok_iff] at h
    obtain ⟨r, -, l, -, h⟩ := h
    split at h
    · simp only [bind_ok_iff] at h
      obtain ⟨⟨wits, c3⟩, hw, lock, hl, h⟩ := h
      exact .tx _ _ _ _ _ _ _ (good_slice hv hver) flag (.list _ mi) (.list _ mo) (.list _ (good_many (fun _ _ => good_readWitness) hv _ hw)) (good_slice hv hl) h
    · simp only [ok_bind, bind_ok_iff] at h
      obtain ⟨lock, hl, h⟩ := h
      exact .tx _ _ _ _ _ _ _ (good_slice hv hver) flag (.list _ mi) (.list _ mo) (.list _ (by simp)) (good_slice hv hl) h
  · simp only [ok_bind, bind_ok_iff] at h
    obtain ⟨lock, hl, h⟩ := h
    exact .tx _ _ _ _ _ _ _ (good_slice hv hver) flag (.list _ mi) (.list _ mo) (.list _ (by simp)) (good_slice hv hl) h

theorem good_readSproutProof {S : Network → Prop} {E : Env} {v w : Val} (hv : GoodOn S E v) (h : readSproutProof E.net v = .ok w) : GoodOn S E w := by
  simp only [readSproutProof, bind_ok_iff] at h
  obtain ⟨a, ha, b, hb, c, hc, d, hd, e, he, f, hf, g, hg, i, hi, h⟩ := h
  exact .sproutProof _ _ _ _ _ _ _ _ _ (good_slice hv ha) (good_slice hv hb) (good_slice hv hc) (good_slice hv hd) (good_slice hv he) (good_slice hv hf)
    (good_slice hv hg) (good_slice hv hi) h

theorem good_readSproutJs {S : Network → Prop} {E : Env} {v w : Val} (hv : GoodOn S E v) (h : readSproutJs E.net v = .ok w) : GoodOn S E w := by
  simp only [readSproutJs, bind_ok_iff] at h
  obtain ⟨a, ha, b, hb, c, hc, d, hd, e, he, f, hf, g, hg, i, hi, p, hp, z, hz, n, hn, h⟩ := h
  exact .sproutJs _ _ _ _ _ _ _ _ _ _ _ (good_slice hv ha) (good_slice hv hb) (good_slice hv hc) (good_slice hv hd) (good_slice hv he) (good_slice hv hf)
    (good_slice hv hg) (good_slice hv hi) (good_readSproutProof (good_slice hv hp) hz) (good_slice hv hn) h

theorem good_readSaplingProof {S : Network → Prop} {E : Env} {v w : Val} (hv : GoodOn S E v) (h : readSaplingProof E.net v = .ok w) : GoodOn S E w := by
  simp only [readSaplingProof, bind_ok_iff] at h
  obtain ⟨a, ha, b, hb, c, hc, h⟩ := h
  exact .saplingProof _ _ _ _ (good_slice hv ha) (good_slice hv hb) (good_slice hv hc) h

theorem good_readSpend {S : Network → Prop} {E : Env} {v w : Val} (hv : GoodOn S E v) (h : readSpend E.net v = .ok w) : GoodOn S E w := by
  simp only [readSpend, bind_ok_iff] at h
  obtain ⟨a, ha, b, hb, c, hc, d, hd, p, hp, z, hz, s, hs, h⟩ := h
  exact .saplingSpend _ _ _ _ _ _ _ (good_slice hv ha) (good_slice hv hb) (good_slice hv hc) (good_slice hv hd) (good_readSaplingProof (good_slice hv hp) hz)
    (good_slice hv hs) h

theorem good_readOutput {S : Network → Prop} {E : Env} {v w : Val} (hv : GoodOn S E v) (h : readOutput E.net v = .ok w) : GoodOn S E w := by
  simp only [readOutput, bind_ok_iff] at h
  obtain ⟨a, ha, b, hb, c, hc, d, hd, e, he, p, hp, z, hz, h⟩ := h
  exact .saplingOutput _ _ _ _ _ _ _ (good_slice hv ha) (good_slice hv hb) (good_slice hv hc) (good_slice hv hd) (good_slice hv he)
    (good_readSaplingProof (good_slice hv hp) hz) h

theorem good_readSaplingJs {S : Network → Prop} {E : Env} {v w : Val} (hv : GoodOn S E v) (h : readSaplingJs E.net v = .ok w) : GoodOn S E w := by
  simp only [readSaplingJs, bind_ok_iff] at h
  obtain ⟨a, ha, b, hb, c, hc, d, hd, e, he, f, hf, g, hg, i, hi, p, hp, z, hz, n, hn, h⟩ := h
  exact .saplingJs _ _ _ _ _ _ _ _ _ _ _ (good_slice hv ha) (good_slice hv hb) (good_slice hv hc) (good_slice hv hd) (good_slice hv he) (good_slice hv hf)
    (good_slice hv hg) (good_slice hv hi) (good_readSaplingProof (good_slice hv hp) hz) (good_slice hv hn) h

theorem good_insOuts {S : Network → Prop} {E : Env} {net : Network} {v : Val} {start : Nat} {p : ReadInsOuts} (hv : GoodOn S E v) (h : readInsOuts net v start = .ok p) :
    GoodOn S E (.list p.txIns) ∧ GoodOn S E (.list p.txOuts) := by
  simp only [readInsOuts, bind_ok_iff] at h
  obtain ⟨r, -, ni, -, ⟨ins, c1⟩, hi, r', -, no, -, ⟨outs, c2⟩, ho, h⟩ := h
  cases h
  exact ⟨.list _ (good_many (fun _ _ => good_readTxIn) hv _ hi), .list _ (good_many (fun _ _ => good_readTxOut) hv _ ho)⟩

theorem good_readSproutTx {S : Network → Prop} {E : Env} {v w : Val} (hv : GoodOn S E v) (h : readSproutTx E v = .ok w) : GoodOn S E w := by
  simp only [readSproutTx, bind_ok_iff] at h
  obtain ⟨version, hver, p, hp, lock, hl, ⟨js, pk, sig⟩, hr, h⟩ := h
  obtain ⟨mi, mo⟩ := good_insOuts hv hp
  have hm : GoodOn S E js ∧ GoodOn S E pk ∧ GoodOn S E sig := by
    simp only [readSproutRest, bind_ok_iff] at hr
    obtain ⟨ver, -, hr⟩ := hr
    split at hr
    · simp only [bind_ok_iff] at hr
      obtain ⟨r, -, n, -, ⟨xs, c⟩, hx, k, hk, s, hs, hr⟩ := hr
      cases hr
      exact ⟨.list _ (good_many (fun _ _ => good_readSproutJs) hv _ hx), good_slice hv hk, good_slice hv hs⟩
    · cases hr; exact ⟨.none, .none, .none⟩
  exact .sproutTx _ _ _ _ _ _ _ _ (good_slice hv hver) mi mo (good_slice hv hl) hm.1 hm.2.1 hm.2.2 h

theorem good_readOverwinterTx {S : Network → Prop} {E : Env} {v w : Val} (hv : GoodOn S E v) (h : readOverwinterTx E v = .ok w) : GoodOn S E w := by
  simp only [readOverwinterTx, bind_ok_iff] at h
  obtain ⟨-, -, p, hp, lock, hl, exp, he, ⟨js, pk, sig⟩, hr, h⟩ := h
  obtain ⟨mi, mo⟩ := good_insOuts hv hp
  have hm : GoodOn S E js ∧ GoodOn S E pk ∧ GoodOn S E sig := by
    simp only [readOverwinterRest, bind_ok_iff] at hr
    obtain ⟨l, -, hr⟩ := hr
    split at hr
    · cases hr; exact ⟨.tuple _ (by simp), .none, .none⟩
    · simp only [bind_ok_iff] at hr
      obtain ⟨r, -, n, -, ⟨xs, c⟩, hx, k, hk, s, hs, hr⟩ := hr
      cases hr
      exact ⟨.list _ (good_many (fun _ _ => good_readSproutJs) hv _ hx), good_slice hv hk, good_slice hv hs⟩
  exact .overwinterTx _ _ _ _ _ _ _ _ mi mo (good_slice hv hl) (good_slice hv he) hm.1 hm.2.1 hm.2.2 h

theorem good_sliceIf {S : Network → Prop} {E : Env} {α : Type} {p : Prop} [Decidable p] {v : Val} {i j : Nat} {f : Val → Py α} {r : α} (hv : GoodOn S E v)
    (h : (if p then v.slice i j >>= f else Except.ok Val.none >>= f) = .ok r) : ∃ x, GoodOn S E x ∧ f x = .ok r := by
  split at h
  · obtain ⟨x, hx, h⟩ := bind_ok_iff.1 h
    exact ⟨x, good_slice hv hx, h⟩
  · exact ⟨.none, .none, h⟩

theorem good_readSaplingTx {S : Network → Prop} {E : Env} {v w : Val} (hv : GoodOn S E v) (h : readSaplingTx E v = .ok w) : GoodOn S E w := by
  simp only [readSaplingTx, bind_ok_iff] at h
  obtain ⟨-, -, p, hp, lock, hl, exp, he, bal, hb, r, hr, h⟩ := h
  obtain ⟨mi, mo⟩ := good_insOuts hv hp
  simp only [readSaplingRest, bind_ok_iff] at hr
  obtain ⟨-, -, ns, -, ⟨spends, c1⟩, h1, -, -, no, -, ⟨outputs, c2⟩, h2, -, -, nj, -, ⟨js, c3⟩, h3, hr⟩ := hr
  obtain ⟨pk, h4, hr⟩ := good_sliceIf hv hr
  obtain ⟨sig, h5, hr⟩ := good_sliceIf hv hr
  obtain ⟨bnd, h6, hr⟩ := good_sliceIf hv hr
  cases hr
  exact .saplingTx _ _ _ _ _ _ _ _ _ _ _ _ mi mo (good_slice hv hl) (good_slice hv he) (good_slice hv hb) (.list _ (good_many (fun _ _ => good_readSpend) hv _ h1))
    (.list _ (good_many (fun _ _ => good_readOutput) hv _ h2)) (.list _ (good_many (fun _ _ => good_readSaplingJs) hv _ h3)) h4 h5 h6 h

theorem good_readDcrOutpoint {S : Network → Prop} {E : Env} {v w : Val} (hv : GoodOn S E v) (h : readDcrOutpoint E.net v = .ok w) : GoodOn S E w := by
  simp only [readDcrOutpoint, bind_ok_iff] at h
  obtain ⟨a, ha, b, hb, c, hc, h⟩ := h
  exact .dcrOutpoint _ _ _ _ (good_slice hv ha) (good_slice hv hb) (good_slice hv hc) h

theorem good_readDcrTxIn {S : Network → Prop} {E : Env} {v w : Val} (hv : GoodOn S E v) (h : readDcrTxIn E.net v = .ok w) : GoodOn S E w := by
  simp only [readDcrTxIn, bind_ok_iff] at h
  obtain ⟨a, ha, o, ho, b, hb, h⟩ := h
  exact .dcrTxIn _ _ _ (good_readDcrOutpoint (good_slice hv ha) ho) (good_slice hv hb) h

theorem good_readDcrTxOut {S : Network → Prop} {E : Env} {v w : Val} (hv : GoodOn S E v) (h : readDcrTxOut E.net v = .ok w) : GoodOn S E w := by
  simp only [readDcrTxOut, bind_ok_iff] at h
  obtain ⟨r, -, n, -, h⟩ := h
  split at h
  · simp only [bind_ok_iff] at h
    obtain ⟨a, ha, b, hb, c, hc, h⟩ := h
    exact .dcrTxOut _ _ _ _ (good_slice hv ha) (good_slice hv hb) (good_slice hv hc) h
  · cases h

theorem good_init {S : Network → Prop} {E : Env} {c : Cls} {args : List Val} (ha : ∀ a ∈ args, GoodOn S E a) {v : Val} (h : initOf E c args = .ok v) : GoodOn S E v := by
  unfold initOf at h
  split at h
  · exact .outpoint _ _ _ (ha _ (by simp)) (ha _ (by simp)) h
  · exact .txIn _ _ _ _ _ (ha _ (by simp)) (ha _ (by simp)) (ha _ (by simp)) (ha _ (by simp)) h
  · exact .txOut _ _ _ (ha _ (by simp)) (ha _ (by simp)) h
  · exact .item _ _ (ha _ (by simp)) h
  · exact .witness _ _ (ha _ (by simp)) h
  · exact .tx _ _ _ _ _ _ _ (ha _ (by simp)) (ha _ (by simp)) (ha _ (by simp)) (ha _ (by simp)) (ha _ (by simp)) (ha _ (by simp)) h
  · exact .sproutProof _ _ _ _ _ _ _ _ _ (ha _ (by simp)) (ha _ (by simp)) (ha _ (by simp)) (ha _ (by simp)) (ha _ (by simp)) (ha _ (by simp)) (ha _ (by simp)) (ha _ (by simp)) h
  · exact .saplingProof _ _ _ _ (ha _ (by simp)) (ha _ (by simp)) (ha _ (by simp)) h
  · exact .sproutJs _ _ _ _ _ _ _ _ _ _ _ (ha _ (by simp)) (ha _ (by simp)) (ha _ (by simp)) (ha _ (by simp)) (ha _ (by simp)) (ha _ (by simp)) (ha _ (by simp)) (ha _ (by simp)) (ha _ (by simp)) (ha _ (by simp)) h
  · exact .saplingJs _ _ _ _ _ _ _ _ _ _ _ (ha _ (by simp)) (ha _ (by simp)) (ha _ (by simp)) (ha _ (by simp)) (ha _ (by simp)) (ha _ (by simp)) (ha _ (by simp)) (ha _ (by simp)) (ha _ (by simp)) (ha _ (by simp)) h
  · exact .saplingSpend _ _ _ _ _ _ _ (ha _ (by simp)) (ha _ (by simp)) (ha _ (by simp)) (ha _ (by simp)) (ha _ (by simp)) (ha _ (by simp)) h
  · exact .saplingOutput _ _ _ _ _ _ _ (ha _ (by simp)) (ha _ (by simp)) (ha _ (by simp)) (ha _ (by simp)) (ha _ (by simp)) (ha _ (by simp)) h
  · exact .sproutTx _ _ _ _ _ _ _ _ (ha _ (by simp)) (ha _ (by simp)) (ha _ (by simp)) (ha _ (by simp)) (ha _ (by simp)) (ha _ (by simp)) (ha _ (by simp)) h
  · exact .overwinterTx _ _ _ _ _ _ _ _ (ha _ (by simp)) (ha _ (by simp)) (ha _ (by simp)) (ha _ (by simp)) (ha _ (by simp)) (ha _ (by simp)) (ha _ (by simp)) h
  · exact .saplingTx _ _ _ _ _ _ _ _ _ _ _ _ (ha _ (by simp)) (ha _ (by simp)) (ha _ (by simp)) (ha _ (by simp)) (ha _ (by simp)) (ha _ (by simp)) (ha _ (by simp)) (ha _ (by simp)) (ha _ (by simp)) (ha _ (by simp)) (ha _ (by simp)) h
  · exact .dcrOutpoint _ _ _ _ (ha _ (by simp)) (ha _ (by simp)) (ha _ (by simp)) h
  · exact .dcrTxIn _ _ _ (ha _ (by simp)) (ha _ (by simp)) h
  · exact .dcrTxOut _ _ _ _ (ha _ (by simp)) (ha _ (by simp)) (ha _ (by simp)) h
  · exact .dcrWitness _ _ _ _ _ _ (ha _ (by simp)) (ha _ (by simp)) (ha _ (by simp)) (ha _ (by simp)) (ha _ (by simp)) h
  · exact .dcrTx _ _ _ _ _ _ _ (ha _ (by simp)) (ha _ (by simp)) (ha _ (by simp)) (ha _ (by simp)) (ha _ (by simp)) (ha _ (by simp)) h
  · cases h

theorem good_read {S : Network → Prop} {E : Env} {c : Cls} {a v : Val} (ha : GoodOn S E a) (h : readOf E c a = .ok v) : GoodOn S E v := by
  cases c with
  | outpoint => exact good_readOutpoint ha h
  | txIn => exact good_readTxIn ha h
  | txOut => exact good_readTxOut ha h
  | item => exact good_readItem ha h
  | witness => exact good_readWitness ha h
  | tx => exact good_readTx ha h
  | sproutProof => exact good_readSproutProof ha h
  | saplingProof => exact good_readSaplingProof ha h
  | sproutJs => exact good_readSproutJs ha h
  | saplingJs => exact good_readSaplingJs ha h
  | saplingSpend => exact good_readSpend ha h
  | saplingOutput => exact good_readOutput ha h
  | sproutTx => exact good_readSproutTx ha h
  | overwinterTx => exact good_readOverwinterTx ha h
  | saplingTx => exact good_readSaplingTx ha h
  | dcrOutpoint => exact good_readDcrOutpoint ha h
  | dcrTxIn => exact good_readDcrTxIn ha h
  | dcrTxOut => exact good_readDcrTxOut ha h
  | dcrWitness => cases h
  | dcrTx => cases h
  | other =>
    obtain ⟨b, -, h⟩ := (bind_ok_iff ..).1 h
    cases h
    exact .other b

theorem good_keep {a b : Val} (ha : GoodOn S E a) (hb : GoodOn S E b) : GoodOn S E (Dyn.keep a b) := by
  unfold Dyn.keep
  split
  · exact hb
  · exact ha

theorem good_copyOutpoint {self v x0 x1 : Val} (hs : GoodOn S E self) (h0 : GoodOn S E x0) (h1 : GoodOn S E x1)
    (h : Dyn.copyOutpoint self x0 x1 = .ok v) : GoodOn S E v := by
  unfold Dyn.copyOutpoint at h
  split at h
  · have t := good_attrs hs
    exact .outpoint _ _ _ (good_keep h0 (t _ (by simp))) (good_keep h1 (t _ (by simp))) h
  · cases h

theorem good_copyTxIn {self v x0 x1 x2 x3 : Val} (hs : GoodOn S E self) (h0 : GoodOn S E x0) (h1 : GoodOn S E x1) (h2 : GoodOn S E x2) (h3 : GoodOn S E x3)
    (h : Dyn.copyTxIn self x0 x1 x2 x3 = .ok v) : GoodOn S E v := by
  unfold Dyn.copyTxIn at h
  split at h
  · have t := good_attrs hs
    exact .txIn _ _ _ _ _ (good_keep h0 (t _ (by simp))) (good_keep h1 (t _ (by simp))) (good_keep h2 (t _ (by simp))) (good_keep h3 (t _ (by simp))) h
  · cases h

theorem good_copyTxOut {self v x0 x1 : Val} (hs : GoodOn S E self) (h0 : GoodOn S E x0) (h1 : GoodOn S E x1)
    (h : Dyn.copyTxOut self x0 x1 = .ok v) : GoodOn S E v := by
  unfold Dyn.copyTxOut at h
  split at h
  · have t := good_attrs hs
    exact .txOut _ _ _ (good_keep h0 (t _ (by simp))) (good_keep h1 (t _ (by simp))) h
  · cases h

theorem good_copyWitness {self v x0 : Val} (hs : GoodOn S E self) (h0 : GoodOn S E x0)
    (h : Dyn.copyWitness self x0 = .ok v) : GoodOn S E v := by
  unfold Dyn.copyWitness at h
  split at h
  · have t := good_attrs hs
    exact .witness _ _ (good_keep h0 (t _ (by simp))) h
  · cases h

theorem good_copyTx {self v x0 x1 x2 x3 x4 x5 : Val} (hs : GoodOn S E self) (h0 : GoodOn S E x0) (h1 : GoodOn S E x1) (h2 : GoodOn S E x2) (h3 : GoodOn S E x3) (h4 : GoodOn S E x4) (h5 : GoodOn S E x5)
    (h : Dyn.copyTx E self x0 x1 x2 x3 x4 x5 = .ok v) : GoodOn S E v := by
  unfold Dyn.copyTx at h
  split at h
  · have t := good_attrs hs
    exact .tx _ _ _ _ _ _ _ (good_keep h0 (t _ (by simp))) (good_keep h1 (t _ (by simp))) (good_keep h2 (t _ (by simp))) (good_keep h3 (t _ (by simp))) (good_keep h4 (t _ (by simp))) (good_keep h5 (t _ (by simp))) h
  · cases h

theorem good_copyDcrOutpoint {self v x0 x1 x2 : Val} (hs : GoodOn S E self) (h0 : GoodOn S E x0) (h1 : GoodOn S E x1) (h2 : GoodOn S E x2)
    (h : Dyn.copyDcrOutpoint E.net self x0 x1 x2 = .ok v) : GoodOn S E v := by
  unfold Dyn.copyDcrOutpoint at h
  split at h
  · have t := good_attrs hs
    exact .dcrOutpoint _ _ _ _ (good_keep h0 (t _ (by simp))) (good_keep h1 (t _ (by simp))) (good_keep h2 (t _ (by simp))) h
  · cases h

theorem good_copyDcrTxIn {self v x0 x1 : Val} (hs : GoodOn S E self) (h0 : GoodOn S E x0) (h1 : GoodOn S E x1)
    (h : Dyn.copyDcrTxIn E.net self x0 x1 = .ok v) : GoodOn S E v := by
  unfold Dyn.copyDcrTxIn at h
  split at h
  · have t := good_attrs hs
    exact .dcrTxIn _ _ _ (good_keep h0 (t _ (by simp))) (good_keep h1 (t _ (by simp))) h
  · cases h

theorem good_copyDcrTxOut {self v x0 x1 x2 : Val} (hs : GoodOn S E self) (h0 : GoodOn S E x0) (h1 : GoodOn S E x1) (h2 : GoodOn S E x2)
    (h : Dyn.copyDcrTxOut E.net self x0 x1 x2 = .ok v) : GoodOn S E v := by
  unfold Dyn.copyDcrTxOut at h
  split at h
  · have t := good_attrs hs
    exact .dcrTxOut _ _ _ _ (good_keep h0 (t _ (by simp))) (good_keep h1 (t _ (by simp))) (good_keep h2 (t _ (by simp))) h
  · cases h

theorem good_copyDcrWitness {self v x0 x1 x2 x3 x4 : Val} (hs : GoodOn S E self) (h0 : GoodOn S E x0) (h1 : GoodOn S E x1) (h2 : GoodOn S E x2) (h3 : GoodOn S E x3) (h4 : GoodOn S E x4)
    (h : Dyn.copyDcrWitness E.net self x0 x1 x2 x3 x4 = .ok v) : GoodOn S E v := by
  unfold Dyn.copyDcrWitness at h
  split at h
  · have t := good_attrs hs
    exact .dcrWitness _ _ _ _ _ _ (good_keep h0 (t _ (by simp))) (good_keep h1 (t _ (by simp))) (good_keep h2 (t _ (by simp))) (good_keep h3 (t _ (by simp))) (good_keep h4 (t _ (by simp))) h
  · cases h

theorem good_copyDcrTx {self v x0 x1 x2 x3 x4 x5 : Val} (hs : GoodOn S E self) (h0 : GoodOn S E x0) (h1 : GoodOn S E x1) (h2 : GoodOn S E x2) (h3 : GoodOn S E x3) (h4 : GoodOn S E x4) (h5 : GoodOn S E x5)
    (h : Dyn.copyDcrTx E.net self x0 x1 x2 x3 x4 x5 = .ok v) : GoodOn S E v := by
  unfold Dyn.copyDcrTx at h
  split at h
  · have t := good_attrs hs
    exact .dcrTx _ _ _ _ _ _ _ (good_keep h0 (t _ (by simp))) (good_keep h1 (t _ (by simp))) (good_keep h2 (t _ (by simp))) (good_keep h3 (t _ (by simp))) (good_keep h4 (t _ (by simp))) (good_keep h5 (t _ (by simp))) h
  · cases h

theorem good_copySprout {self v x0 x1 x2 x3 x4 x5 x6 : Val} (hs : GoodOn S E self) (h0 : GoodOn S E x0) (h1 : GoodOn S E x1) (h2 : GoodOn S E x2) (h3 : GoodOn S E x3) (h4 : GoodOn S E x4) (h5 : GoodOn S E x5) (h6 : GoodOn S E x6)
    (h : Dyn.copySprout E self x0 x1 x2 x3 x4 x5 x6 = .ok v) : GoodOn S E v := by
  unfold Dyn.copySprout at h
  split at h
  · have t := good_attrs hs
    exact .sproutTx _ _ _ _ _ _ _ _ (good_keep h0 (t _ (by simp))) (good_keep h1 (t _ (by simp))) (good_keep h2 (t _ (by simp))) (good_keep h3 (t _ (by simp))) (good_keep h4 (t _ (by simp))) (good_keep h5 (t _ (by simp))) (good_keep h6 (t _ (by simp))) h
  · cases h

theorem good_copyOverwinter {self v x0 x1 x2 x3 x4 x5 x6 : Val} (hs : GoodOn S E self) (h0 : GoodOn S E x0) (h1 : GoodOn S E x1) (h2 : GoodOn S E x2) (h3 : GoodOn S E x3) (h4 : GoodOn S E x4) (h5 : GoodOn S E x5) (h6 : GoodOn S E x6)
    (h : Dyn.copyOverwinter E self x0 x1 x2 x3 x4 x5 x6 = .ok v) : GoodOn S E v := by
  unfold Dyn.copyOverwinter at h
  split at h
  · have t := good_attrs hs
    exact .overwinterTx _ _ _ _ _ _ _ _ (good_keep h0 (t _ (by simp))) (good_keep h1 (t _ (by simp))) (good_keep h2 (t _ (by simp))) (good_keep h3 (t _ (by simp))) (good_keep h4 (t _ (by simp))) (good_keep h5 (t _ (by simp))) (good_keep h6 (t _ (by simp))) h
  · cases h

theorem good_copySapling {self v x0 x1 x2 x3 x4 x5 x6 x7 x8 x9 x10 : Val} (hs : GoodOn S E self) (h0 : GoodOn S E x0) (h1 : GoodOn S E x1) (h2 : GoodOn S E x2) (h3 : GoodOn S E x3) (h4 : GoodOn S E x4) (h5 : GoodOn S E x5) (h6 : GoodOn S E x6) (h7 : GoodOn S E x7) (h8 : GoodOn S E x8) (h9 : GoodOn S E x9) (h10 : GoodOn S E x10)
    (h : Dyn.copySapling E self x0 x1 x2 x3 x4 x5 x6 x7 x8 x9 x10 = .ok v) : GoodOn S E v := by
  unfold Dyn.copySapling at h
  split at h
  · have t := good_attrs hs
    exact .saplingTx _ _ _ _ _ _ _ _ _ _ _ _ (good_keep h0 (t _ (by simp))) (good_keep h1 (t _ (by simp))) (good_keep h2 (t _ (by simp))) (good_keep h3 (t _ (by simp))) (good_keep h4 (t _ (by simp))) (good_keep h5 (t _ (by simp))) (good_keep h6 (t _ (by simp))) (good_keep h7 (t _ (by simp))) (good_keep h8 (t _ (by simp))) (good_keep h9 (t _ (by simp))) (good_keep h10 (t _ (by simp))) h
  · cases h

theorem good_copy {a : Val} {args : List Val} (hs : GoodOn S E a) (ha : ∀ a ∈ args, GoodOn S E a) {v : Val} (h : copyOf E a args = .ok v) :
    GoodOn S E v := by
  unfold copyOf at h
  split at h
  · split at h
    · exact good_copyOutpoint hs (ha _ (by simp)) (ha _ (by simp)) h
    · exact good_copyTxIn hs (ha _ (by simp)) (ha _ (by simp)) (ha _ (by simp)) (ha _ (by simp)) h
    · exact good_copyTxOut hs (ha _ (by simp)) (ha _ (by simp)) h
    · exact good_copyWitness hs (ha _ (by simp)) h
    · exact good_copyTx hs (ha _ (by simp)) (ha _ (by simp)) (ha _ (by simp)) (ha _ (by simp)) (ha _ (by simp)) (ha _ (by simp)) h
    · exact good_copySprout hs (ha _ (by simp)) (ha _ (by simp)) (ha _ (by simp)) (ha _ (by simp)) (ha _ (by simp)) (ha _ (by simp)) (ha _ (by simp)) h
    · exact good_copyOverwinter hs (ha _ (by simp)) (ha _ (by simp)) (ha _ (by simp)) (ha _ (by simp)) (ha _ (by simp)) (ha _ (by simp)) (ha _ (by simp)) h
    · exact good_copySapling hs (ha _ (by simp)) (ha _ (by simp)) (ha _ (by simp)) (ha _ (by simp)) (ha _ (by simp)) (ha _ (by simp)) (ha _ (by simp)) (ha _ (by simp)) (ha _ (by simp)) (ha _ (by simp)) (ha _ (by simp)) h
    · exact good_copyDcrOutpoint hs (ha _ (by simp)) (ha _ (by simp)) (ha _ (by simp)) h
    · exact good_copyDcrTxIn hs (ha _ (by simp)) (ha _ (by simp)) h
    · exact good_copyDcrTxOut hs (ha _ (by simp)) (ha _ (by simp)) (ha _ (by simp)) h
    · exact good_copyDcrWitness hs (ha _ (by simp)) (ha _ (by simp)) (ha _ (by simp)) (ha _ (by simp)) (ha _ (by simp)) h
    · exact good_copyDcrTx hs (ha _ (by simp)) (ha _ (by simp)) (ha _ (by simp)) (ha _ (by simp)) (ha _ (by simp)) (ha _ (by simp)) h
    · cases h
  · cases h

/-- Whatever a function of the library is called with, what it returns is good. -/
theorem good_call {S : Network → Prop} {E : Env} {f : Fn} {args : List Val} (ha : ∀ a ∈ args, GoodOn S E a) {v : Val} (h : call E f args = .ok v) : GoodOn S E v := by
  unfold call at h
  split at h
  · exact good_init ha h
  · exact good_read (ha _ (by simp)) h
  · unfold readHexOf at h
    split at h
    · obtain ⟨b, -, h⟩ := (bind_ok_iff ..).1 h
      exact good_read (.bytes b) h
    · cases h
  · exact good_copy (ha _ (by simp)) (fun a h => ha a (.tail _ h)) h
  · exact (good_builder E _ _ _ .none (ha _ (by simp)) (ha _ (by simp)) (ha _ (by simp)) {} ⟨.none, .int _, .none, .none, .none, .none, .none, .none, .none⟩ _).1 h
  · exact (good_builder E _ _ _ .none (ha _ (by simp)) (ha _ (by simp)) (ha _ (by simp)) {} ⟨.none, .int _, .none, .none, .none, .none, .none, .none, .none⟩ _).2.1 h
  · exact (good_builder E _ _ _ .none (ha _ (by simp)) (ha _ (by simp)) (ha _ (by simp)) {} ⟨.none, .int _, .none, .none, .none, .none, .none, .none, .none⟩ _).2.2.1 h
  · exact (good_builder E _ .none .none .none (ha _ (by simp)) .none .none {} ⟨.none, .int _, .none, .none, .none, .none, .none, .none, .none⟩ _).2.2.2.1 h
  · exact (good_builder E _ .none .none .none (ha _ (by simp)) .none .none {} ⟨.none, .int _, .none, .none, .none, .none, .none, .none, .none⟩ _).2.2.2.2.1 h
  · exact (good_builder E _ _ _ .none (ha _ (by simp)) (ha _ (by simp)) (ha _ (by simp)) {} ⟨.none, .int _, .none, .none, .none, .none, .none, .none, .none⟩ _).2.2.2.2.2.1 h
  · exact (good_builder E _ _ .none .none (ha _ (by simp)) (ha _ (by simp)) .none {} ⟨.none, .int _, .none, .none, .none, .none, .none, .none, .none⟩ _).2.2.2.2.2.2.1 h
  · exact (good_builder E _ _ _ _ (ha _ (by simp)) (ha _ (by simp)) (ha _ (by simp)) {} ⟨.none, .int _, .none, .none, .none, .none, .none, .none, .none⟩ _).2.2.2.2.2.2.2.1 h
  · exact (good_builder E _ _ .none .none (ha _ (by simp)) (ha _ (by simp)) .none {} ⟨.none, .int _, .none, .none, .none, .none, .none, .none, .none⟩ _).2.2.2.2.2.2.2.2.1 h
  · exact (good_builder E _ _ _ _ (ha _ (by simp)) (ha _ (by simp)) (ha _ (by simp)) _ ⟨(ha _ (by simp)), (ha _ (by simp)), (ha _ (by simp)), (ha _ (by simp)), (ha _ (by simp)), (ha _ (by simp)), (ha _ (by simp)), (ha _ (by simp)), (ha _ (by simp))⟩ _).2.2.2.2.2.2.2.2.2 h
  · exact (good_simple E _ _ .none .none (ha _ (by simp)) (ha _ (by simp)) .none {} ⟨.int _, .int _, .int _, .list _ all_nil, .list _ all_nil, .list _ all_nil⟩ _).1 h
  · exact (good_simple E _ _ _ .none (ha _ (by simp)) (ha _ (by simp)) (ha _ (by simp)) {} ⟨.int _, .int _, .int _, .list _ all_nil, .list _ all_nil, .list _ all_nil⟩ _).2.1 h
  · exact (good_simple E _ _ .none .none (ha _ (by simp)) (ha _ (by simp)) .none {} ⟨.int _, .int _, .int _, .list _ all_nil, .list _ all_nil, .list _ all_nil⟩ _).2.2.1 h
  · exact (good_simple E _ _ .none .none (ha _ (by simp)) (ha _ (by simp)) .none _ ⟨(ha _ (by simp)), (ha _ (by simp)), (ha _ (by simp)), (ha _ (by simp)), (ha _ (by simp)), (ha _ (by simp))⟩ _).2.2.2.1 h
  · exact (good_simple E _ _ _ _ (ha _ (by simp)) (ha _ (by simp)) (ha _ (by simp)) {} ⟨.int _, .int _, .int _, .list _ all_nil, .list _ all_nil, .list _ all_nil⟩ _).2.2.2.2 h
  · cases h

theorem mapM_good {S : Network → Prop} {E : Env} {vals : List Val} (hv : ∀ v ∈ vals, GoodOn S E v) : ∀ (is : List Nat) (args : List Val),
    is.mapM (fun i => vals[i]?) = some args → ∀ a ∈ args, GoodOn S E a
  | [], args, h => by cases h; exact all_nil
  | i :: is, args, h => by
    rw [List.mapM_cons] at h
    cases hi : vals[i]? with
    | none => rw [hi] at h; cases h
    | some x =>
      rw [hi] at h
      cases hr : is.mapM (fun i => vals[i]?) with
      | none => rw [hr] at h; cases h
      | some r =>
        rw [hr] at h
        have h := Option.some.inj h
        rw [← h]
        exact all_cons (hv x (List.mem_of_getElem? hi)) (mapM_good hv is r hr)

/-- What an operation gives is good. -/
theorem good_give {S : Network → Prop} {H : Hashes} {s : Session} (hv : ∀ v ∈ s.vals, GoodOn S ⟨s.net, H⟩ v) {o : Op} {v : Val} (h : s.give H o = some v) :
    GoodOn S ⟨s.net, H⟩ v := by
  cases o with
  | select name => cases h
  | lit l => cases h; cases l with | none => exact .none | int n => exact .int n | str s => exact .str s | bytes b => exact .bytes b | bytearray b => exact .bytearray b | byteData b => exact .other b
  | list is =>
    obtain ⟨args, ha, rfl⟩ := Option.map_eq_some_iff.1 h
    exact .list _ (mapM_good hv is args ha)
  | tuple is =>
    obtain ⟨args, ha, rfl⟩ := Option.map_eq_some_iff.1 h
    exact .tuple _ (mapM_good hv is args ha)
  | elem i k =>
    simp only [Session.give] at h
    split at h
    · next l hl => exact good_seq (hv _ (List.mem_of_getElem? hl)) (.inl rfl) v (List.mem_of_getElem? h)
    · next l hl => exact good_seq (hv _ (List.mem_of_getElem? hl)) (.inr rfl) v (List.mem_of_getElem? h)
    · cases h
  | attr i k =>
    simp only [Session.give] at h
    split at h
    · next hl => exact good_attrs (hv _ (List.mem_of_getElem? hl)) v (List.mem_of_getElem? h)
    · cases h
  | call f is =>
    simp only [Session.give] at h
    split at h
    · next args ha =>
      refine good_call (mapM_good hv is args ha) (f := f) (args := args) ?_
      cases hc : Dyn.call ⟨s.net, H⟩ f args with
      | ok w => rw [hc] at h; cases h; rfl
      | error e => rw [hc] at h; cases h
    · cases h

end Verif.Props
