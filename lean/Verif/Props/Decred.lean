import Verif.Lemmas.DecredSig2
import Verif.Props.Base58
import Verif.Props.Addresses
import Verif.Props.Networks

/-! Properties C62 (Decred part), C63, C64, C44 and C45 (Decred parts), C78 and C79. -/

namespace Verif.Props
open Verif Spec Addresses

attribute [local irreducible] blake256

/-! ### C62 -/

/-- C62: the Decred networks. -/
theorem C62_decred_networks (net : Network) (h : net.Supported) :
    net.isDecred = true ↔ net ∈ [decredMain, decredTest, decredSimnet] := by
  revert net; unfold Network.Supported; decide +kernel

/-- C62: off the Decred networks every constructor of a Decred object raises ValueError, and every parser fails. -/
theorem C62_decred (net : Network) (h : net.isDecred = false) :
    (∀ a b c, DecredOutpoint.make net a b c = .error .valueError) ∧
    (∀ b, DecredOutpoint.fromBytes net b = .error .valueError) ∧
    (∀ o s, DecredTxIn.make net o s = .error .valueError) ∧
    (∀ b, DecredTxIn.fromBytes net b = .error .valueError) ∧
    (∀ v r s, DecredTxOut.make net v r s = .error .valueError) ∧
    (∀ b o, DecredTxOut.fromBytes net b ≠ .ok o) ∧
    (∀ v g i s r, DecredInputWitness.make net v g i s r = .error .valueError) ∧
    (∀ v ins outs lt ex ws, DecredTx.make net v ins outs lt ex ws = .error .valueError) ∧
    (∀ t : DecredTx, t.prefix net = .error .valueError ∧ t.witness net = .error .valueError ∧ t.witnessSigning net = .error .valueError) := by
  have g : decredGate net = .error .valueError := by unfold decredGate check; rw [h]; rfl
  have a1 : ∀ a b c, DecredOutpoint.make net a b c = .error .valueError := by intro a b c; unfold DecredOutpoint.make; rw [g]; rfl
  have a2 : ∀ v r s, DecredTxOut.make net v r s = .error .valueError := by intro a b c; unfold DecredTxOut.make; rw [g]; rfl
  refine ⟨a1, fun b => a1 _ _ _, ?_, ?_, a2, ?_, ?_, ?_, ?_⟩
  · intro o s; unfold DecredTxIn.make; rw [g]; rfl
  · intro b; unfold DecredTxIn.fromBytes DecredOutpoint.fromBytes; rw [a1]; rfl
  · intro b o ho
    unfold DecredTxOut.fromBytes at ho
    obtain ⟨n, -, ho⟩ := bind_ok_iff.1 ho
    simp only [a2] at ho
    split at ho <;> cases ho
  · intro v i j s r; unfold DecredInputWitness.make; rw [g]; rfl
  · intro v ins outs lt ex ws; unfold DecredTx.make; rw [g]; rfl
  · intro t
    refine ⟨?_, ?_, ?_⟩
    · unfold DecredTx.prefix DecredTx.prefixOf; rw [g]; rfl
    · unfold DecredTx.witness; rw [g]; rfl
    · unfold DecredTx.witnessSigning; rw [g]; rfl

example : bitcoinMain.isDecred = false ∧ bitcoinMain.Supported ∧ decredMain.Supported := by unfold Network.Supported; decide +kernel

/-! ### C63 -/

/-- C63: the bytes of a constructed transaction are the full serialization of its fields, at most 100000. -/
theorem C63_serialize (net : Network) (t : DecredTx) (h : t.Built net) :
    t.bytes = dcrFull t.version
      (t.txIns.map fun i => dcrIn i.outpoint.txId i.outpoint.index i.outpoint.tree i.sequence)
      (t.txOuts.map fun o => dcrOut o.value o.version o.outputScript) t.lockTime t.expiry
      (t.txWitnesses.map fun w => dcrWitness w.value w.height w.index (w.stackScript ++ w.redeemScript)) ∧
    t.bytes.length ≤ 100000 ∧ t.txIns ≠ [] ∧ t.txOuts ≠ [] := by
  have f := h.facts
  have e := congrArg DecredTx.bytes f.obj
  have hs := f.args.size
  have e' : t.bytes = dcrFull t.version (t.txIns.map (·.bytes)) (t.txOuts.map (·.bytes)) t.lockTime t.expiry (t.txWitnesses.map (·.bytes)) := e
  refine ⟨?_, by rw [e']; exact hs, f.args.ins0, f.args.outs0⟩
  rw [e', List.map_congr_left (fun i hi => (f.ins i hi).wire), List.map_congr_left (fun o ho => (f.outs o ho).wire),
    List.map_congr_left (l := t.txWitnesses) (g := fun w => dcrWitness w.value w.height w.index (w.stackScript ++ w.redeemScript))
      (fun w hw => by rw [(f.wits w hw).wire, (f.wits w hw).script.1])]

/-- C63: which field lists the constructor accepts, on a Decred network. -/
theorem C63_accepts (net : Network) (hn : net.isDecred = true) (v : Bytes) (ins : List DecredTxIn) (outs : List DecredTxOut) (lt ex : Bytes)
    (ws : List DecredInputWitness) :
    (∃ t, DecredTx.make net v ins outs lt ex ws = .ok t ∧ t.version = v ∧ t.txIns = ins ∧ t.txOuts = outs ∧ t.lockTime = lt ∧
      t.expiry = ex ∧ t.txWitnesses = ws) ∧ v.length = 4 ∧ lt.length = 4 ∧ ex.length = 4 ∧ ins ≠ [] ∧ outs ≠ [] ∧
      (dcrFull v (ins.map (·.bytes)) (outs.map (·.bytes)) lt ex (ws.map (·.bytes))).length ≤ 100000 ∧
      ins.length < 2 ^ 64 ∧ outs.length < 2 ^ 64 ∧ ws.length < 2 ^ 64 ∨
    DecredTx.make net v ins outs lt ex ws = .error .valueError ∧ ¬ (v.length = 4 ∧ lt.length = 4 ∧ ex.length = 4 ∧ ins ≠ [] ∧ outs ≠ [] ∧
      (dcrFull v (ins.map (·.bytes)) (outs.map (·.bytes)) lt ex (ws.map (·.bytes))).length ≤ 100000 ∧
      ins.length < 2 ^ 64 ∧ outs.length < 2 ^ 64 ∧ ws.length < 2 ^ 64) := by
  cases e : DecredTx.make net v ins outs lt ex ws with
  | ok t =>
    obtain ⟨h, rfl⟩ := DecredTx.make_iff.1 e
    exact Or.inl ⟨⟨_, rfl, rfl, rfl, rfl, rfl, rfl, rfl⟩, h.v4, h.lt4, h.ex4, h.ins0, h.outs0, h.size, h.li, h.lo, h.lw⟩
  | error x =>
    refine Or.inr ⟨by rw [DecredTx.make_ve _ _ _ _ _ _ _ x e], ?_⟩
    rintro ⟨h1, h2, h3, h4, h5, h6, h7, h8, h9⟩
    rw [DecredTx.make_iff.2 ⟨⟨hn, h1, h2, h3, h4, h5, h7, h8, h9, h6⟩, rfl⟩] at e
    cases e

/-- The prefix serialization of a transaction's fields. -/
def DecredTx.wirePrefix (t : DecredTx) : Bytes :=
  dcrPrefix t.version (t.txIns.map fun i => dcrIn i.outpoint.txId i.outpoint.index i.outpoint.tree i.sequence)
    (t.txOuts.map fun o => dcrOut o.value o.version o.outputScript) t.lockTime t.expiry

theorem wirePrefix_eq {net : Network} {t : DecredTx} (f : t.Facts net) :
    dcrPrefix t.version (t.txIns.map (·.bytes)) (t.txOuts.map (·.bytes)) t.lockTime t.expiry = DecredTx.wirePrefix t := by
  unfold DecredTx.wirePrefix
  rw [List.map_congr_left (fun i hi => (f.ins i hi).wire), List.map_congr_left (fun o ho => (f.outs o ho).wire)]

theorem txIdLe_eq {net : Network} {t : DecredTx} (f : t.Facts net) : t.txIdLe = blake256 (DecredTx.wirePrefix t) := by
  rw [← wirePrefix_eq f]; exact congrArg DecredTx.txIdLe f.obj

/-- C63: the id is the BLAKE-256 hash of the prefix serialization, and `prefix`, `witness` and `witness_signing` return the
corresponding serializations. -/
theorem C63_id (net : Network) (t : DecredTx) (h : t.Built net) :
    t.prefix net = .ok (DecredTx.wirePrefix t) ∧ t.txIdLe = blake256 (DecredTx.wirePrefix t) ∧ t.txIdLe.length = 32 ∧
    t.txId = t.txIdLe.reverse ∧
    t.witness net = .ok (dcrWitnessOnly t.version (t.txWitnesses.map fun w => dcrWitness w.value w.height w.index w.scriptSig)) ∧
    t.witnessSigning net = .ok (dcrWitnessSigning t.version (t.txWitnesses.map fun w => w.stackScript ++ w.redeemScript)) := by
  have f := h.facts
  refine ⟨?_, txIdLe_eq f, ?_, ?_, ?_, ?_⟩
  · rw [← wirePrefix_eq f]; exact DecredTx.prefixOf_eq f.args.net _ _ _ f.args.li f.args.lo
  · rw [txIdLe_eq f]; unfold blake256; exact Blake.blakeHash_length _
  · rw [congrArg DecredTx.txId f.obj, congrArg DecredTx.txIdLe f.obj]; rfl
  · rw [DecredTx.witness_eq f.args.net f.args.lw, List.map_congr_left (fun w hw => (f.wits w hw).wire)]
  · rw [DecredTx.witnessSigning_eq f.args.net f.args.lw f.wits, List.map_congr_left (fun w hw => (f.wits w hw).script.1)]

/-- C63: the id does not depend on the witnesses (nor on the upper half of the version word). -/
theorem C63_id_witness_free (net net' : Network) (t t' : DecredTx) (h : t.Built net) (h' : t'.Built net')
    (hv : t.version.take 2 = t'.version.take 2)
    (hi : t.txIns.map (fun i => (i.outpoint.txId, i.outpoint.index, i.outpoint.tree, i.sequence)) =
      t'.txIns.map (fun i => (i.outpoint.txId, i.outpoint.index, i.outpoint.tree, i.sequence)))
    (ho : t.txOuts.map (fun o => (o.value, o.version, o.outputScript)) = t'.txOuts.map (fun o => (o.value, o.version, o.outputScript)))
    (hl : t.lockTime = t'.lockTime) (he : t.expiry = t'.expiry) : t.txIdLe = t'.txIdLe ∧ t.txId = t'.txId := by
  have e : DecredTx.wirePrefix t = DecredTx.wirePrefix t' := by
    have a := congrArg (List.map fun x : Bytes × Bytes × Bytes × Bytes => dcrIn x.1 x.2.1 x.2.2.1 x.2.2.2) hi
    have b := congrArg (List.map fun x : Bytes × Bytes × Bytes => dcrOut x.1 x.2.1 x.2.2) ho
    simp only [List.map_map, Function.comp_def] at a b
    unfold DecredTx.wirePrefix dcrPrefix
    rw [a, b, hv, hl, he]
  have i1 : t.txIdLe = t'.txIdLe := by rw [(C63_id net t h).2.1, (C63_id net' t' h').2.1, e]
  exact ⟨i1, by rw [(C63_id net t h).2.2.2.1, (C63_id net' t' h').2.2.2.1, i1]⟩

theorem dcrIns_len {net : Network} {t : DecredTx} (f : t.Facts net) : ∀ x ∈ t.txIns.map (·.bytes), x.length = 41 := by
  intro x hx; obtain ⟨i, hi, rfl⟩ := List.mem_map.1 hx; exact (f.ins i hi).length

theorem dcrOuts_form {net : Network} {t : DecredTx} (f : t.Facts net) : ∀ b ∈ t.txOuts.map (·.bytes), ∃ v r s : Bytes,
    v.length = 8 ∧ r.length = 2 ∧ s.length < 2 ^ 64 ∧ b = dcrOut v r s := by
  intro x hx
  obtain ⟨o, ho, rfl⟩ := List.mem_map.1 hx
  obtain ⟨h1, h2, h3, -⟩ := (f.outs o ho).eq
  exact ⟨_, _, _, h1, h2, h3, (f.outs o ho).wire⟩

theorem DecredTxIn.Built.ext {net net' : Network} {x y : DecredTxIn} (h : x.Built net) (h' : y.Built net') (e : x.bytes = y.bytes) : x = y := by
  obtain ⟨h1, h2, h3⟩ := h.eq
  obtain ⟨h1', h2', h3'⟩ := h'.eq
  obtain ⟨a1, a2, a3, a4⟩ := h1.eq
  obtain ⟨b1, b2, b3, b4⟩ := h1'.eq
  have w := h.wire
  rw [e, h'.wire] at w
  unfold dcrIn at w
  simp only [List.append_assoc] at w
  obtain ⟨e1, w⟩ := List.append_inj w (by rw [a1, b1])
  obtain ⟨e2, w⟩ := List.append_inj w (by rw [a2, b2])
  obtain ⟨e3, w⟩ := List.append_inj w (by rw [a3, b3])
  have eo : x.outpoint = y.outpoint := by rw [a4, b4, e1, e2, e3]
  rw [h3, h3', eo, w]

theorem DecredTxOut.Built.ext {net net' : Network} {x y : DecredTxOut} (h : x.Built net) (h' : y.Built net') (e : x.bytes = y.bytes) : x = y := by
  obtain ⟨a1, a2, a3, a4⟩ := h.eq
  obtain ⟨b1, b2, b3, b4⟩ := h'.eq
  have w := h.wire
  rw [e, h'.wire] at w
  obtain ⟨e1, e2, e3, -⟩ := dcrOut_inj (x := []) (y := []) (b1.trans a1.symm) (b2.trans a2.symm) b3 a3 (by simpa using w)
  rw [a4, b4, e1, e2, e3]

theorem prefix_fields {net net' : Network} {t t' : DecredTx} (f : t.Facts net) (f' : t'.Facts net')
    (e : DecredTx.wirePrefix t = DecredTx.wirePrefix t') :
    t.version.take 2 = t'.version.take 2 ∧ t.txIns = t'.txIns ∧ t.txOuts = t'.txOuts ∧ t.lockTime = t'.lockTime ∧ t.expiry = t'.expiry := by
  rw [← wirePrefix_eq f, ← wirePrefix_eq f'] at e
  obtain ⟨h1, h2, h3, h4, h5⟩ := dcrPrefix_inj f.args.v4 f'.args.v4 (dcrIns_len f) (dcrIns_len f') (dcrOuts_form f) (dcrOuts_form f')
    (by simpa using f.args.li) (by simpa using f'.args.li) (by simpa using f.args.lo) (by simpa using f'.args.lo)
    (by rw [f.args.lt4, f'.args.lt4]) e
  refine ⟨h1, ?_, ?_, h4, h5⟩
  · refine map_bytes_inj (P := fun i => i ∈ t.txIns ∨ i ∈ t'.txIns) (f := (·.bytes)) ?_ (fun _ h => .inl h) (fun _ h => .inr h) h2
    rintro x y (hx | hx) (hy | hy) e
    · exact DecredTxIn.Built.ext (f.ins x hx) (f.ins y hy) e
    · exact DecredTxIn.Built.ext (f.ins x hx) (f'.ins y hy) e
    · exact DecredTxIn.Built.ext (f'.ins x hx) (f.ins y hy) e
    · exact DecredTxIn.Built.ext (f'.ins x hx) (f'.ins y hy) e
  · refine map_bytes_inj (P := fun i => i ∈ t.txOuts ∨ i ∈ t'.txOuts) (f := (·.bytes)) ?_ (fun _ h => .inl h) (fun _ h => .inr h) h3
    rintro x y (hx | hx) (hy | hy) e
    · exact DecredTxOut.Built.ext (f.outs x hx) (f.outs y hy) e
    · exact DecredTxOut.Built.ext (f.outs x hx) (f'.outs y hy) e
    · exact DecredTxOut.Built.ext (f'.outs x hx) (f.outs y hy) e
    · exact DecredTxOut.Built.ext (f'.outs x hx) (f'.outs y hy) e

/-- C63: transactions with the same id agree in everything but the witnesses, unless their prefixes are a BLAKE-256 collision. -/
theorem C63_id_binds (net : Network) (t t' : DecredTx) (h : t.Built net) (h' : t'.Built net) (e : t.txIdLe = t'.txIdLe) :
    (t.version.take 2 = t'.version.take 2 ∧ t.txIns = t'.txIns ∧ t.txOuts = t'.txOuts ∧ t.lockTime = t'.lockTime ∧ t.expiry = t'.expiry) ∨
    (DecredTx.wirePrefix t ≠ DecredTx.wirePrefix t' ∧ blake256 (DecredTx.wirePrefix t) = blake256 (DecredTx.wirePrefix t')) := by
  rw [(C63_id net t h).2.1, (C63_id net t' h').2.1] at e
  by_cases c : DecredTx.wirePrefix t = DecredTx.wirePrefix t'
  · exact .inl (prefix_fields h.facts h'.facts c)
  · exact .inr ⟨c, e⟩

/-- C63: transactions with the same bytes have the same fields (the split of the signature script apart). -/
theorem C63_injective (net : Network) (t t' : DecredTx) (h : t.Built net) (h' : t'.Built net) (e : t.bytes = t'.bytes) :
    t.version = t'.version ∧ t.txIns = t'.txIns ∧ t.txOuts = t'.txOuts ∧ t.lockTime = t'.lockTime ∧ t.expiry = t'.expiry ∧
    t.txWitnesses.map (fun w => (w.value, w.height, w.index, w.scriptSig)) =
      t'.txWitnesses.map (fun w => (w.value, w.height, w.index, w.scriptSig)) := by
  have f := h.facts
  have f' := h'.facts
  rw [congrArg DecredTx.bytes f.obj, congrArg DecredTx.bytes f'.obj] at e
  simp only [decredObj, dcrFull, List.append_assoc] at e
  obtain ⟨h1, e⟩ := List.append_inj e (by rw [f.args.v4, f'.args.v4])
  obtain ⟨h2, e⟩ := vector_inj (dcr_fixed 41) (dcrIns_len f) (dcrIns_len f') (by simpa using f.args.li) (by simpa using f'.args.li) e
  obtain ⟨h3, e⟩ := vector_inj dcrOut_selfDelim (dcrOuts_form f) (dcrOuts_form f') (by simpa using f.args.lo) (by simpa using f'.args.lo) e
  obtain ⟨h4, e⟩ := List.append_inj e (by rw [f.args.lt4, f'.args.lt4])
  obtain ⟨h5, e⟩ := List.append_inj e (by rw [f.args.ex4, f'.args.ex4])
  have key : ∀ {x y : DecredInputWitness} {r s : Bytes}, x.Built net → y.Built net → x.bytes ++ r = y.bytes ++ s →
      (x.value, x.height, x.index, x.scriptSig) = (y.value, y.height, y.index, y.scriptSig) ∧ x.bytes = y.bytes ∧ r = s := by
    intro x y r s hx hy e
    obtain ⟨a1, a2, a3, -, -⟩ := hx.eq
    obtain ⟨b1, b2, b3, -, -⟩ := hy.eq
    rw [hx.wire, hy.wire] at e ⊢
    unfold dcrWitness at e
    simp only [List.append_assoc] at e
    obtain ⟨c1, e⟩ := List.append_inj e (by rw [a1, b1])
    obtain ⟨c2, e⟩ := List.append_inj e (by rw [a2, b2])
    obtain ⟨c3, e⟩ := List.append_inj e (by rw [a3, b3])
    obtain ⟨c4, e⟩ := varBytes_inj hx.script.2.2 hy.script.2.2 e
    rw [c1, c2, c3, c4]; exact ⟨rfl, rfl, e⟩
  have hws := vector_inj (r := []) (s := []) (S := fun b => ∃ w : DecredInputWitness, w.Built net ∧ b = w.bytes)
    (by rintro a b r s ⟨x, hx, rfl⟩ ⟨y, hy, rfl⟩ e; exact (key hx hy e).2)
    (xs := t.txWitnesses.map (·.bytes)) (ys := t'.txWitnesses.map (·.bytes))
    (by intro x hx; obtain ⟨w, hw, rfl⟩ := List.mem_map.1 hx; exact ⟨w, f.wits w hw, rfl⟩)
    (by intro x hx; obtain ⟨w, hw, rfl⟩ := List.mem_map.1 hx; exact ⟨w, f'.wits w hw, rfl⟩)
    (by simpa using f.args.lw) (by simpa using f'.args.lw) (by simpa using e)
  refine ⟨h1, ?_, ?_, h4, h5, ?_⟩
  · refine map_bytes_inj (P := DecredTxIn.Built net) (f := (·.bytes)) (fun x y hx hy e => DecredTxIn.Built.ext hx hy e) f.ins f'.ins h2
  · refine map_bytes_inj (P := DecredTxOut.Built net) (f := (·.bytes)) (fun x y hx hy e => DecredTxOut.Built.ext hx hy e) f.outs f'.outs h3
  · have : ∀ {xs ys : List DecredInputWitness}, (∀ w ∈ xs, w.Built net) → (∀ w ∈ ys, w.Built net) → xs.map (·.bytes) = ys.map (·.bytes) →
        xs.map (fun w => (w.value, w.height, w.index, w.scriptSig)) = ys.map (fun w => (w.value, w.height, w.index, w.scriptSig)) := by
      intro xs
      induction xs with
      | nil => intro ys _ _ e; cases ys with | nil => rfl | cons y ys => simp at e
      | cons x xs ih =>
        intro ys hx hy e
        cases ys with
        | nil => simp at e
        | cons y ys =>
          simp only [List.map_cons, List.cons.injEq] at e ⊢
          exact ⟨(key (r := []) (s := []) (hx x (by simp)) (hy y (by simp)) (by simpa using e.1)).1,
            ih (fun w hw => hx w (by simp [hw])) (fun w hw => hy w (by simp [hw])) e.2⟩
    exact this f.wits f'.wits hws.1

/-- C63: an outpoint parses back, whatever follows. -/
theorem C63_outpoint_roundtrip (net : Network) (o : DecredOutpoint) (h : o.Built net) (rest : Bytes) :
    DecredOutpoint.fromBytes net (o.bytes ++ rest) = .ok o := by
  obtain ⟨a, b, c, h⟩ := h
  obtain ⟨hn, h1, h2, h3, rfl⟩ := DecredOutpoint.make_iff.1 h
  unfold DecredOutpoint.fromBytes
  simp only [List.append_assoc]
  rw [slice_zero_append' a _ 32 h1, slice_mid a b _ 32 36 h1 (by omega)]
  have : slice (a ++ (b ++ (c ++ rest))) 36 37 = c := by
    rw [← List.append_assoc]; exact slice_mid (a ++ b) c rest 36 37 (by simp [h1, h2]) (by omega)
  rw [this]
  exact DecredOutpoint.make_iff.2 ⟨hn, h1, h2, h3, by simp⟩

/-- C63: an input parses back, whatever follows. -/
theorem C63_txin_roundtrip (net : Network) (t : DecredTxIn) (h : t.Built net) (rest : Bytes) :
    DecredTxIn.fromBytes net (t.bytes ++ rest) = .ok t := by
  obtain ⟨o, sq, ho, h⟩ := h
  obtain ⟨hn, h1, h2, rfl⟩ := DecredTxIn.make_iff.1 h
  unfold DecredTxIn.fromBytes
  simp only [List.append_assoc]
  rw [slice_zero_append' o.bytes _ 37 h1, slice_mid o.bytes sq _ 37 41 h1 (by omega)]
  have := C63_outpoint_roundtrip net o ho []
  rw [List.append_nil] at this
  rw [this, ok_bind]
  exact DecredTxIn.make_iff.2 ⟨hn, h1, h2, rfl⟩

theorem dcr_lenOK {net : Network} (hs : net.Supported) (hn : net.isDecred = true) : net.isOverwinter = false ∧ net.isSapling = false := by
  revert net; unfold Network.Supported; decide +kernel

/-- C63: an output parses back, whatever follows, when its script is shorter than 252 bytes; longer scripts are not implemented. -/
theorem C63_txout_roundtrip (net : Network) (hs : net.Supported) (t : DecredTxOut) (h : t.Built net) (rest : Bytes) :
    DecredTxOut.fromBytes net (t.bytes ++ rest) = if t.outputScript.length < 252 then .ok t else .error .notImplementedError := by
  obtain ⟨v, r, s, h⟩ := h
  obtain ⟨hn, h1, h2, h3, rfl⟩ := DecredTxOut.make_iff.1 h
  unfold DecredTxOut.fromBytes
  have e0 : dcrOut v r s ++ rest = (v ++ r) ++ (compactSize s.length ++ (s ++ rest)) := by simp [dcrOut, varBytes]
  have hl : (v ++ r).length = 10 := by simp [h1, h2]
  simp only [e0]
  rw [← hl, List.drop_left, hl, VarInt.fromBytes_len h3 (.inl (dcr_lenOK hs hn)), ok_bind]
  simp only
  by_cases c : s.length < 252
  · rw [if_pos c, if_pos c]
    have s1 : slice ((v ++ r) ++ (compactSize s.length ++ (s ++ rest))) 0 8 = v := by
      rw [List.append_assoc]; exact slice_zero_append' _ _ 8 h1
    have s2 : slice ((v ++ r) ++ (compactSize s.length ++ (s ++ rest))) 8 10 = r := by
      rw [List.append_assoc]; exact slice_mid v r _ 8 10 h1 (by omega)
    have s3 : slice ((v ++ r) ++ (compactSize s.length ++ (s ++ rest))) (10 + (compactSize s.length).length)
        (10 + (compactSize s.length).length + s.length) = s := by
      rw [← List.append_assoc (v ++ r)]
      exact slice_mid ((v ++ r) ++ compactSize s.length) s rest _ _ (by simp only [List.length_append, h1, h2]) rfl
    rw [s1, s2, s3]
    exact DecredTxOut.make_iff.2 ⟨hn, h1, h2, h3, rfl⟩
  · rw [if_neg (by simpa using c), if_neg c]

/-- C63: what the parsers return has the bytes it was parsed from. -/
theorem C63_parsed (net : Network) (b : Bytes) :
    (∀ o, DecredOutpoint.fromBytes net b = .ok o → o.Built net ∧ o.bytes = b.take 37) ∧
    (∀ i, DecredTxIn.fromBytes net b = .ok i → i.Built net ∧ i.bytes = b.take 41) := by
  have sl : ∀ i j, i ≤ j → b.take i ++ slice b i j = b.take j := by
    intro i j hij
    unfold slice
    have : List.take i b = List.take i (List.take j b) := by rw [List.take_take, Nat.min_eq_left hij]
    rw [this, List.take_append_drop]
  have key : ∀ o, DecredOutpoint.fromBytes net b = .ok o → o.Built net ∧ o.bytes = b.take 37 := by
    intro o h
    unfold DecredOutpoint.fromBytes at h
    refine ⟨⟨_, _, _, h⟩, ?_⟩
    obtain ⟨-, -, -, -, rfl⟩ := DecredOutpoint.make_iff.1 h
    show slice b 0 32 ++ slice b 32 36 ++ slice b 36 37 = _
    have e : slice b 0 32 = b.take 32 := by simp [slice]
    rw [e, sl 32 36 (by omega), sl 36 37 (by omega)]
  refine ⟨key, ?_⟩
  intro i h
  unfold DecredTxIn.fromBytes at h
  obtain ⟨o, h1, h2⟩ := bind_ok_iff.1 h
  unfold DecredOutpoint.fromBytes at h1
  refine ⟨⟨_, _, ⟨_, _, _, h1⟩, h2⟩, ?_⟩
  obtain ⟨-, l1, -, rfl⟩ := DecredTxIn.make_iff.1 h2
  show o.bytes ++ _ = _
  obtain ⟨-, -, -, -, rfl⟩ := DecredOutpoint.make_iff.1 h1
  have e0 : slice b 0 37 = b.take 37 := by simp [slice]
  have e1 : slice (slice b 0 37) 0 32 = b.take 32 := by rw [e0]; simp [slice, List.take_take]
  have e2 : slice (slice b 0 37) 32 36 = slice b 32 36 := by rw [e0]; simp [slice, List.take_take]
  have e3 : slice (slice b 0 37) 36 37 = slice b 36 37 := by rw [e0]; simp [slice, List.take_take]
  show slice (slice b 0 37) 0 32 ++ slice (slice b 0 37) 32 36 ++ slice (slice b 0 37) 36 37 ++ slice b 37 41 = _
  rw [e1, e2, e3, sl 32 36 (by omega), sl 36 37 (by omega), sl 37 41 (by omega)]

/-! ### C44 and C45 -/

/-- C44 (Decred): `copy()` is the identity. -/
theorem C44_copy_identity_decred (net : Network) :
    (∀ o : DecredOutpoint, o.Built net → o.copy net = .ok o) ∧ (∀ i : DecredTxIn, i.Built net → i.copy net = .ok i) ∧
    (∀ o : DecredTxOut, o.Built net → o.copy net = .ok o) ∧ (∀ w : DecredInputWitness, w.Built net → w.copy net = .ok w) ∧
    (∀ t : DecredTx, t.Built net → t.copy net = .ok t) := by
  refine ⟨?_, ?_, ?_, ?_, ?_⟩
  · rintro o ⟨a, b, c, h⟩
    obtain ⟨hn, h1, h2, h3, rfl⟩ := DecredOutpoint.make_iff.1 h
    exact h
  · rintro i ⟨o, sq, ho, h⟩
    obtain ⟨hn, h1, h2, rfl⟩ := DecredTxIn.make_iff.1 h
    exact h
  · rintro o ⟨v, r, s, h⟩
    obtain ⟨hn, h1, h2, h3, rfl⟩ := DecredTxOut.make_iff.1 h
    exact h
  · rintro w ⟨v, i, j, s, r, h⟩
    obtain ⟨hn, h1, h2, h3, h4, rfl⟩ := DecredInputWitness.make_iff.1 h
    exact h
  · intro t h
    exact DecredTx.make_iff.2 ⟨h.facts.args, h.facts.obj⟩

/-- C44 (Decred): `copy` replaces exactly the given fields of a transaction. -/
theorem C44_copy_update_decred (net : Network) (t : DecredTx) (version : Option Bytes) (ins : Option (List DecredTxIn))
    (outs : Option (List DecredTxOut)) (lt ex : Option Bytes) (ws : Option (List DecredInputWitness)) (t' : DecredTx)
    (h : t.copy net version ins outs lt ex ws = .ok t') :
    t'.version = version.getD t.version ∧ t'.txIns = ins.getD t.txIns ∧ t'.txOuts = outs.getD t.txOuts ∧
    t'.lockTime = lt.getD t.lockTime ∧ t'.expiry = ex.getD t.expiry ∧ t'.txWitnesses = ws.getD t.txWitnesses ∧
    t'.bytes = dcrFull t'.version (t'.txIns.map (·.bytes)) (t'.txOuts.map (·.bytes)) t'.lockTime t'.expiry (t'.txWitnesses.map (·.bytes)) := by
  obtain ⟨-, rfl⟩ := DecredTx.make_iff.1 h
  exact ⟨rfl, rfl, rfl, rfl, rfl, rfl, rfl⟩

/-- C45 (Decred): fee plus outputs is the sum of the witness values. -/
theorem C45_fee_decred (t : DecredTx) :
    t.calculateFee + ((t.txOuts.map fun o => leToNat o.value).sum : Nat) = ((t.txWitnesses.map fun w => leToNat w.value).sum : Nat) := by
  unfold DecredTx.calculateFee
  have e : ∀ b : Bytes, le2i b = leToNat b := fun _ => rfl
  simp only [e]
  omega

/-! ### C64 -/

/-- The size of the copy of the transaction that is signed: the witness at `k` has the script, the others none. -/
def DecredTx.signedSize (t : DecredTx) (ins outs : List Bytes) (k : Nat) (script : Bytes) : Nat :=
  (dcrFull t.version ins outs t.lockTime t.expiry
    (t.txWitnesses.mapIdx fun j w => dcrWitness w.value w.height w.index (if j = k then script else []))).length

theorem prepWits_bytes (ws : List DecredInputWitness) (k : Nat) (s : Bytes) : (prepWits ws k s).map (·.bytes) =
    ws.mapIdx fun j w => dcrWitness w.value w.height w.index (if j = k then s else []) := by
  apply List.ext_getElem
  · simp [prepWits]
  · intro j h1 h2
    simp only [prepWits, List.getElem_map, List.getElem_mapIdx]
    split <;> rfl

/-- C64: `sighash_all` with and without ANYONECANPAY, for every transaction, index and script (`None` meaning the empty script): the hash of
hash type, id (the prefix hash) and witness-signing hash in which the witness at the index has the script and the others are empty.
The only failures are the index and the size of the copy. -/
theorem C64_composition (net : Network) (t : DecredTx) (h : t.Built net) (index : Int) (script : Option Bytes) (acp : Bool) :
    t.sighashAll net index script acp =
      match pyIndex index t.txWitnesses.length with
      | none => .error .indexError
      | some k =>
        if DecredTx.signedSize t (t.txIns.map (·.bytes)) (t.txOuts.map (·.bytes)) k (script.getD []) ≤ 100000 then
          .ok (blake256 (leBytes 4 (if acp then 0x81 else 0x01) ++ blake256 (DecredTx.wirePrefix t) ++
            blake256 (dcrWitnessSigning t.version ((List.replicate t.txWitnesses.length []).set k (script.getD [])))))
        else .error .valueError := by
  have f := h.facts
  cases hi : pyIndex index t.txWitnesses.length with
  | none =>
    unfold DecredTx.sighashAll
    rw [DecredTx.sighashPrep_index f hi]; rfl
  | some k =>
    rw [sighashAll_decred f hi, prepWits_bytes, ← txIdLe_eq f]
    have e1 : dcrSigScripts t.txWitnesses.length k (script.getD []) = (List.replicate t.txWitnesses.length []).set k (script.getD []) := by
      apply List.ext_getElem
      · simp [dcrSigScripts]
      · intro j h1 h2
        simp only [dcrSigScripts, List.getElem_map, List.getElem_range, List.getElem_set, List.getElem_replicate]
        by_cases c : j = k
        · simp [c]
        · have : ¬ k = j := fun hh => c hh.symm
          simp [c, this]
    have e2 : sigType false acp = if acp then 0x81 else 0x01 := by cases acp <;> rfl
    rw [e1, e2]
    rfl

theorem sig_outs_map {net : Network} {t : DecredTx} (f : t.Facts net) : t.txOuts.map (·.bytes) = t.sig.outs.map fun o => dcrOut o.1 o.2.1 o.2.2 := by
  rw [List.map_congr_left (fun o ho => (f.outs o ho).wire)]
  simp [DecredTx.sig, Function.comp_def]

theorem sigIns_all (t : DecredTx) (k : Nat) :
    dcrSigIns t.sig k 1 = t.txIns.map fun i => dcrIn i.outpoint.txId i.outpoint.index i.outpoint.tree i.sequence := by
  have a : acpBit 1 = false := by decide
  have b : baseType 1 = 1 := by decide
  unfold dcrSigIns dcrSigned
  simp only [a, b, Bool.false_eq_true, if_false]
  apply List.ext_getElem
  · simp [DecredTx.sig]
  · intro j h1 h2
    simp [DecredTx.sig, dcrIn]

/-- C64: with as many witnesses as inputs, `sighash_all` without ANYONECANPAY is the Decred signature hash. -/
theorem C64_all (net : Network) (t : DecredTx) (h : t.Built net) (hw : t.txWitnesses.length = t.txIns.length) (index : Int) (k : Nat)
    (hi : pyIndex index t.txIns.length = some k) (script : Option Bytes)
    (hs : DecredTx.signedSize t (t.txIns.map (·.bytes)) (t.txOuts.map (·.bytes)) k (script.getD []) ≤ 100000) :
    t.sighashAll net index script false = .ok (dcrSighash blake256 t.sig k (script.getD []) 1) := by
  have f := h.facts
  rw [← hw] at hi
  unfold DecredTx.signedSize at hs
  rw [sighashAll_decred f hi, prepWits_bytes, if_pos hs, txIdLe_eq f]
  have a : acpBit 1 = false := by decide
  have b : baseType 1 = 1 := by decide
  unfold dcrSighash
  have e1 : dcrSigOuts t.sig k 1 = t.txOuts.map fun o => dcrOut o.value o.version o.outputScript := by
    unfold dcrSigOuts; rw [b]; simp [DecredTx.sig, Function.comp_def]
  have e2 : (dcrSigned t.sig k 1).length = t.txWitnesses.length := by unfold dcrSigned; rw [a, hw]; simp [DecredTx.sig]
  have e3 : dcrPosition k 1 = k := by unfold dcrPosition; rw [a]; rfl
  rw [sigIns_all, e1, e2, e3]
  rfl

/-- C64: signing a transaction with one input, ANYONECANPAY gives the Decred signature hash. The full statement — for any number of
inputs — fails: `C64_acp_false`. -/
theorem C64_acp_partial (net : Network) (t : DecredTx) (h : t.Built net) (hw : t.txWitnesses.length = 1) (h1 : t.txIns.length = 1)
    (script : Option Bytes)
    (hs : DecredTx.signedSize t (t.txIns.map (·.bytes)) (t.txOuts.map (·.bytes)) 0 (script.getD []) ≤ 100000) :
    t.sighashAll net 0 script true = .ok (dcrSighash blake256 t.sig 0 (script.getD []) 0x81) := by
  have f := h.facts
  have hi : pyIndex 0 t.txWitnesses.length = some 0 := by rw [hw]; rfl
  unfold DecredTx.signedSize at hs
  rw [sighashAll_decred f hi, prepWits_bytes, if_pos hs, txIdLe_eq f]
  have a : acpBit 0x81 = true := by decide
  have b : baseType 0x81 = 1 := by decide
  unfold dcrSighash
  have e1 : dcrSigOuts t.sig 0 0x81 = t.txOuts.map fun o => dcrOut o.value o.version o.outputScript := by
    unfold dcrSigOuts; rw [b]; simp [DecredTx.sig, Function.comp_def]
  obtain ⟨i, hti⟩ := List.length_eq_one_iff.1 h1
  have e2 : (dcrSigned t.sig 0 0x81).length = t.txWitnesses.length := by unfold dcrSigned; rw [a, hw]; simp [DecredTx.sig, hti]
  have e3 : dcrPosition 0 0x81 = 0 := by unfold dcrPosition; rw [a]; rfl
  have e4 : dcrSigIns t.sig 0 0x81 = t.txIns.map fun i => dcrIn i.outpoint.txId i.outpoint.index i.outpoint.tree i.sequence := by
    unfold dcrSigIns dcrSigned
    rw [a, b, e3]
    simp [DecredTx.sig, hti, dcrIn]
  rw [e4, e1, e2, e3]
  rfl

/-- C64, violated: for a transaction with several inputs the prefix that ANYONECANPAY signs is the whole one (`C64_composition`), not the one
with only the signed input. -/
theorem C64_acp_false (net : Network) (t : DecredTx) (h : t.Built net) (hl : 1 < t.txIns.length) (k : Nat) :
    DecredTx.wirePrefix t ≠ dcrPrefix t.version (dcrSigIns t.sig k 0x81) (dcrSigOuts t.sig k 0x81) t.lockTime t.expiry := by
  intro e
  have f := h.facts
  unfold DecredTx.wirePrefix dcrPrefix at e
  simp only [List.append_assoc] at e
  have e := List.append_cancel_left e
  have e := List.append_cancel_left e
  unfold vector at e
  simp only [List.append_assoc] at e
  have a : acpBit 0x81 = true := by decide
  have hle : (dcrSigIns t.sig k 0x81).length ≤ 1 := by
    unfold dcrSigIns dcrSigned
    rw [a]
    simp only [if_true, List.length_mapIdx]
    cases t.sig.ins[k]? <;> simp
  have := (compactSize_inj (by simpa using f.args.li) (by omega) e).1
  simp only [List.length_map] at this
  omega

/-- C64: what `sighash_single` hashes, for every transaction with an input, an output and a witness at the index: the sequences of the
other inputs are zero, and there is one output per input, all but the one at the index being blank. -/
theorem C64_single_composition (net : Network) (t : DecredTx) (h : t.Built net) (i : Nat) (hw : i < t.txWitnesses.length)
    (hi : i < t.txIns.length) (ho : i < t.txOuts.length) (script : Option Bytes) (acp : Bool) :
    t.sighashSingle net i script acp =
      if DecredTx.signedSize t (t.txIns.map (·.bytes)) (t.txOuts.map (·.bytes)) i (script.getD []) ≤ 100000 ∧
        DecredTx.signedSize t (dcrSigIns t.sig i 3) (dcrCodeOuts t.txIns.length t.sig.outs i) i (script.getD []) ≤ 100000
      then .ok (blake256 (leBytes 4 (if acp then 0x83 else 0x03) ++
        blake256 (dcrPrefix t.version (dcrSigIns t.sig i 3) (dcrCodeOuts t.txIns.length t.sig.outs i) t.lockTime t.expiry) ++
        blake256 (dcrWitnessSigning t.version (dcrSigScripts t.txWitnesses.length i (script.getD [])))))
      else .error .valueError := by
  rw [sighashSingle_decred h.facts hw hi ho, prepWits_bytes]
  have e2 : sigType true acp = if acp then 0x83 else 0x03 := by cases acp <;> rfl
  rw [e2]
  rfl

theorem codeOuts_spec {t : DecredTx} {i : Nat} (ho : i < t.txOuts.length) (hv : ∀ o ∈ t.txOuts.take i, o.version = [0, 0]) :
    dcrCodeOuts (i + 1) t.sig.outs i = dcrSigOuts t.sig i 3 := by
  have b : baseType 3 = 3 := by decide
  unfold dcrSigOuts dcrCodeOuts
  rw [b, if_pos rfl]
  apply List.ext_getElem
  · simp only [List.length_map, List.length_range, List.length_mapIdx, List.length_take, DecredTx.sig]; omega
  · intro j h1 h2
    simp only [List.length_map, List.length_range] at h1
    have hj : j < t.txOuts.length := by omega
    simp only [List.getElem_map, List.getElem_range, List.getElem_mapIdx, List.getElem_take, DecredTx.sig]
    by_cases c : j = i
    · subst c
      simp [List.getElem?_eq_getElem hj]
    · simp only [c, if_false]
      have : t.txOuts[j].version = [0, 0] := by
        apply hv
        have hlt : j < (t.txOuts.take i).length := by rw [List.length_take]; omega
        have := List.getElem_mem hlt
        rwa [List.getElem_take] at this
      rw [this]

/-- C64: signing the last input, with version 0 outputs before the one at the index, `sighash_single` is the Decred signature hash. The full
statement — for every index that has an output — fails: `C64_single_false`. -/
theorem C64_single_partial (net : Network) (t : DecredTx) (h : t.Built net) (i : Nat) (hw : t.txWitnesses.length = t.txIns.length)
    (hi : t.txIns.length = i + 1) (ho : i < t.txOuts.length) (hv : ∀ o ∈ t.txOuts.take i, o.version = [0, 0]) (script : Option Bytes)
    (hs : DecredTx.signedSize t (t.txIns.map (·.bytes)) (t.txOuts.map (·.bytes)) i (script.getD []) ≤ 100000)
    (hs' : DecredTx.signedSize t (dcrSigIns t.sig i 3) (dcrSigOuts t.sig i 3) i (script.getD []) ≤ 100000) :
    t.sighashSingle net i script false = .ok (dcrSighash blake256 t.sig i (script.getD []) 3) := by
  rw [C64_single_composition net t h i (by omega) (by omega) ho]
  have e1 : dcrCodeOuts t.txIns.length t.sig.outs i = dcrSigOuts t.sig i 3 := by rw [hi]; exact codeOuts_spec ho hv
  rw [e1, if_pos ⟨hs, hs'⟩]
  have a : acpBit 3 = false := by decide
  unfold dcrSighash
  have e2 : (dcrSigned t.sig i 3).length = t.txWitnesses.length := by unfold dcrSigned; rw [a, hw]; simp [DecredTx.sig]
  have e3 : dcrPosition i 3 = i := by unfold dcrPosition; rw [a]; rfl
  rw [e2, e3]
  rfl

/-- C64, violated: unless the signed input is the last one, the prefix `sighash_single` hashes has the wrong number of outputs. -/
theorem C64_single_false (net : Network) (t : DecredTx) (h : t.Built net) (i : Nat) (hi : i < t.txIns.length) (ho : i < t.txOuts.length)
    (hl : t.txIns.length ≠ i + 1) :
    dcrPrefix t.version (dcrSigIns t.sig i 3) (dcrCodeOuts t.txIns.length t.sig.outs i) t.lockTime t.expiry ≠
      dcrPrefix t.version (dcrSigIns t.sig i 3) (dcrSigOuts t.sig i 3) t.lockTime t.expiry := by
  intro e
  have f := h.facts
  unfold dcrPrefix at e
  simp only [List.append_assoc] at e
  have e := List.append_cancel_left e
  have e := List.append_cancel_left e
  have e := List.append_cancel_left e
  unfold vector at e
  simp only [List.append_assoc] at e
  have l1 : (dcrCodeOuts t.txIns.length t.sig.outs i).length = t.txIns.length := by simp [dcrCodeOuts]
  have b : baseType 3 = 3 := by decide
  have l2 : (dcrSigOuts t.sig i 3).length = i + 1 := by
    unfold dcrSigOuts
    rw [b, if_pos rfl]
    simp only [List.length_mapIdx, List.length_take, DecredTx.sig, List.length_map]; omega
  have := (compactSize_inj (by rw [l1]; exact f.args.li) (by rw [l2]; have := f.args.lo; omega) e).1
  rw [l1, l2] at this
  exact hl this

/-- C64: SINGLE without a matching output or input is refused, and NONE always. -/
theorem C64_single_refuses (net : Network) (t : DecredTx) (h : t.Built net) (index : Int) (k : Nat)
    (hk : pyIndex index t.txWitnesses.length = some k) (script : Option Bytes) (acp : Bool)
    (hs : DecredTx.signedSize t (t.txIns.map (·.bytes)) (t.txOuts.map (·.bytes)) k (script.getD []) ≤ 100000)
    (ho : pyIndex index t.txOuts.length = none ∨ pyIndex index t.txIns.length = none) :
    t.sighashSingle net index script acp = .error .notImplementedError ∧ t.sighashNone = .error .notImplementedError := by
  refine ⟨?_, rfl⟩
  unfold DecredTx.sighashSingle
  rw [DecredTx.sighashPrep_eq h.facts hk, prepWits_bytes]
  have hs' : (dcrFull t.version (t.txIns.map (·.bytes)) (t.txOuts.map (·.bytes)) t.lockTime t.expiry
    (t.txWitnesses.mapIdx fun j w => dcrWitness w.value w.height w.index (if j = k then script.getD [] else []))).length ≤ 100000 := hs
  rw [if_pos hs', ok_bind, DecredTx.singleOuts_none h.facts.args.net
    (decredObj t.version t.txIns t.txOuts t.lockTime t.expiry (prepWits t.txWitnesses k (script.getD []))) ho, error_bind]

theorem mapIdx_len_congr {α β : Type} {f : Nat → α → Bytes} {g : Nat → β → Bytes} {xs : List α} {ys : List β} (hl : xs.length = ys.length)
    (h : ∀ j (h1 : j < xs.length) (h2 : j < ys.length), (f j xs[j]).length = (g j ys[j]).length) :
    (xs.mapIdx f).flatten.length = (ys.mapIdx g).flatten.length := by
  have : (xs.mapIdx f).map List.length = (ys.mapIdx g).map List.length := by
    apply List.ext_getElem
    · simpa using hl
    · intro j h1 h2
      simp only [List.length_map, List.length_mapIdx] at h1 h2
      simpa using h j h1 h2
  rw [List.length_flatten, List.length_flatten, this]

theorem signedSize_congr {net : Network} {t t' : DecredTx} (h : t.Facts net) (h' : t'.Facts net) (hv : t.version = t'.version)
    (hl : t.lockTime = t'.lockTime) (he : t.expiry = t'.expiry) (hn : t.txWitnesses.length = t'.txWitnesses.length) (ins outs : List Bytes)
    (k : Nat) (s : Bytes) : DecredTx.signedSize t ins outs k s = DecredTx.signedSize t' ins outs k s := by
  unfold DecredTx.signedSize dcrFull vector
  rw [hv, hl, he]
  simp only [List.length_append, List.length_mapIdx, hn]
  congr 2
  apply mapIdx_len_congr hn
  intro j h1 h2
  obtain ⟨a1, a2, a3, -⟩ := (h.wits _ (List.getElem_mem h1)).eq
  obtain ⟨b1, b2, b3, -⟩ := (h'.wits _ (List.getElem_mem h2)).eq
  simp only [dcrWitness, List.length_append, a1, a2, a3, b1, b2, b3]

/-- C64: no signature hash depends on the witnesses already there (only on how many there are). -/
theorem C64_witness_free (net : Network) (t t' : DecredTx) (h : t.Built net) (h' : t'.Built net) (hv : t.version = t'.version)
    (hin : t.txIns = t'.txIns) (hout : t.txOuts = t'.txOuts) (hl : t.lockTime = t'.lockTime) (he : t.expiry = t'.expiry)
    (hn : t.txWitnesses.length = t'.txWitnesses.length) (script : Option Bytes) (acp : Bool) :
    (∀ index : Int, t.sighashAll net index script acp = t'.sighashAll net index script acp) ∧
    (∀ i : Nat, i < t.txWitnesses.length → i < t.txIns.length → i < t.txOuts.length →
      t.sighashSingle net i script acp = t'.sighashSingle net i script acp) := by
  have es : t.sig = t'.sig := by unfold DecredTx.sig; rw [hv, hin, hout, hl, he]
  constructor
  · intro index
    rw [C64_composition net t h, C64_composition net t' h']
    have ew : DecredTx.wirePrefix t = DecredTx.wirePrefix t' := by unfold DecredTx.wirePrefix; rw [hv, hin, hout, hl, he]
    rw [ew, hn, hin, hout, hv]
    cases pyIndex index t'.txWitnesses.length with
    | none => rfl
    | some k => simp only [signedSize_congr h.facts h'.facts hv hl he hn]
  · intro i h1 h2 h3
    rw [C64_single_composition net t h i h1 h2 h3, C64_single_composition net t' h' i (hn ▸ h1) (hin ▸ h2) (hout ▸ h3)]
    rw [signedSize_congr h.facts h'.facts hv hl he hn, signedSize_congr h.facts h'.facts hv hl he hn, es, hin, hout, hn, hv, hl, he]

/-! ### C78 -/

/-- The three pairs of byte strings hashed for two `sighash_all` digests. -/
def dcrPairs (t t' : DecredTx) (k k' : Nat) (s s' : Bytes) (acp acp' : Bool) : List (Bytes × Bytes) :=
  let w := dcrWitnessSigning t.version (dcrSigScripts t.txWitnesses.length k s)
  let w' := dcrWitnessSigning t'.version (dcrSigScripts t'.txWitnesses.length k' s')
  [(leBytes 4 (sigType false acp) ++ blake256 (DecredTx.wirePrefix t) ++ blake256 w,
    leBytes 4 (sigType false acp') ++ blake256 (DecredTx.wirePrefix t') ++ blake256 w'),
   (DecredTx.wirePrefix t, DecredTx.wirePrefix t'), (w, w')]

theorem blake256_length (b : Bytes) : (blake256 b).length = 32 := by unfold blake256; exact Blake.blakeHash_length _

/-- C78: equal `sighash_all` digests mean the same hash type, version, inputs, outputs, lock time, expiry, number of witnesses, and, for a
non-empty script, the same script and index — unless one of the three pairs of hashed strings is a BLAKE-256 collision. -/
theorem C78_all_binds (net : Network) (t t' : DecredTx) (h : t.Built net) (h' : t'.Built net) (i i' : Nat) (script script' : Bytes)
    (acp acp' : Bool) (d : Bytes) (hd : t.sighashAll net i (some script) acp = .ok d) (hd' : t'.sighashAll net i' (some script') acp' = .ok d) :
    (acp = acp' ∧ t.version.take 2 = t'.version.take 2 ∧ t.txIns = t'.txIns ∧ t.txOuts = t'.txOuts ∧ t.lockTime = t'.lockTime ∧
      t.expiry = t'.expiry ∧ t.txWitnesses.length = t'.txWitnesses.length ∧ (script ≠ [] → i = i' ∧ script = script')) ∨
    ∃ p ∈ dcrPairs t t' i i' script script' acp acp', p.1 ≠ p.2 ∧ blake256 p.1 = blake256 p.2 := by
  have f := h.facts
  have f' := h'.facts
  have idx : ∀ {u : DecredTx} (_ : u.Facts net) {j : Nat} {s : Bytes} {a : Bool}, u.sighashAll net j (some s) a = .ok d →
      j < u.txWitnesses.length ∧ s.length ≤ 100000 ∧
      d = blake256 (leBytes 4 (sigType false a) ++ u.txIdLe ++ blake256 (dcrWitnessSigning u.version (dcrSigScripts u.txWitnesses.length j s))) := by
    intro u fu j s a hu
    by_cases c : j < u.txWitnesses.length
    · rw [sighashAll_decred fu (pyIndex_nat c)] at hu
      split at hu
      · rename_i hz
        refine ⟨c, ?_, (Except.ok.inj hu).symm⟩
        have := prep_size (v := u.version) (ins := u.txIns.map (·.bytes)) (outs := u.txOuts.map (·.bytes)) (lt := u.lockTime)
          (ex := u.expiry) c s
        simp only [Option.getD_some] at hz
        omega
      · cases hu
    · unfold DecredTx.sighashAll at hu
      have : pyIndex (j : Int) u.txWitnesses.length = none := by unfold pyIndex; split <;> simp <;> omega
      rw [DecredTx.sighashPrep_index fu this, error_bind] at hu
      cases hu
  obtain ⟨c1, z1, e1⟩ := idx f hd
  obtain ⟨c2, z2, e2⟩ := idx f' hd'
  rw [txIdLe_eq f] at e1
  rw [txIdLe_eq f'] at e2
  by_cases p1 : leBytes 4 (sigType false acp) ++ blake256 (DecredTx.wirePrefix t) ++
      blake256 (dcrWitnessSigning t.version (dcrSigScripts t.txWitnesses.length i script)) =
    leBytes 4 (sigType false acp') ++ blake256 (DecredTx.wirePrefix t') ++
      blake256 (dcrWitnessSigning t'.version (dcrSigScripts t'.txWitnesses.length i' script'))
  · simp only [List.append_assoc] at p1
    obtain ⟨q1, p1⟩ := List.append_inj p1 rfl
    obtain ⟨q2, q3⟩ := List.append_inj p1 (by rw [blake256_length, blake256_length])
    by_cases p2 : DecredTx.wirePrefix t = DecredTx.wirePrefix t'
    · by_cases p3 : dcrWitnessSigning t.version (dcrSigScripts t.txWitnesses.length i script) =
        dcrWitnessSigning t'.version (dcrSigScripts t'.txWitnesses.length i' script')
      · left
        obtain ⟨g1, g2, g3, g4, g5⟩ := prefix_fields f f' p2
        have sl : ∀ (n k : Nat) (s : Bytes), s.length ≤ 100000 → ∀ x ∈ dcrSigScripts n k s, x.length < 2 ^ 64 := by
          intro n k s hs x hx
          obtain ⟨j, -, rfl⟩ := List.mem_map.1 hx
          split
          · omega
          · simp
        obtain ⟨-, g6⟩ := dcrWitnessSigning_inj f.args.v4 f'.args.v4 (sl _ _ _ z1) (sl _ _ _ z2)
          (by simpa [dcrSigScripts] using f.args.lw) (by simpa [dcrSigScripts] using f'.args.lw) p3
        refine ⟨?_, g1, g2, g3, g4, g5, ?_, ?_⟩
        · revert q1; cases acp <;> cases acp' <;> decide
        · simpa [dcrSigScripts] using congrArg List.length g6
        · intro h0
          exact (dcrSigScripts_inj c1 g6 h0).2
      · right; exact ⟨_, by unfold dcrPairs; simp only [List.mem_cons]; right; right; left; rfl, p3, q3⟩
    · right; exact ⟨_, by unfold dcrPairs; simp only [List.mem_cons]; right; left; rfl, p2, q2⟩
  · right; exact ⟨_, by unfold dcrPairs; simp only [List.mem_cons]; left; rfl, p1, by rw [← e1, ← e2]⟩

/-! ### a transaction with two inputs -/

def exDOut : DecredTxOut := ⟨[1, 0, 0, 0, 0, 0, 0, 0], [0, 0], [0x51], 1, dcrOut [1, 0, 0, 0, 0, 0, 0, 0] [0, 0] [0x51]⟩
def exDPoint : DecredOutpoint := ⟨List.replicate 32 7, [1, 0, 0, 0], [0], List.replicate 32 7 ++ [1, 0, 0, 0] ++ [0]⟩
def exDIn : DecredTxIn := ⟨exDPoint, [0xff, 0xff, 0xff, 0xff], exDPoint.bytes ++ [0xff, 0xff, 0xff, 0xff]⟩
def exDWit : DecredInputWitness :=
  ⟨[5, 0, 0, 0, 0, 0, 0, 0], [0, 0, 0, 0], [0, 0, 0, 0], 2, [0x51], [0x52], [0x51, 0x52],
    dcrWitness [5, 0, 0, 0, 0, 0, 0, 0] [0, 0, 0, 0] [0, 0, 0, 0] [0x51, 0x52]⟩
def exDTx (n m : Nat) : DecredTx := decredObj [1, 0, 0, 0] (List.replicate n exDIn) (List.replicate m exDOut) [0, 0, 0, 0] [0, 0, 0, 0]
  (List.replicate n exDWit)

theorem exDTx_built {n m : Nat} (hn : n ∈ [1, 2]) (hm : m ∈ [1, 2]) : (exDTx n m).Built decredMain := by
  refine ⟨_, _, _, _, _, _, ?_, ?_, ?_, DecredTx.make_iff.2 ⟨?_, rfl⟩⟩
  · intro i hi
    rw [(List.mem_replicate.1 hi).2]
    exact ⟨exDPoint, _, ⟨_, _, _, DecredOutpoint.make_iff.2 ⟨by decide +kernel, by decide, by decide, by decide, rfl⟩⟩,
      DecredTxIn.make_iff.2 ⟨by decide +kernel, by decide, by decide, rfl⟩⟩
  · intro i hi
    rw [(List.mem_replicate.1 hi).2]
    exact ⟨_, _, _, DecredTxOut.make_iff.2 ⟨by decide +kernel, by decide, by decide, by decide, rfl⟩⟩
  · intro i hi
    rw [(List.mem_replicate.1 hi).2]
    exact ⟨[5, 0, 0, 0, 0, 0, 0, 0], [0, 0, 0, 0], [0, 0, 0, 0], [0x51], [0x52],
      DecredInputWitness.make_iff.2 ⟨by decide +kernel, by decide, by decide, by decide, by decide, rfl⟩⟩
  · have key : ∀ n ∈ [1, 2], ∀ m ∈ [1, 2], (dcrFull [1, 0, 0, 0] ((List.replicate n exDIn).map (·.bytes))
        ((List.replicate m exDOut).map (·.bytes)) [0, 0, 0, 0] [0, 0, 0, 0] ((List.replicate n exDWit).map (·.bytes))).length ≤ 100000 := by
      decide +kernel
    have hn' : n = 1 ∨ n = 2 := by simpa using hn
    have hm' : m = 1 ∨ m = 2 := by simpa using hm
    refine ⟨by decide +kernel, rfl, rfl, rfl, ?_, ?_, ?_, ?_, ?_, key n hn m hm⟩
    · rcases hn' with rfl | rfl <;> simp
    · rcases hm' with rfl | rfl <;> simp
    · rw [List.length_replicate]; omega
    · rw [List.length_replicate]; omega
    · rw [List.length_replicate]; omega

/-- The hypotheses of the theorems above are met: two inputs, two witnesses, either input signed. -/
example : (exDTx 2 2).Built decredMain ∧ (exDTx 2 2).txWitnesses.length = (exDTx 2 2).txIns.length ∧ 1 < (exDTx 2 2).txIns.length ∧
    (exDTx 2 2).txIns.length ≠ 0 + 1 ∧ (exDTx 2 2).txIns.length = 1 + 1 ∧
    pyIndex 1 (exDTx 2 2).txIns.length = some 1 ∧ pyIndex (-1) (exDTx 2 2).txIns.length = some 1 ∧
    (∀ o ∈ (exDTx 2 2).txOuts.take 1, o.version = [0, 0]) ∧
    pyIndex 1 (exDTx 2 1).txWitnesses.length = some 1 ∧ pyIndex 1 (exDTx 2 1).txOuts.length = none :=
  ⟨exDTx_built (by decide) (by decide), rfl, by decide, by decide, rfl, rfl, rfl, by decide, rfl, rfl⟩

example : DecredTx.signedSize (exDTx 2 2) ((exDTx 2 2).txIns.map (·.bytes)) ((exDTx 2 2).txOuts.map (·.bytes)) 1 [0x51] ≤ 100000 ∧
    DecredTx.signedSize (exDTx 2 2) (dcrSigIns (exDTx 2 2).sig 1 3) (dcrSigOuts (exDTx 2 2).sig 1 3) 1 [0x51] ≤ 100000 ∧
    DecredTx.signedSize (exDTx 1 1) ((exDTx 1 1).txIns.map (·.bytes)) ((exDTx 1 1).txOuts.map (·.bytes)) 0 [0x51] ≤ 100000 := by
  decide +kernel

example : (exDTx 1 1).txWitnesses.length = 1 ∧ (exDTx 1 1).txIns.length = 1 := ⟨rfl, rfl⟩

theorem ok_ne {r : Py Bytes} {s : Bytes} (h : (match r with | .ok d => decide (d ≠ s) | .error _ => false) = true) :
    ∃ d, r = .ok d ∧ d ≠ s := by
  cases r with
  | ok d => exact ⟨d, rfl, by simpa using h⟩
  | error e => cases h

/-- C64, violated: a digest with ANYONECANPAY that is not the Decred signature hash. -/
theorem C64_acp_false_digest :
    ∃ d, (exDTx 2 1).sighashAll decredMain 0 (some [0x51]) true = .ok d ∧ d ≠ dcrSighash blake256 (exDTx 2 1).sig 0 [0x51] 0x81 :=
  ok_ne (by decide +kernel)

/-- C64, violated: a SINGLE digest that is not the Decred signature hash. -/
theorem C64_single_false_digest :
    ∃ d, (exDTx 2 1).sighashSingle decredMain 0 (some [0x51]) false = .ok d ∧ d ≠ dcrSighash blake256 (exDTx 2 1).sig 0 [0x51] 3 :=
  ok_ne (by decide +kernel)

/-! ### C79 -/

/-- C79: on Decred networks the checksum of Base58 strings is the double BLAKE-256 hash and key hashes are RIPEMD-160 of BLAKE-256; on the
other networks SHA-256 takes its place. -/
theorem C79_hashes (E : Env) (hs : E.net.Supported) (hH : E.H.LengthOK) (d pubkey : Bytes) :
    (E.net ∈ [decredMain, decredTest, decredSimnet] → (∃ s, Base58.encode E d = .ok s ∧ IsBase58 (d ++ (blake256 (blake256 d)).take 4) s) ∧
      makeP2pkhOutputScript E pubkey = .ok (p2pkhScript (E.H.rmd160 (blake256 pubkey)))) ∧
    (E.net ∉ [decredMain, decredTest, decredSimnet] →
      (∃ s, Base58.encode E d = .ok s ∧ IsBase58 (d ++ (E.H.sha256 (E.H.sha256 d)).take 4) s) ∧
      makeP2pkhOutputScript E pubkey = .ok (p2pkhScript (E.H.rmd160 (E.H.sha256 pubkey)))) := by
  obtain ⟨s, h1, -, h3⟩ := C16_roundtrip E hH d true
  have hz : ∃ b, serialize E.net [] = .ok b := ⟨_, rfl⟩
  obtain ⟨b, hb⟩ := hz
  have h4 := (C29_templates E hs pubkey [] b hb).1
  constructor
  · intro hn
    have hn' := (C62_decred_networks E.net hs).2 hn
    have e1 : E.hash256 d = blake256 (blake256 d) := by unfold Env.hash256; rw [if_pos hn']
    have e2 : E.hash160 pubkey = E.H.rmd160 (blake256 pubkey) := by unfold Env.hash160; rw [if_pos hn']
    rw [if_pos rfl, e1] at h3
    rw [e2] at h4
    exact ⟨⟨s, h1, h3⟩, h4⟩
  · intro hn
    have hn' : ¬ E.net.isDecred = true := fun h => hn ((C62_decred_networks E.net hs).1 h)
    have e1 : E.hash256 d = E.H.sha256 (E.H.sha256 d) := by unfold Env.hash256; rw [if_neg hn']
    have e2 : E.hash160 pubkey = E.H.rmd160 (E.H.sha256 pubkey) := by unfold Env.hash160; rw [if_neg hn']
    rw [if_pos rfl, e1] at h3
    rw [e2] at h4
    exact ⟨⟨s, h1, h3⟩, h4⟩

example : decredMain ∈ [decredMain, decredTest, decredSimnet] ∧ bitcoinMain ∉ [decredMain, decredTest, decredSimnet] ∧ toyHashes.LengthOK :=
  ⟨by decide +kernel, by decide +kernel, toyHashes_ok⟩

end Verif.Props
