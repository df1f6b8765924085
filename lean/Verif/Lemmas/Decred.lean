import Verif.Lemmas.Sighash
import Verif.Lemmas.Sprout
import Verif.Model.Decred
import Verif.Spec.Decred

namespace Verif
open Spec Props

theorem decredGate_ok {net : Network} {u : Unit} : decredGate net = .ok u ↔ net.isDecred = true := by
  unfold decredGate; exact check_eq_ok

/-! ### components -/

theorem DecredOutpoint.make_iff {net : Network} {a b c : Bytes} {o : DecredOutpoint} : DecredOutpoint.make net a b c = .ok o ↔
    net.isDecred = true ∧ a.length = 32 ∧ b.length = 4 ∧ c.length = 1 ∧ o = ⟨a, b, c, a ++ b ++ c⟩ := by
  unfold DecredOutpoint.make
  simp only [bind_ok_iff, decredGate_ok, validateBytes_ok, exists_const, Except.ok.injEq, eq_comm (a := o)]

theorem DecredTxIn.make_iff {net : Network} {o : DecredOutpoint} {sq : Bytes} {t : DecredTxIn} : DecredTxIn.make net o sq = .ok t ↔
    net.isDecred = true ∧ o.bytes.length = 37 ∧ sq.length = 4 ∧ t = ⟨o, sq, o.bytes ++ sq⟩ := by
  unfold DecredTxIn.make
  simp only [bind_ok_iff, decredGate_ok, validateBytes_ok, exists_const, Except.ok.injEq, eq_comm (a := t)]

theorem DecredTxOut.make_iff {net : Network} {v r s : Bytes} {t : DecredTxOut} : DecredTxOut.make net v r s = .ok t ↔
    net.isDecred = true ∧ v.length = 8 ∧ r.length = 2 ∧ s.length < 2 ^ 64 ∧ t = ⟨v, r, s, s.length, dcrOut v r s⟩ := by
  unfold DecredTxOut.make
  simp only [bind_ok_iff, decredGate_ok, validateBytes_ok, validateBytes_none, exists_const, VarInt.make_len_iff, Except.ok.injEq,
    eq_comm (a := t), dcrOut, varBytes]
  constructor
  · rintro ⟨h1, h2, h3, -, n, ⟨h4, rfl⟩, rfl⟩; simp [h1, h2, h3, h4]
  · rintro ⟨h1, h2, h3, h4, rfl⟩; exact ⟨h1, h2, h3, trivial, _, ⟨h4, rfl⟩, by simp⟩

theorem DecredInputWitness.make_iff {net : Network} {v h i s r : Bytes} {t : DecredInputWitness} :
    DecredInputWitness.make net v h i s r = .ok t ↔
    net.isDecred = true ∧ v.length = 8 ∧ h.length = 4 ∧ i.length = 4 ∧ s.length + r.length < 2 ^ 64 ∧
      t = ⟨v, h, i, (s ++ r).length, s, r, s ++ r, dcrWitness v h i (s ++ r)⟩ := by
  unfold DecredInputWitness.make
  simp only [bind_ok_iff, decredGate_ok, validateBytes_ok, validateBytes_none, exists_const, VarInt.make_len_iff, Except.ok.injEq,
    eq_comm (a := t), dcrWitness, varBytes]
  constructor
  · rintro ⟨h1, h2, h3, h4, -, -, n, ⟨h5, rfl⟩, rfl⟩; simp [h1, h2, h3, h4, h5]
  · rintro ⟨h1, h2, h3, h4, h5, rfl⟩; exact ⟨h1, h2, h3, h4, trivial, trivial, _, ⟨h5, rfl⟩, by simp⟩

def DecredOutpoint.Built (net : Network) (o : DecredOutpoint) : Prop := ∃ a b c, DecredOutpoint.make net a b c = .ok o
def DecredTxIn.Built (net : Network) (t : DecredTxIn) : Prop := ∃ o sq, o.Built net ∧ DecredTxIn.make net o sq = .ok t
def DecredTxOut.Built (net : Network) (t : DecredTxOut) : Prop := ∃ v r s, DecredTxOut.make net v r s = .ok t
def DecredInputWitness.Built (net : Network) (t : DecredInputWitness) : Prop := ∃ v h i s r, DecredInputWitness.make net v h i s r = .ok t

theorem DecredOutpoint.Built.eq {net : Network} {o : DecredOutpoint} (h : o.Built net) :
    o.txId.length = 32 ∧ o.index.length = 4 ∧ o.tree.length = 1 ∧ o = ⟨o.txId, o.index, o.tree, o.txId ++ o.index ++ o.tree⟩ := by
  obtain ⟨a, b, c, h⟩ := h
  obtain ⟨-, h1, h2, h3, rfl⟩ := DecredOutpoint.make_iff.1 h
  exact ⟨h1, h2, h3, rfl⟩

theorem DecredOutpoint.Built.length {net : Network} {o : DecredOutpoint} (h : o.Built net) : o.bytes.length = 37 := by
  obtain ⟨h1, h2, h3, h4⟩ := h.eq
  rw [h4]; simp [h1, h2, h3]

theorem DecredTxIn.Built.eq {net : Network} {t : DecredTxIn} (h : t.Built net) :
    t.outpoint.Built net ∧ t.sequence.length = 4 ∧ t = ⟨t.outpoint, t.sequence, t.outpoint.bytes ++ t.sequence⟩ := by
  obtain ⟨o, sq, ho, h⟩ := h
  obtain ⟨-, h1, h2, rfl⟩ := DecredTxIn.make_iff.1 h
  exact ⟨ho, h2, rfl⟩

theorem DecredTxIn.Built.wire {net : Network} {t : DecredTxIn} (h : t.Built net) :
    t.bytes = dcrIn t.outpoint.txId t.outpoint.index t.outpoint.tree t.sequence := by
  obtain ⟨h1, h2, h3⟩ := h.eq
  obtain ⟨-, -, -, h4⟩ := h1.eq
  rw [congrArg DecredTxIn.bytes h3]
  show t.outpoint.bytes ++ _ = _
  rw [congrArg DecredOutpoint.bytes h4]; rfl

theorem DecredTxIn.Built.length {net : Network} {t : DecredTxIn} (h : t.Built net) : t.bytes.length = 41 := by
  obtain ⟨h1, h2, h3⟩ := h.eq
  rw [h3]; simp [h1.length, h2]

theorem DecredTxOut.Built.eq {net : Network} {t : DecredTxOut} (h : t.Built net) :
    t.value.length = 8 ∧ t.version.length = 2 ∧ t.outputScript.length < 2 ^ 64 ∧
      t = ⟨t.value, t.version, t.outputScript, t.outputScript.length, dcrOut t.value t.version t.outputScript⟩ := by
  obtain ⟨v, r, s, h⟩ := h
  obtain ⟨-, h1, h2, h3, rfl⟩ := DecredTxOut.make_iff.1 h
  exact ⟨h1, h2, h3, rfl⟩

theorem DecredTxOut.Built.wire {net : Network} {t : DecredTxOut} (h : t.Built net) : t.bytes = dcrOut t.value t.version t.outputScript :=
  congrArg DecredTxOut.bytes h.eq.2.2.2

theorem DecredInputWitness.Built.eq {net : Network} {t : DecredInputWitness} (h : t.Built net) :
    t.value.length = 8 ∧ t.height.length = 4 ∧ t.index.length = 4 ∧ t.stackScript.length + t.redeemScript.length < 2 ^ 64 ∧
      t = ⟨t.value, t.height, t.index, (t.stackScript ++ t.redeemScript).length, t.stackScript, t.redeemScript,
        t.stackScript ++ t.redeemScript, dcrWitness t.value t.height t.index (t.stackScript ++ t.redeemScript)⟩ := by
  obtain ⟨v, i, j, s, r, h⟩ := h
  obtain ⟨-, h1, h2, h3, h4, rfl⟩ := DecredInputWitness.make_iff.1 h
  exact ⟨h1, h2, h3, h4, rfl⟩

theorem DecredInputWitness.Built.script {net : Network} {t : DecredInputWitness} (h : t.Built net) :
    t.scriptSig = t.stackScript ++ t.redeemScript ∧ t.scriptLen = t.scriptSig.length ∧ t.scriptSig.length < 2 ^ 64 := by
  obtain ⟨-, -, -, h4, h5⟩ := h.eq
  have e1 := congrArg DecredInputWitness.scriptSig h5
  have e2 := congrArg DecredInputWitness.scriptLen h5
  refine ⟨e1, ?_, ?_⟩
  · rw [e1]; exact e2
  · rw [e1]; simpa using h4

theorem DecredInputWitness.Built.wire {net : Network} {t : DecredInputWitness} (h : t.Built net) :
    t.bytes = dcrWitness t.value t.height t.index t.scriptSig := by
  rw [h.script.1]; exact congrArg DecredInputWitness.bytes h.eq.2.2.2.2

/-! ### DecredTx -/

def decredObj (v : Bytes) (ins : List DecredTxIn) (outs : List DecredTxOut) (lt ex : Bytes) (ws : List DecredInputWitness) : DecredTx :=
  let pre := dcrPrefix v (ins.map (·.bytes)) (outs.map (·.bytes)) lt ex
  ⟨v, ins, outs, lt, ex, ws, blake256 pre, (blake256 pre).reverse,
    dcrFull v (ins.map (·.bytes)) (outs.map (·.bytes)) lt ex (ws.map (·.bytes))⟩

structure DecredArgs (net : Network) (v : Bytes) (ins : List DecredTxIn) (outs : List DecredTxOut) (lt ex : Bytes)
    (ws : List DecredInputWitness) : Prop where
  net : net.isDecred = true
  v4 : v.length = 4
  lt4 : lt.length = 4
  ex4 : ex.length = 4
  ins0 : ins ≠ []
  outs0 : outs ≠ []
  li : ins.length < 2 ^ 64
  lo : outs.length < 2 ^ 64
  lw : ws.length < 2 ^ 64
  size : (dcrFull v (ins.map (·.bytes)) (outs.map (·.bytes)) lt ex (ws.map (·.bytes))).length ≤ 100000

theorem DecredTx.prefixOf_eq {net : Network} (hn : net.isDecred = true) (v : Bytes) {ins : List DecredTxIn} {outs : List DecredTxOut}
    (lt ex : Bytes) (li : ins.length < 2 ^ 64) (lo : outs.length < 2 ^ 64) : DecredTx.prefixOf net v ins outs lt ex =
      .ok (dcrPrefix v (ins.map (·.bytes)) (outs.map (·.bytes)) lt ex) := by
  unfold DecredTx.prefixOf decredGate
  simp only [check_bind, if_pos hn, VarInt.make_len li, VarInt.make_len lo, ok_bind]
  have e : leBytes 2 1 = [0x01, 0x00] := by decide
  simp [dcrPrefix, vector, List.flatMap_def, e, slice]

theorem decredBytes_eq (v : Bytes) (ins : List DecredTxIn) (outs : List DecredTxOut) (lt ex : Bytes) (ws : List DecredInputWitness) :
    v ++ compactSize ins.length ++ ins.flatMap (·.bytes) ++ compactSize outs.length ++ outs.flatMap (·.bytes) ++ lt ++ ex
      ++ compactSize ws.length ++ ws.flatMap (·.bytes) =
    dcrFull v (ins.map (·.bytes)) (outs.map (·.bytes)) lt ex (ws.map (·.bytes)) := by
  simp [dcrFull, vector, List.flatMap_def]

theorem min_ne_zero {α β : Type} (a : List α) (b : List β) : ¬ min a.length b.length = 0 ↔ a ≠ [] ∧ b ≠ [] := by
  cases a <;> cases b <;> simp <;> omega

theorem DecredTx.make_iff {net : Network} {v : Bytes} {ins : List DecredTxIn} {outs : List DecredTxOut} {lt ex : Bytes}
    {ws : List DecredInputWitness} {t : DecredTx} : DecredTx.make net v ins outs lt ex ws = .ok t ↔
      DecredArgs net v ins outs lt ex ws ∧ t = decredObj v ins outs lt ex ws := by
  constructor
  · intro h
    unfold DecredTx.make at h
    simp only [bind_ok_iff, decredGate_ok, check_eq_ok, validateBytes_ok, exists_const, VarInt.make_len_iff, min_ne_zero,
      Nat.not_lt, gt_iff_lt] at h
    obtain ⟨h1, h2, h3, h4, h5, ni, ⟨h6, rfl⟩, no, ⟨h7, rfl⟩, nw, ⟨h8, rfl⟩, h9, p, h10, h11⟩ := h
    rw [DecredTx.prefixOf_eq h1 _ _ _ h6 h7] at h10
    cases h10
    simp only [decredBytes_eq] at h9 h11
    refine ⟨⟨h1, h2, h3, h4, h5.1, h5.2, h6, h7, h8, h9⟩, ?_⟩
    cases h11; rfl
  · rintro ⟨h, rfl⟩
    have hs := h.size
    unfold DecredTx.make decredGate
    simp only [check_bind, validateBytes_eq, if_pos h.net, if_pos h.v4, if_pos h.lt4, if_pos h.ex4, ok_bind, VarInt.make_len h.li,
      VarInt.make_len h.lo, VarInt.make_len h.lw, decredBytes_eq, DecredTx.prefixOf_eq h.net _ _ _ h.li h.lo]
    rw [if_pos ((min_ne_zero _ _).2 ⟨h.ins0, h.outs0⟩), if_pos (by omega)]
    rfl

theorem DecredTx.make_ve (net : Network) (v : Bytes) (ins : List DecredTxIn) (outs : List DecredTxOut) (lt ex : Bytes)
    (ws : List DecredInputWitness) : OnlyVE (DecredTx.make net v ins outs lt ex ws) := by
  unfold DecredTx.make DecredTx.prefixOf decredGate
  exact (OnlyVE.check _).bind fun _ => (OnlyVE.validate _ _).bind fun _ => (OnlyVE.validate _ _).bind fun _ =>
    (OnlyVE.validate _ _).bind fun _ => (OnlyVE.check _).bind fun _ => (OnlyVE.varint _).bind fun _ => (OnlyVE.varint _).bind fun _ =>
    (OnlyVE.varint _).bind fun _ => (OnlyVE.check _).bind fun _ => ((OnlyVE.check _).bind fun _ => (OnlyVE.varint _).bind fun _ =>
    (OnlyVE.varint _).bind fun _ => OnlyVE.ok _).bind fun _ => OnlyVE.ok _

def DecredTx.Built (net : Network) (t : DecredTx) : Prop := ∃ v ins outs lt ex ws, (∀ i ∈ ins, DecredTxIn.Built net i) ∧
  (∀ o ∈ outs, DecredTxOut.Built net o) ∧ (∀ w ∈ ws, DecredInputWitness.Built net w) ∧ DecredTx.make net v ins outs lt ex ws = .ok t

structure DecredTx.Facts (net : Network) (t : DecredTx) : Prop where
  ins : ∀ i ∈ t.txIns, i.Built net
  outs : ∀ o ∈ t.txOuts, o.Built net
  wits : ∀ w ∈ t.txWitnesses, w.Built net
  args : DecredArgs net t.version t.txIns t.txOuts t.lockTime t.expiry t.txWitnesses
  obj : t = decredObj t.version t.txIns t.txOuts t.lockTime t.expiry t.txWitnesses

theorem DecredTx.Built.facts {net : Network} {t : DecredTx} (h : t.Built net) : t.Facts net := by
  obtain ⟨v, ins, outs, lt, ex, ws, h1, h2, h3, h⟩ := h
  obtain ⟨ha, rfl⟩ := DecredTx.make_iff.1 h
  exact ⟨h1, h2, h3, ha, rfl⟩

theorem DecredTx.Facts.built {net : Network} {t : DecredTx} (h : t.Facts net) : t.Built net :=
  ⟨_, _, _, _, _, _, h.ins, h.outs, h.wits, DecredTx.make_iff.2 ⟨h.args, h.obj⟩⟩

end Verif
