import Verif.Lemmas.Overwinter

namespace Verif
open Spec Props

attribute [local irreducible] Env.hash256

theorem flatten_length_const {l : List Bytes} {N : Nat} (h : ∀ b ∈ l, b.length = N) : l.flatten.length = N * l.length := by
  induction l with
  | nil => rfl
  | cons x xs ih =>
    simp only [List.flatten_cons, List.length_append, List.length_cons]
    rw [h x (by simp), ih (fun j hj => h j (by simp [hj])), Nat.mul_succ]; omega

def hsigsOfS (E : Env) (js : List SaplingJoinsplit) (pk : Bytes) : List Bytes :=
  js.map fun j => hsig E j.randomSeed j.nullifiers pk

def primaryOfS (E : Env) (js : List SaplingJoinsplit) (pk : Bytes) : List Bytes :=
  js.map fun j => primaryInput j.anchor j.nullifiers j.commitments j.vpubOld j.vpubNew (hsig E j.randomSeed j.nullifiers pk) j.vmacs

def saplingBytes (ins : List TxIn) (outs : List TxOut) (lt ex vb : Bytes) (ss : List SaplingShieldedSpend)
    (so : List SaplingShieldedOutput) (js : List SaplingJoinsplit) (pk sig bs : Option Bytes) : Bytes :=
  wireSapling (ins.map (·.bytes)) (outs.map (·.bytes)) lt ex vb (ss.map (·.bytes)) (so.map (·.bytes)) (js.map (·.bytes))
    (pk.getD []) (sig.getD []) (bs.getD [])

def saplingObj (E : Env) (ins : List TxIn) (outs : List TxOut) (lt ex vb : Bytes) (ss : List SaplingShieldedSpend)
    (so : List SaplingShieldedOutput) (js : List SaplingJoinsplit) (pk sig bs : Option Bytes) : SaplingTx :=
  let bytes := saplingBytes ins outs lt ex vb ss so js pk sig bs
  ⟨ins, outs, lt, ex, vb, ss, so, js, if js ≠ [] then pk else none, if js ≠ [] then sig else none, if ss ≠ [] ∨ so ≠ [] then bs else none,
    [0x04, 0x00, 0x00, 0x80], [0x85, 0x20, 0x2f, 0x89],
    hsigsOfS E js (pk.getD []), primaryOfS E js (pk.getD []), E.hash256 bytes, (E.hash256 bytes).reverse, bytes⟩

structure SaplingArgs (E : Env) (ins : List TxIn) (outs : List TxOut) (lt ex vb : Bytes) (ss : List SaplingShieldedSpend)
    (so : List SaplingShieldedOutput) (js : List SaplingJoinsplit) (pk sig bs : Option Bytes) : Prop where
  zc : E.net.isZcash = true
  sp : E.net.isSapling = true
  lt4 : lt.length = 4
  ex4 : ex.length = 4
  vb8 : vb.length = 8
  expiry : le2i ex ≤ 499999999
  balance : ss = [] → so = [] → vb = List.replicate 8 0
  bs64 : ∀ s, bs = some s → s.length = 64
  binding : ss ≠ [] ∨ so ≠ [] → ∃ s, bs = some s
  js5 : js.length ≤ 5
  keys : js ≠ [] → (∃ p, pk = some p ∧ p.length = 32) ∧ ∃ s, sig = some s ∧ s.length = 64
  some : ¬ (js = [] ∧ ins = [] ∧ ss = [])
  li : ins.length < 2 ^ 64
  lo : outs.length < 2 ^ 64
  ls : ss.length < 2 ^ 64
  lso : so.length < 2 ^ 64
  size : (saplingBytes ins outs lt ex vb ss so js pk sig bs).length ≤ 100000

theorem SaplingTx.checkBalance_ok {vb : Bytes} {ss : List SaplingShieldedSpend} {so : List SaplingShieldedOutput} {bs : Option Bytes} {u : Unit} :
    SaplingTx.checkBalance vb ss.length so.length bs = .ok u ↔
      (ss = [] → so = [] → vb = List.replicate 8 0) ∧ ∀ s, bs = some s → s.length = 64 := by
  unfold SaplingTx.checkBalance
  by_cases h : ss.length + so.length = 0 ∧ vb ≠ List.replicate 8 0
  · rw [if_pos h]
    obtain ⟨h1, h2⟩ := h
    have e1 : ss = [] := List.length_eq_zero_iff.1 (by omega)
    have e2 : so = [] := List.length_eq_zero_iff.1 (by omega)
    constructor
    · intro h; cases h
    · rintro ⟨h, -⟩; exact absurd (h e1 e2) h2
  · rw [if_neg h]
    have hb : ss = [] → so = [] → vb = List.replicate 8 0 := by
      rintro rfl rfl
      apply Classical.byContradiction
      intro hh; exact h ⟨rfl, hh⟩
    cases bs with
    | none => exact ⟨fun _ => ⟨hb, fun s hs => by cases hs⟩, fun _ => rfl⟩
    | some s =>
      simp only [validateBytes_ok]
      exact ⟨fun h => ⟨hb, fun s' hs' => by cases hs'; exact h⟩, fun h => h.2 s rfl⟩

theorem SaplingTx.checkJs_ok {js : List SaplingJoinsplit} {pk sig : Option Bytes} {u : Unit} : SaplingTx.checkJs js pk sig = .ok u ↔
    (js ≠ [] → (∃ p, pk = some p ∧ p.length = 32) ∧ ∃ s, sig = some s ∧ s.length = 64) := by
  unfold SaplingTx.checkJs
  cases js with
  | nil => simp
  | cons j js => simp [bind_ok_iff, validateOpt_ok]

theorem SaplingTx.jsPart_eq {js : List SaplingJoinsplit} {pk sig : Option Bytes} (h5 : js.length ≤ 5)
    (h : js ≠ [] → (∃ p, pk = some p ∧ p.length = 32) ∧ ∃ s, sig = some s ∧ s.length = 64) :
    SaplingTx.jsPart js pk sig = .ok (wireJoinsplits (js.map (·.bytes)) (pk.getD []) (sig.getD [])) := by
  unfold SaplingTx.jsPart wireJoinsplits vector
  rw [VarInt.make_len (by omega), ok_bind]
  cases js with
  | nil => simp
  | cons j js =>
    obtain ⟨⟨p, rfl, -⟩, s, rfl, -⟩ := h (by simp)
    simp [appendOpt, List.flatMap_def, ok_bind]

theorem SaplingTx.bindingPart_ok {ss : List SaplingShieldedSpend} {so : List SaplingShieldedOutput} {bs : Option Bytes} {x : Bytes} :
    SaplingTx.bindingPart ss.length so.length bs = .ok x ↔ (ss ≠ [] ∨ so ≠ [] → ∃ s, bs = some s) ∧
      x = if ss.map (·.bytes) = [] ∧ so.map (·.bytes) = [] then [] else bs.getD [] := by
  unfold SaplingTx.bindingPart
  by_cases h : ss = [] ∧ so = []
  · obtain ⟨rfl, rfl⟩ := h
    simp [eq_comm]
  · have : so.length + ss.length ≠ 0 := by
      intro h'
      exact h ⟨List.length_eq_zero_iff.1 (by omega), List.length_eq_zero_iff.1 (by omega)⟩
    rw [if_pos this]
    have h2 : ss ≠ [] ∨ so ≠ [] := by
      by_cases c : ss = []
      · exact .inr fun h' => h ⟨c, h'⟩
      · exact .inl c
    cases bs with
    | none => simp [appendOpt, h2]
    | some s =>
      have h3 : ¬ (ss.map (·.bytes) = [] ∧ so.map (·.bytes) = []) := by simpa only [List.map_eq_nil_iff] using h
      rw [if_neg h3]
      exact ⟨fun e => by cases e; exact ⟨fun _ => ⟨_, rfl⟩, rfl⟩, fun e => by rw [e.2]; rfl⟩

theorem saplingBytes_eq (ins : List TxIn) (outs : List TxOut) (lt ex vb : Bytes) (ss : List SaplingShieldedSpend)
    (so : List SaplingShieldedOutput) (js : List SaplingJoinsplit) (pk sig bs : Option Bytes) :
    [0x04, 0x00, 0x00, 0x80] ++ [0x85, 0x20, 0x2f, 0x89] ++ compactSize ins.length ++ ins.flatMap (·.bytes) ++ compactSize outs.length
      ++ outs.flatMap (·.bytes) ++ lt ++ ex ++ vb ++ compactSize ss.length ++ ss.flatMap (·.bytes) ++ compactSize so.length
      ++ so.flatMap (·.bytes) ++ wireJoinsplits (js.map (·.bytes)) (pk.getD []) (sig.getD [])
      ++ (if ss.map (·.bytes) = [] ∧ so.map (·.bytes) = [] then [] else bs.getD []) =
      saplingBytes ins outs lt ex vb ss so js pk sig bs := by
  simp [saplingBytes, wireSapling, vector, List.flatMap_def]

theorem SaplingTx.make_iff {E : Env} {ins : List TxIn} {outs : List TxOut} {lt ex vb : Bytes} {ss : List SaplingShieldedSpend}
    {so : List SaplingShieldedOutput} {js : List SaplingJoinsplit} {pk sig bs : Option Bytes} {t : SaplingTx} :
    SaplingTx.make E ins outs lt ex vb ss so js pk sig bs = .ok t ↔
      SaplingArgs E ins outs lt ex vb ss so js pk sig bs ∧ t = saplingObj E ins outs lt ex vb ss so js pk sig bs := by
  have hss : (so.length + ss.length ≠ 0) = (ss ≠ [] ∨ so ≠ []) := by
    apply propext
    rw [ne_eq, Nat.add_eq_zero_iff, List.length_eq_zero_iff, List.length_eq_zero_iff]
    constructor
    · intro h
      by_cases c : ss = []
      · exact .inr fun h' => h ⟨h', c⟩
      · exact .inl c
    · rintro (h | h) ⟨h1, h2⟩
      · exact h h2
      · exact h h1
  constructor
  · intro h
    unfold SaplingTx.make at h
    simp only [bind_ok_iff, zcashGate_ok, check_eq_ok, validateBytes_ok, exists_const, VarInt.make_len_iff, SaplingTx.checkJs_ok,
      SaplingTx.checkBalance_ok, Nat.not_lt, gt_iff_lt, SaplingTx.bindingPart_ok] at h
    obtain ⟨h1, h2, h3, h4, h4', h5, ⟨hb1, hb2⟩, h6, h7, h8, ni, ⟨h9, rfl⟩, no, ⟨h10, rfl⟩, ns, ⟨h9s, rfl⟩, nso, ⟨h10s, rfl⟩, p, h11, b,
      ⟨hb, rfl⟩, h12, h13⟩ := h
    rw [SaplingTx.jsPart_eq h6 h7] at h11
    cases h11
    simp only [saplingBytes_eq] at h12 h13
    refine ⟨⟨h1, h2, h3, h4, h4', h5, hb1, hb2, hb, h6, h7, ?_, h9, h10, h9s, h10s, h12⟩, ?_⟩
    · rintro ⟨rfl, rfl, rfl⟩; exact h8 rfl
    cases h13
    simp only [hss, saplingObj]
    cases js with
    | nil => simp [changeEndianness, hsigsOfS, primaryOfS]
    | cons j js => simp [changeEndianness, hsigsOfS, primaryOfS, zipWith_map_self]
  · rintro ⟨h, rfl⟩
    have c1 : SaplingTx.checkJs js pk sig = .ok () := SaplingTx.checkJs_ok.2 h.keys
    have c2 : SaplingTx.checkBalance vb ss.length so.length bs = .ok () := SaplingTx.checkBalance_ok.2 ⟨h.balance, h.bs64⟩
    have c3 := SaplingTx.bindingPart_ok.2 ⟨h.binding, rfl⟩
    have e1 := h.expiry
    have e2 := h.js5
    have e3 := h.size
    unfold SaplingTx.make zcashGate
    rw [SaplingTx.jsPart_eq h.js5 h.keys, c3]
    simp only [check_bind, validateBytes_eq, if_pos h.zc, if_pos h.sp, if_pos h.lt4, if_pos h.ex4, if_pos h.vb8, ok_bind, VarInt.make_len h.li,
      VarInt.make_len h.lo, VarInt.make_len h.ls, VarInt.make_len h.lso, c1, c2, saplingBytes_eq]
    have hsm : js.length + ins.length + ss.length ≠ 0 := by
      intro hh
      exact h.some ⟨List.length_eq_zero_iff.1 (by omega), List.length_eq_zero_iff.1 (by omega), List.length_eq_zero_iff.1 (by omega)⟩
    rw [if_pos (by omega), if_pos (by omega), if_pos hsm, if_pos (by omega)]
    simp only [hss, saplingObj]
    cases js with
    | nil => simp [changeEndianness, hsigsOfS, primaryOfS]
    | cons j js => simp [changeEndianness, hsigsOfS, primaryOfS, zipWith_map_self]

/-- With a binding signature, or nothing shielded, the only exception is ValueError. -/
theorem SaplingTx.make_ve (E : Env) (ins : List TxIn) (outs : List TxOut) (lt ex vb : Bytes) (ss : List SaplingShieldedSpend)
    (so : List SaplingShieldedOutput) (js : List SaplingJoinsplit) (pk sig bs : Option Bytes)
    (hb : ss ≠ [] ∨ so ≠ [] → ∃ s, bs = some s) : OnlyVE (SaplingTx.make E ins outs lt ex vb ss so js pk sig bs) := by
  unfold SaplingTx.make
  refine (OnlyVE.gate _).bind fun _ => (OnlyVE.check _).bind fun _ => (OnlyVE.validate _ _).bind fun _ => (OnlyVE.validate _ _).bind fun _ =>
    (OnlyVE.validate _ _).bind fun _ => (OnlyVE.check _).bind fun _ => OnlyVE.bind ?_ fun _ => OnlyVE.bind' (OnlyVE.check _) fun _ h5 =>
    OnlyVE.bind' ?_ fun _ h6 => (OnlyVE.check _).bind fun _ => (OnlyVE.varint _).bind fun _ => (OnlyVE.varint _).bind fun _ =>
    (OnlyVE.varint _).bind fun _ => (OnlyVE.varint _).bind fun _ =>
    OnlyVE.bind ?_ fun _ => OnlyVE.bind ?_ fun _ => (OnlyVE.check _).bind fun _ => OnlyVE.ok _
  · unfold SaplingTx.checkBalance
    split
    · intro e he; cases he; rfl
    · cases bs with
      | none => exact OnlyVE.ok _
      | some s => exact OnlyVE.validate _ _
  · unfold SaplingTx.checkJs
    split
    · exact (OnlyVE.validateOpt _ _).bind fun _ => OnlyVE.validateOpt _ _
    · exact OnlyVE.ok _
  · have := check_eq_ok.1 h5
    rw [SaplingTx.jsPart_eq (by omega) (SaplingTx.checkJs_ok.1 h6)]
    exact OnlyVE.ok _
  · rw [SaplingTx.bindingPart_ok.2 ⟨hb, rfl⟩]
    exact OnlyVE.ok _

def SaplingTx.Built (E : Env) (t : SaplingTx) : Prop := ∃ ins outs lt ex vb ss so js pk sig bs, (∀ i ∈ ins, TxIn.Built i) ∧
  (∀ o ∈ outs, TxOut.Built o) ∧ (∀ x ∈ ss, SaplingShieldedSpend.Built E.net x) ∧ (∀ x ∈ so, SaplingShieldedOutput.Built E.net x) ∧
  (∀ j ∈ js, SaplingJoinsplit.Built E.net j) ∧ SaplingTx.make E ins outs lt ex vb ss so js pk sig bs = .ok t

structure SaplingTx.Facts (E : Env) (t : SaplingTx) : Prop where
  ins : ∀ i ∈ t.txIns, i.Built
  outs : ∀ o ∈ t.txOuts, o.Built
  ss : ∀ x ∈ t.txShieldedSpends, x.Built E.net
  so : ∀ x ∈ t.txShieldedOutputs, x.Built E.net
  js : ∀ j ∈ t.txJoinsplits, j.Built E.net
  args : SaplingArgs E t.txIns t.txOuts t.lockTime t.expiryHeight t.valueBalance t.txShieldedSpends t.txShieldedOutputs t.txJoinsplits
    t.joinsplitPubkey t.joinsplitSig t.bindingSig
  obj : t = saplingObj E t.txIns t.txOuts t.lockTime t.expiryHeight t.valueBalance t.txShieldedSpends t.txShieldedOutputs t.txJoinsplits
    t.joinsplitPubkey t.joinsplitSig t.bindingSig

theorem saplingBytes_norm (ins : List TxIn) (outs : List TxOut) (lt ex vb : Bytes) (ss : List SaplingShieldedSpend)
    (so : List SaplingShieldedOutput) (js : List SaplingJoinsplit) (pk sig bs : Option Bytes) :
    saplingBytes ins outs lt ex vb ss so js (if js ≠ [] then pk else none) (if js ≠ [] then sig else none)
      (if ss ≠ [] ∨ so ≠ [] then bs else none) = saplingBytes ins outs lt ex vb ss so js pk sig bs := by
  have h1 : wireJoinsplits (js.map (·.bytes)) ((if js ≠ [] then pk else none).getD []) ((if js ≠ [] then sig else none).getD []) =
      wireJoinsplits (js.map (·.bytes)) (pk.getD []) (sig.getD []) := by
    cases js <;> simp [wireJoinsplits]
  have h2 : (if ss.map (·.bytes) = [] ∧ so.map (·.bytes) = [] then [] else (if ss ≠ [] ∨ so ≠ [] then bs else none).getD []) =
      (if ss.map (·.bytes) = [] ∧ so.map (·.bytes) = [] then [] else bs.getD []) := by
    cases ss <;> cases so <;> simp
  simp only [saplingBytes, wireSapling, h1, h2]

theorem hsigsOfS_norm (E : Env) (js : List SaplingJoinsplit) (pk : Option Bytes) :
    hsigsOfS E js ((if js ≠ [] then pk else none).getD []) = hsigsOfS E js (pk.getD []) := by
  cases js <;> simp [hsigsOfS]

theorem primaryOfS_norm (E : Env) (js : List SaplingJoinsplit) (pk : Option Bytes) :
    primaryOfS E js ((if js ≠ [] then pk else none).getD []) = primaryOfS E js (pk.getD []) := by
  cases js <;> simp [primaryOfS]

/-- The object does not depend on keys and signatures it does not need. -/
theorem saplingObj_norm (E : Env) (ins : List TxIn) (outs : List TxOut) (lt ex vb : Bytes) (ss : List SaplingShieldedSpend)
    (so : List SaplingShieldedOutput) (js : List SaplingJoinsplit) (pk sig bs : Option Bytes) :
    saplingObj E ins outs lt ex vb ss so js (if js ≠ [] then pk else none) (if js ≠ [] then sig else none)
      (if ss ≠ [] ∨ so ≠ [] then bs else none) = saplingObj E ins outs lt ex vb ss so js pk sig bs := by
  simp only [saplingObj, saplingBytes_norm, hsigsOfS_norm, primaryOfS_norm]
  have h1 : ∀ x : Option Bytes, (if js ≠ [] then (if js ≠ [] then x else none) else none) = if js ≠ [] then x else none := by
    intro x; split <;> rfl
  have h2 : ∀ x : Option Bytes, (if ss ≠ [] ∨ so ≠ [] then (if ss ≠ [] ∨ so ≠ [] then x else none) else none) =
      if ss ≠ [] ∨ so ≠ [] then x else none := by
    intro x; split <;> rfl
  rw [h1, h1, h2]

theorem SaplingArgs.norm {E : Env} {ins : List TxIn} {outs : List TxOut} {lt ex vb : Bytes} {ss : List SaplingShieldedSpend}
    {so : List SaplingShieldedOutput} {js : List SaplingJoinsplit} {pk sig bs : Option Bytes}
    (h : SaplingArgs E ins outs lt ex vb ss so js pk sig bs) :
    SaplingArgs E ins outs lt ex vb ss so js (if js ≠ [] then pk else none) (if js ≠ [] then sig else none)
      (if ss ≠ [] ∨ so ≠ [] then bs else none) := by
  obtain ⟨zc, sp, lt4, ex4, vb8, ep, bal, bs64, bind, js5, keys, sm, li, lo, ls, lso, size⟩ := h
  refine ⟨zc, sp, lt4, ex4, vb8, ep, bal, ?_, ?_, js5, ?_, sm, li, lo, ls, lso, by rw [saplingBytes_norm]; exact size⟩
  · intro s hs
    split at hs
    · exact bs64 s hs
    · cases hs
  · intro h; rw [if_pos h]; exact bind h
  · intro h; rw [if_pos h, if_pos h]; exact keys h

theorem SaplingTx.Built.facts {E : Env} {t : SaplingTx} (h : t.Built E) : t.Facts E := by
  obtain ⟨ins, outs, lt, ex, vb, ss, so, js, pk, sig, bs, hi, ho, hs, hso, hj, h⟩ := h
  obtain ⟨ha, rfl⟩ := SaplingTx.make_iff.1 h
  refine ⟨hi, ho, hs, hso, hj, ha.norm, ?_⟩
  exact (saplingObj_norm ..).symm

theorem SaplingTx.Facts.bytes {E : Env} {t : SaplingTx} (h : t.Facts E) :
    t.bytes = saplingBytes t.txIns t.txOuts t.lockTime t.expiryHeight t.valueBalance t.txShieldedSpends t.txShieldedOutputs t.txJoinsplits
      t.joinsplitPubkey t.joinsplitSig t.bindingSig := congrArg SaplingTx.bytes h.obj

end Verif
