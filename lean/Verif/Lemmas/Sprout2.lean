import Verif.Lemmas.Sprout
import Verif.Lemmas.Sighash

namespace Verif
open Spec Props

attribute [local irreducible] Env.hash256

/-- A vector whose elements parse back, in the middle of bytes. -/
theorem parseVec {α : Type} {net : Network} {f : Bytes → Py α} {bytes : α → Bytes} (xs : List α)
    (hf : ∀ x ∈ xs, ∀ rest, f (bytes x ++ rest) = .ok x) (hl : xs.length < 2 ^ 64) (hz : LenOK net xs.length) (pre rest : Bytes) :
    VarInt.fromBytes net ((pre ++ (vector (xs.map bytes) ++ rest)).drop pre.length) = .ok ⟨compactSize xs.length, xs.length⟩ ∧
    parseMany f (fun x => (bytes x).length) (pre ++ (vector (xs.map bytes) ++ rest)) xs.length (pre.length + (compactSize xs.length).length) =
      .ok (xs, pre.length + (vector (xs.map bytes)).length) := by
  constructor
  · rw [List.drop_left, vector, List.append_assoc, List.length_map, VarInt.fromBytes_len hl hz]
  · have := parseMany_bytes_eq xs hf (pre ++ compactSize xs.length) rest
    simp only [vector, List.append_assoc, List.length_map, List.length_append] at this ⊢
    rw [this]
    simp [Nat.add_assoc]

theorem slice_at {a b c : Bytes} {i j : Nat} (h1 : a.length = i) (h2 : a.length + b.length = j) : slice (a ++ (b ++ c)) i j = b := by
  exact slice_mid a b c i j h1 (h1 ▸ h2)

/-- Constructed Sprout transactions. -/
def SproutTx.Built (E : Env) (t : SproutTx) : Prop := ∃ v ins outs lt js pk sig, (∀ i ∈ ins, TxIn.Built i) ∧ (∀ o ∈ outs, TxOut.Built o) ∧
  (∀ j ∈ js.getD [], SproutJoinsplit.Built E.net j) ∧ SproutTx.make E v ins outs lt js pk sig = .ok t

structure SproutTx.Facts (E : Env) (t : SproutTx) : Prop where
  ins : ∀ i ∈ t.txIns, i.Built
  outs : ∀ o ∈ t.txOuts, o.Built
  js : ∀ j ∈ t.txJoinsplits, j.Built E.net
  args : SproutArgs E t.version t.txIns t.txOuts t.lockTime (some t.txJoinsplits) t.joinsplitPubkey t.joinsplitSig
  obj : t = sproutObj E t.version t.txIns t.txOuts t.lockTime t.txJoinsplits t.joinsplitPubkey t.joinsplitSig

theorem sproutBytes_v1 {v : Bytes} (h : v = v1) (ins outs : List Bytes) (lt : Bytes) (js : List Bytes) (pk sig : Bytes) :
    sproutBytes v ins outs lt js pk sig = wireLegacy v ins outs lt := by
  unfold sproutBytes; rw [if_neg (by rw [h]; decide), List.append_nil]

theorem sproutBytes_v2 {v : Bytes} (h : v = v2) (ins outs : List Bytes) (lt : Bytes) (js : List Bytes) (pk sig : Bytes) :
    sproutBytes v ins outs lt js pk sig = wireLegacy v ins outs lt ++ (vector js ++ (pk ++ sig)) := by
  unfold sproutBytes; rw [if_pos h]

theorem SproutTx.Built.facts {E : Env} {t : SproutTx} (h : t.Built E) : t.Facts E := by
  obtain ⟨v, ins, outs, lt, js, pk, sig, hi, ho, hj, h⟩ := h
  obtain ⟨ha, rfl⟩ := SproutTx.make_iff.1 h
  have ha' := ha
  obtain ⟨zc, sp, v4, lt4, ver, li, lo, size⟩ := ha
  rcases ver with ⟨e, rfl, h5⟩ | ⟨e, ⟨l, rfl, h5⟩, ⟨p, rfl, h6⟩, s, rfl, h7⟩
  · have e2 : ¬ v = v2 := by rw [e]; decide
    rw [sproutBytes_v1 e] at size
    refine ⟨hi, ho, hj, ⟨zc, sp, v4, lt4, .inl ⟨e, rfl, h5⟩, li, lo, ?_⟩, ?_⟩
    · simp only [sproutObj]; rw [sproutBytes_v1 e]; exact size
    · simp only [sproutObj]; rw [sproutBytes_v1 e, sproutBytes_v1 e]; simp [e2]
  · refine ⟨hi, ho, hj, ?_, ?_⟩
    · simpa only [sproutObj, e, if_true, Option.getD_some] using ha'
    · simp only [sproutObj, e, if_true, Option.getD_some]

theorem SproutTx.Facts.bytes {E : Env} {t : SproutTx} (h : t.Facts E) :
    t.bytes = sproutBytes t.version (t.txIns.map (·.bytes)) (t.txOuts.map (·.bytes)) t.lockTime (t.txJoinsplits.map (·.bytes))
      (t.joinsplitPubkey.getD []) (t.joinsplitSig.getD []) := congrArg SproutTx.bytes h.obj

/-- `from_bytes` of a version 2 transaction with a 64-byte signature, or an empty one and nothing after it. -/
theorem SproutTx.fromBytes_bytes {E : Env} (hn : E.net.Supported) {t : SproutTx} (h : t.Facts E)
    (hs : InsOutsStable E.net t.txIns t.txOuts) (hv : t.version = v2) {s : Bytes} (hsig : t.joinsplitSig = some s)
    (rest : Bytes) (h64 : s.length = 64 ∨ (s = [] ∧ rest = [])) :
    ∃ ins', List.Forall₂ SameIn t.txIns ins' ∧ ins'.map (·.bytes) = t.txIns.map (·.bytes) ∧ SproutTx.fromBytes E (t.bytes ++ rest) =
      .ok (sproutObj E t.version ins' t.txOuts t.lockTime t.txJoinsplits t.joinsplitPubkey t.joinsplitSig) := by
  have hb := h.bytes
  obtain ⟨hi, ho, hj, args, -⟩ := h
  obtain ⟨v, ins, outs, lt, js, pk, sig, _, _, _, _, bytes⟩ := t
  simp only at hs hv hsig hi ho hj args hb ⊢
  obtain ⟨zc, sp, v4, lt4, ver, li, lo, size⟩ := args
  rcases ver with ⟨e, -⟩ | ⟨-, ⟨l, hl, h5⟩, ⟨p, rfl, h6⟩, s', hs', h7⟩
  · rw [e] at hv; exact absurd hv (by decide)
  cases hl
  subst hsig hv
  rw [sproutBytes_v2 rfl, Option.getD_some, Option.getD_some] at hb
  have hB : bytes ++ rest = v2 ++ (vector (ins.map (·.bytes)) ++ (vector (outs.map (·.bytes)) ++ (lt ++ (vector (js.map (·.bytes)) ++ (p ++ (s ++ rest)))))) := by
    rw [hb]; simp [wireLegacy]
  obtain ⟨ins', p1, p2, p3⟩ := parseInsOuts_bytes hn hi ho hs li lo v2 (lt ++ (vector (js.map (·.bytes)) ++ (p ++ (s ++ rest))))
  refine ⟨ins', p2, p3, ?_⟩
  rw [← hB] at p1
  have q1 : slice (bytes ++ rest) 0 4 = v2 := by rw [hB]; exact slice_take rfl
  have q2 : ∀ c, c = v2.length + (vector (ins.map (·.bytes))).length + (vector (outs.map (·.bytes))).length →
      slice (bytes ++ rest) c (c + 4) = lt := by
    rintro c rfl
    have := slice_at (a := v2 ++ (vector (ins.map (·.bytes)) ++ vector (outs.map (·.bytes)))) (b := lt)
      (c := vector (js.map (·.bytes)) ++ (p ++ (s ++ rest))) rfl rfl
    rw [hB]
    simp only [List.append_assoc, List.length_append, lt4, ← Nat.add_assoc] at this ⊢
    exact this
  have q3 : SproutTx.parseJs E.net (bytes ++ rest) v2 (v2.length + (vector (ins.map (·.bytes))).length + (vector (outs.map (·.bytes))).length + 4)
      = .ok (some js, some p, some s) := by
    unfold SproutTx.parseJs
    rw [if_pos (by decide)]
    obtain ⟨r1, r2⟩ := parseVec (net := E.net) (f := SproutJoinsplit.fromBytes E.net) (bytes := (·.bytes)) js
      (fun j hj' rest => SproutJoinsplit.fromBytes_bytes (hj j hj') rest) (by omega) (.inr (by omega))
      (v2 ++ (vector (ins.map (·.bytes)) ++ (vector (outs.map (·.bytes)) ++ lt))) (p ++ (s ++ rest))
    have r3 := slice_at (a := v2 ++ (vector (ins.map (·.bytes)) ++ (vector (outs.map (·.bytes)) ++ (lt ++ vector (js.map (·.bytes))))))
      (b := p) (c := s ++ rest) rfl rfl
    have r4 : slice ((v2 ++ (vector (ins.map (·.bytes)) ++ (vector (outs.map (·.bytes)) ++ (lt ++ (vector (js.map (·.bytes)) ++ p))))) ++ (s ++ rest))
        (v2 ++ (vector (ins.map (·.bytes)) ++ (vector (outs.map (·.bytes)) ++ (lt ++ (vector (js.map (·.bytes)) ++ p))))).length
        ((v2 ++ (vector (ins.map (·.bytes)) ++ (vector (outs.map (·.bytes)) ++ (lt ++ (vector (js.map (·.bytes)) ++ p))))).length + 64) = s := by
      rcases h64 with h64 | ⟨rfl, rfl⟩
      · exact slice_at rfl (by rw [h64])
      · rw [slice_skip (Nat.le_refl _)]
        apply List.length_eq_zero_iff.1
        rw [slice_length]; simp
    simp only [List.append_assoc, List.length_append, lt4, h6, ← Nat.add_assoc] at r1 r2 r3 r4
    rw [← hB] at r1 r2 r3 r4
    rw [r1, ok_bind]
    simp only []
    rw [r2, ok_bind]
    simp only []
    rw [r3, r4]
  unfold SproutTx.fromBytes
  simp only [q1]
  rw [show (4 : Nat) = v2.length from rfl, p1, ok_bind]
  simp only []
  rw [show v2.length = 4 from rfl] at *
  rw [q3, ok_bind, q2 _ rfl]
  simp only []
  rw [SproutTx.make_iff]
  refine ⟨⟨zc, sp, rfl, lt4, .inr ⟨rfl, ⟨js, rfl, h5⟩, ⟨p, rfl, h6⟩, s, rfl, h64.symm.imp (·.1) id⟩, ?_, lo, ?_⟩, rfl⟩
  · rw [← List.forall₂_length p2]; exact li
  · rw [p3]; exact size

/-- A serialized version 1 transaction makes `from_bytes` raise TypeError. -/
theorem SproutTx.fromBytes_v1_error {E : Env} (hn : E.net.Supported) {t : SproutTx} (h : t.Facts E)
    (hs : InsOutsStable E.net t.txIns t.txOuts) (hv : t.version = v1) (rest : Bytes) :
    SproutTx.fromBytes E (t.bytes ++ rest) = .error .typeError := by
  have hb := h.bytes
  obtain ⟨hi, ho, hj, args, -⟩ := h
  obtain ⟨zc, sp, v4, lt4, ver, li, lo, size⟩ := args
  rw [sproutBytes_v1 hv] at hb
  rcases ver with ⟨-, hj0, hne⟩ | ⟨e, -⟩
  case inr => rw [hv] at e; exact absurd e (by decide)
  have hB : t.bytes ++ rest = v1 ++ (vector (t.txIns.map (·.bytes)) ++ (vector (t.txOuts.map (·.bytes)) ++ (t.lockTime ++ rest))) := by
    rw [hb, hv]; simp [wireLegacy]
  obtain ⟨ins', p1, p2, p3⟩ := parseInsOuts_bytes hn hi ho hs li lo v1 (t.lockTime ++ rest)
  rw [← hB] at p1
  have q1 : slice (t.bytes ++ rest) 0 4 = v1 := by rw [hB]; exact slice_take rfl
  have q2 := slice_at (a := v1 ++ (vector (t.txIns.map (·.bytes)) ++ vector (t.txOuts.map (·.bytes)))) (b := t.lockTime) (c := rest) rfl rfl
  simp only [List.append_assoc, List.length_append, lt4, ← Nat.add_assoc] at q2
  rw [← hB] at q2
  unfold SproutTx.fromBytes
  simp only [q1]
  rw [show (4 : Nat) = v1.length from rfl, p1, ok_bind]
  simp only []
  rw [show v1.length = 4 from rfl] at *
  rw [q2]
  have hins : ins'.length ≠ 0 := by
    rw [← List.forall₂_length p2]
    exact fun h => hne (List.length_eq_zero_iff.1 h)
  have c0 : ∀ x, SproutTx.parseJs E.net (t.bytes ++ rest) v1 x = .ok (none, none, none) := by
    intro x; unfold SproutTx.parseJs; rw [if_neg (by decide)]
  have c1 : SproutTx.checkV1 v1 ins' none = .ok () := by
    unfold SproutTx.checkV1
    rw [if_pos (by decide)]
    simp [check, hins]
  have c2 : SproutTx.checkV2 v1 none none none = .ok () := by
    unfold SproutTx.checkV2
    rw [if_neg (by decide)]
  have c3 : SproutTx.jsPart v1 none none none = .ok [] := by
    unfold SproutTx.jsPart
    rw [i2lePadded2, ok_bind, if_neg (by decide)]
  rw [c0, ok_bind]
  simp only []
  unfold SproutTx.make zcashGate
  simp only [check_bind, validateBytes_eq, if_pos zc, if_pos sp, if_pos lt4, ok_bind, c1, c2, c3, VarInt.make_len lo]
  rw [if_pos (show v1.length = 4 from rfl), ok_bind, if_pos (show le2i v1 = 1 ∨ le2i v1 = 2 by decide), VarInt.make_len (by rw [← List.forall₂_length p2]; exact li), ok_bind]
  rfl

/-- `from_bytes` never returns a version 1 transaction: the joinsplit list is `None` then, which the constructor cannot iterate. -/
theorem SproutTx.fromBytes_v1 {E : Env} {b : Bytes} (h : le2i (slice b 0 4) = 1) (t : SproutTx) : SproutTx.fromBytes E b ≠ .ok t := by
  intro ht
  unfold SproutTx.fromBytes at ht
  obtain ⟨p, h1, ht⟩ := bind_ok_iff.1 ht
  obtain ⟨⟨js, pk, sig⟩, h2, ht⟩ := bind_ok_iff.1 ht
  unfold SproutTx.parseJs at h2
  rw [if_neg (by omega)] at h2
  cases h2
  obtain ⟨args, -⟩ := SproutTx.make_iff.1 ht
  rcases args.ver with ⟨-, h3, -⟩ | ⟨-, ⟨l, h3, -⟩, -⟩ <;> cases h3

/-! ### signature hashes -/

/-- The plain fields of a Sprout transaction. -/
def SproutTx.sig (t : SproutTx) : SigTx :=
  ⟨t.version, t.txIns.map (fun i => (i.outpoint.txId ++ i.outpoint.index, i.sequence)),
    t.txOuts.map (fun o => wireOut o.value o.outputScript), t.lockTime⟩

theorem prepIns_bytes' {ins : List TxIn} (h : ∀ i ∈ ins, i.Built) (k : Nat) (s : Bytes) {T : Nat} (hT : baseType T = 1) :
    (prepIns ins k s).map (·.bytes) = (ins.map (fun i => (i.outpoint.txId ++ i.outpoint.index, i.sequence))).mapIdx (legacyIn k T s) := by
  apply List.ext_getElem
  · simp [prepIns]
  · intro j h1 h2
    simp only [List.length_map, prepIns_length] at h1
    have := (h _ (List.getElem_mem h1)).eq.1.eq.2.2
    simp only [prepIns, List.getElem_map, List.getElem_mapIdx, legacyIn, hT]
    by_cases c : j = k
    · simp [c, inWith] at *; rw [this]; simp
    · simp [c, inWith, varBytes_nil] at *; rw [this]; simp

/-- The copy with new inputs and empty signature. -/
theorem SproutTx.copy_prep {E : Env} {t : SproutTx} (h : t.Facts E) {ins : List TxIn} (hn : ins.length = t.txIns.length) :
    t.copy E (txIns := some ins) (joinsplitSig := some []) =
      (if (sproutBytes t.version (ins.map (·.bytes)) (t.txOuts.map (·.bytes)) t.lockTime (t.txJoinsplits.map (·.bytes))
          (t.joinsplitPubkey.getD []) []).length ≤ 100000 then
        .ok (sproutObj E t.version ins t.txOuts t.lockTime t.txJoinsplits t.joinsplitPubkey (some []))
      else .error .valueError) := by
  unfold SproutTx.copy
  have e1 : ((none : Option Bytes).orElse fun _ => t.joinsplitPubkey) = t.joinsplitPubkey := rfl
  have e2 : ((some [] : Option Bytes).orElse fun _ => t.joinsplitSig) = some [] := rfl
  simp only [Option.getD_none, Option.getD_some, e1, e2]
  obtain ⟨zc, sp, v4, lt4, ver, li, lo, size⟩ := h.args
  split
  case isTrue hsz =>
    rw [SproutTx.make_iff]
    refine ⟨⟨zc, sp, v4, lt4, ?_, by omega, lo, hsz⟩, rfl⟩
    rcases ver with ⟨e, h3, h4⟩ | ⟨e, h3, h4, h5⟩
    · exact .inl ⟨e, h3, fun h => h4 (List.length_eq_zero_iff.1 (by rw [← hn, h]; rfl))⟩
    · exact .inr ⟨e, h3, h4, [], rfl, .inl rfl⟩
  case isFalse hsz =>
    apply (SproutTx.make_ve E _ _ _ _ _ _ _).eq_error
    intro a ha
    exact hsz (SproutTx.make_iff.1 ha).1.size

theorem SproutTx.final_eq {E : Env} (hz : E.net.isZcash = true) (t : SproutTx) {T : Nat} (hT : T < 2 ^ 32) :
    SproutTx.sighashFinalHashing E t T = .ok (E.hash256 (t.bytes ++ leBytes 4 T)) := by
  unfold SproutTx.sighashFinalHashing zcashGate
  rw [check_bind, if_pos hz, i2lePadded4 hT]; rfl

theorem SproutTx.sighashPrep_eq {E : Env} {t : SproutTx} (h : t.Facts E) {index : Int} {k : Nat}
    (hi : pyIndex index t.txIns.length = some k) {s : Bytes} (hs : s.length ≤ 1650) (hz : LenOK E.net s.length) :
    t.sighashPrep E index (varBytes s) = t.copy E (txIns := some (prepIns t.txIns k s)) (joinsplitSig := some []) := by
  unfold SproutTx.sighashPrep
  have hk := pyIndex_lt hi
  rw [if_neg (by omega)]
  have hc : ∀ i ∈ t.txIns, i.copy (stackScript := some []) (redeemScript := some []) = .ok (inWith [] i.sequence i) := by
    intro i hi
    unfold TxIn.copy
    simp only [Option.getD_none, Option.getD_some]
    have := (h.ins i hi).eq
    exact inWith_make this.1 (by simp) this.2.1
  rw [mapPy_ok hc, ok_bind]
  have hv := VarInt.fromBytes_len (net := E.net) (n := s.length) (by omega) hz s
  have hvb : varBytes s = compactSize s.length ++ s := rfl
  rw [hvb, hv, ok_bind]
  have hi' : pyIndex index (t.txIns.map (fun i => inWith [] i.sequence i)).length = some k := by simpa using hi
  rw [getItem_ok hi', ok_bind]
  simp only [List.getElem_map, List.drop_left]
  have hk := (h.ins _ (List.getElem_mem (pyIndex_lt hi))).eq
  have hcur : (inWith [] (t.txIns[k]'(pyIndex_lt hi)).sequence (t.txIns[k]'(pyIndex_lt hi))).copy (redeemScript := some s) =
      .ok (inWith s (t.txIns[k]'(pyIndex_lt hi)).sequence (t.txIns[k]'(pyIndex_lt hi))) := by
    unfold TxIn.copy
    simp only [Option.getD_none, Option.getD_some, inWith]
    exact inWith_make hk.1 hs hk.2.1
  rw [hcur, ok_bind, setItem_ok hi', ok_bind]
  rw [map_set (g := fun i => inWith s i.sequence i)]
  rfl

end Verif
