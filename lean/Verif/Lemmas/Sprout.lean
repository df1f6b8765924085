import Verif.Lemmas.ZcashTx

namespace Verif
open Spec Props

attribute [local irreducible] Env.hash256

theorem OnlyVE.bind' {α β : Type} {x : Py α} {f : α → Py β} (h : OnlyVE x) (hf : ∀ a, x = .ok a → OnlyVE (f a)) : OnlyVE (x >>= f) := by
  intro e he
  rcases bind_error_iff.1 he with he | ⟨a, ha, he⟩
  · exact h e he
  · exact hf a ha e he

theorem OnlyVE.varint (n : Nat) : OnlyVE (VarInt.make (n : Int)) := by
  intro e he
  by_cases h : n < 2 ^ 64
  · rw [VarInt.make_len h] at he; cases he
  · rw [VarInt.make_len_error h] at he; cases he; rfl

theorem OnlyVE.validateOpt (x : Option Bytes) (n : Nat) : OnlyVE (validateOpt x n) := by
  intro e he; rw [validateOpt_eq] at he; split at he <;> cases he; rfl

theorem OnlyVE.append (b : Bytes) : OnlyVE (appendOpt (some b)) := OnlyVE.ok _

/-- What Zcash classes derive from the joinsplits: `hsigs`. -/
def hsigsOf (E : Env) (js : List SproutJoinsplit) (pk : Bytes) : List Bytes :=
  js.map fun j => hsig E j.randomSeed j.nullifiers pk

def primaryOf (E : Env) (js : List SproutJoinsplit) (pk : Bytes) : List Bytes :=
  js.map fun j => primaryInput j.anchor j.nullifiers j.commitments j.vpubOld j.vpubNew (hsig E j.randomSeed j.nullifiers pk) j.vmacs

theorem zipWith_map_self {α β γ : Type} (f : α → β → γ) (g : α → β) (l : List α) : List.zipWith f l (l.map g) = l.map fun a => f a (g a) := by
  induction l with
  | nil => rfl
  | cons x xs ih => simp [ih]

abbrev v1 : Bytes := [0x01, 0x00, 0x00, 0x00]
abbrev v2 : Bytes := [0x02, 0x00, 0x00, 0x00]

def sproutBytes (v : Bytes) (ins outs : List Bytes) (lt : Bytes) (js : List Bytes) (pk sig : Bytes) : Bytes :=
  wireLegacy v ins outs lt ++ (if v = v2 then vector js ++ (pk ++ sig) else [])

def sproutObj (E : Env) (v : Bytes) (ins : List TxIn) (outs : List TxOut) (lt : Bytes) (js : List SproutJoinsplit) (pk sig : Option Bytes) :
    SproutTx :=
  let bytes := sproutBytes v (ins.map (·.bytes)) (outs.map (·.bytes)) lt (js.map (·.bytes)) (pk.getD []) (sig.getD [])
  ⟨v, ins, outs, lt, js, if v = v2 then pk else none, if v = v2 then sig else none,
    if v = v2 then hsigsOf E js (pk.getD []) else [], if v = v2 then primaryOf E js (pk.getD []) else [],
    E.hash256 bytes, (E.hash256 bytes).reverse, bytes⟩

structure SproutArgs (E : Env) (v : Bytes) (ins : List TxIn) (outs : List TxOut) (lt : Bytes) (js : Option (List SproutJoinsplit))
    (pk sig : Option Bytes) : Prop where
  zc : E.net.isZcash = true
  sp : E.net.isSprout = true
  v4 : v.length = 4
  lt4 : lt.length = 4
  ver : (v = v1 ∧ js = some [] ∧ ins ≠ []) ∨
    (v = v2 ∧ (∃ l, js = some l ∧ l.length ≤ 5) ∧ (∃ p, pk = some p ∧ p.length = 32) ∧ ∃ s, sig = some s ∧ (s = [] ∨ s.length = 64))
  li : ins.length < 2 ^ 64
  lo : outs.length < 2 ^ 64
  size : (sproutBytes v (ins.map (·.bytes)) (outs.map (·.bytes)) lt ((js.getD []).map (·.bytes)) (pk.getD []) (sig.getD [])).length ≤ 100000

theorem SproutTx.checkSig_ok {sig : Option Bytes} {u : Unit} :
    SproutTx.checkSig sig = .ok u ↔ ∀ s, sig = some s → s = [] ∨ s.length = 64 := by
  cases sig with
  | none => simp [SproutTx.checkSig]
  | some s =>
    simp only [SproutTx.checkSig, ne_eq, Option.some.injEq, forall_eq']
    by_cases h : s = []
    · simp [h]
    · simp [h, validateBytes_ok]

/-- The end of the constructor, once version and joinsplit part are known. -/
theorem SproutTx.make_iff {E : Env} {v : Bytes} {ins : List TxIn} {outs : List TxOut} {lt : Bytes} {js : Option (List SproutJoinsplit)}
    {pk sig : Option Bytes} {t : SproutTx} : SproutTx.make E v ins outs lt js pk sig = .ok t ↔
      SproutArgs E v ins outs lt js pk sig ∧ t = sproutObj E v ins outs lt (js.getD []) pk sig := by
  constructor
  · intro h
    unfold SproutTx.make at h
    simp only [bind_ok_iff, zcashGate_ok, check_eq_ok, validateBytes_ok, exists_const, VarInt.make_len_iff] at h
    obtain ⟨h1, h2, h3, h4, u1, h5, u2, h6, h7, ni, ⟨h8, rfl⟩, no, ⟨h9, rfl⟩, p, h10, l, h11, two, h12, h13, h14⟩ := h
    rw [i2lePadded2] at h12
    cases h12
    cases js with
    | none => cases h11
    | some js =>
      cases h11
      simp only [Nat.not_lt, gt_iff_lt] at h13
      rcases h7 with h7 | h7
      · have e := (le2i_eq_one h3).1 h7
        have e2 : ¬ v = v2 := by rw [e]; decide
        unfold SproutTx.checkV1 at h5
        rw [if_pos h7] at h5
        simp only [bind_ok_iff, check_eq_ok, exists_const, Option.getD_some, ne_eq, Classical.not_not, List.length_eq_zero_iff] at h5
        obtain ⟨rfl, h5⟩ := h5
        unfold SproutTx.jsPart at h10
        rw [i2lePadded2, ok_bind, if_neg e2] at h10
        cases h10
        have hb : v ++ compactSize ins.length ++ ins.flatMap (·.bytes) ++ compactSize outs.length ++ outs.flatMap (·.bytes) ++ lt ++ [] =
            sproutBytes v (ins.map (·.bytes)) (outs.map (·.bytes)) lt [] (pk.getD []) (sig.getD []) := by
          simp [sproutBytes, e2, wireLegacy, vector, List.flatMap_def]
        simp only [hb] at h13 h14
        refine ⟨⟨h1, h2, h3, h4, .inl ⟨e, rfl, h5⟩, h8, h9, h13⟩, ?_⟩
        cases h14
        simp [sproutObj, e2, changeEndianness]
      · have e := (le2i_eq_two h3).1 h7
        unfold SproutTx.checkV2 at h6
        rw [if_pos h7] at h6
        simp only [bind_ok_iff, check_eq_ok, exists_const, validateOpt_ok, SproutTx.checkSig_ok, Nat.not_lt, gt_iff_lt] at h6
        obtain ⟨h6a, ⟨p', rfl, h6b⟩, h6c⟩ := h6
        unfold SproutTx.jsPart at h10
        rw [i2lePadded2, ok_bind, if_pos e] at h10
        simp only [bind_ok_iff, VarInt.make_len_iff] at h10
        obtain ⟨nj, ⟨h8j, rfl⟩, p1, hp1, s, hs, h10⟩ := h10
        cases hp1
        cases sig with
        | none => cases hs
        | some s' =>
          cases hs
          cases h10
          have hb : v ++ compactSize ins.length ++ ins.flatMap (·.bytes) ++ compactSize outs.length ++ outs.flatMap (·.bytes) ++ lt ++
              (compactSize l.length ++ l.flatMap (·.bytes) ++ p' ++ s) =
              sproutBytes v (ins.map (·.bytes)) (outs.map (·.bytes)) lt (l.map (·.bytes)) p' s := by
            simp [sproutBytes, e, wireLegacy, vector, List.flatMap_def]
          simp only [Option.getD_some] at h13 h14
          simp only [hb] at h13 h14
          refine ⟨⟨h1, h2, h3, h4, .inr ⟨e, ⟨l, rfl, h6a⟩, ⟨p', rfl, h6b⟩, ⟨s, rfl, h6c s rfl⟩⟩, h8, h9, h13⟩, ?_⟩
          cases h14
          simp [sproutObj, e, changeEndianness, hsigsOf, primaryOf, zipWith_map_self]
  · rintro ⟨h, rfl⟩
    have two := i2lePadded2
    unfold SproutTx.make zcashGate
    have hz := h.zc
    have hsp := h.sp
    have hsz := h.size
    simp only [check_bind, validateBytes_eq, if_pos h.zc, if_pos h.sp, if_pos h.v4, if_pos h.lt4, ok_bind, two, VarInt.make_len h.li,
      VarInt.make_len h.lo]
    rcases h.ver with ⟨rfl, rfl, h5⟩ | ⟨rfl, ⟨l, rfl, h5⟩, ⟨p, rfl, h6⟩, s, rfl, h7⟩
    · have c1 : SproutTx.checkV1 v1 ins (some []) = .ok () := by
        unfold SproutTx.checkV1
        rw [if_pos (by decide)]
        simp [check, h5]
      have c2 : SproutTx.checkV2 v1 (some []) pk sig = .ok () := by
        unfold SproutTx.checkV2
        rw [if_neg (by decide)]
      have c3 : SproutTx.jsPart v1 (some []) pk sig = .ok [] := by
        unfold SproutTx.jsPart
        rw [two, ok_bind, if_neg (by decide)]
      have hb : v1 ++ compactSize ins.length ++ ins.flatMap (·.bytes) ++ compactSize outs.length ++ outs.flatMap (·.bytes) ++ lt ++ [] =
            sproutBytes v1 (ins.map (·.bytes)) (outs.map (·.bytes)) lt [] (pk.getD []) (sig.getD []) := by
          simp [sproutBytes, wireLegacy, vector, List.flatMap_def]
      rw [c1, c2, c3]
      simp only [ok_bind, SproutTx.jsTuple, hb]
      rw [if_pos (by decide), if_pos (by simpa using hsz)]
      simp [sproutObj, changeEndianness]
    · have c1 : SproutTx.checkV1 v2 ins (some l) = .ok () := by
        unfold SproutTx.checkV1
        rw [if_neg (by decide)]
      have c2 : SproutTx.checkV2 v2 (some l) (some p) (some s) = .ok () := by
        unfold SproutTx.checkV2
        rw [if_pos (by decide)]
        simp only [check_bind]
        rw [if_pos (by omega), (validateOpt_ok (u := ())).2 ⟨p, rfl, h6⟩, ok_bind]
        exact SproutTx.checkSig_ok.2 (fun s' hs => by cases hs; exact h7)
      have c3 : SproutTx.jsPart v2 (some l) (some p) (some s) = .ok (compactSize l.length ++ l.flatMap (·.bytes) ++ p ++ s) := by
        unfold SproutTx.jsPart
        rw [two, ok_bind, if_pos rfl]
        simp only [Option.getD_some]
        rw [VarInt.make_len (by omega)]
        rfl
      have hb : v2 ++ compactSize ins.length ++ ins.flatMap (·.bytes) ++ compactSize outs.length ++ outs.flatMap (·.bytes) ++ lt ++
              (compactSize l.length ++ l.flatMap (·.bytes) ++ p ++ s) =
              sproutBytes v2 (ins.map (·.bytes)) (outs.map (·.bytes)) lt (l.map (·.bytes)) p s := by
            simp [sproutBytes, wireLegacy, vector, List.flatMap_def]
      rw [c1, c2, c3]
      simp only [ok_bind, SproutTx.jsTuple, hb]
      rw [if_pos (by decide), if_pos (by simpa using hsz)]
      simp [sproutObj, changeEndianness, hsigsOf, primaryOf, zipWith_map_self]

/-- With the joinsplit list and signature given, the only exception is ValueError. -/
theorem SproutTx.make_ve (E : Env) (v : Bytes) (ins : List TxIn) (outs : List TxOut) (lt : Bytes) (js : List SproutJoinsplit)
    (pk : Option Bytes) (sig : Bytes) : OnlyVE (SproutTx.make E v ins outs lt (some js) pk (some sig)) := by
  unfold SproutTx.make
  refine (OnlyVE.gate _).bind fun _ => (OnlyVE.check _).bind fun _ => OnlyVE.bind' (OnlyVE.validate _ _) fun _ hv => ?_
  have hv4 := validateBytes_ok.1 hv
  refine (OnlyVE.validate _ _).bind fun _ => OnlyVE.bind ?_ fun _ => OnlyVE.bind' ?_ fun _ h2 => ?_
  · unfold SproutTx.checkV1
    split
    · only_ve
    · exact OnlyVE.ok _
  · unfold SproutTx.checkV2
    split
    · refine (OnlyVE.check _).bind fun _ => (OnlyVE.validateOpt _ _).bind fun _ => ?_
      simp only [SproutTx.checkSig]
      split
      · exact OnlyVE.validate _ _
      · exact OnlyVE.ok _
    · exact OnlyVE.ok _
  refine (OnlyVE.check _).bind fun _ => (OnlyVE.varint _).bind fun _ => (OnlyVE.varint _).bind fun _ => OnlyVE.bind ?_ fun _ => ?_
  · unfold SproutTx.jsPart
    rw [i2lePadded2, ok_bind]
    split
    case isTrue e =>
      unfold SproutTx.checkV2 at h2
      rw [if_pos ((le2i_eq_two hv4).2 e)] at h2
      simp only [bind_ok_iff, check_eq_ok, exists_const, validateOpt_ok] at h2
      obtain ⟨_, ⟨p, rfl, _⟩, _⟩ := h2
      exact (OnlyVE.varint _).bind fun _ => (OnlyVE.append _).bind fun _ => (OnlyVE.append _).bind fun _ => OnlyVE.ok _
    case isFalse => exact OnlyVE.ok _
  · rw [i2lePadded2]
    simp only [SproutTx.jsTuple, ok_bind]
    exact (OnlyVE.check _).bind fun _ => OnlyVE.ok _

end Verif
