import Verif.Lemmas.TxParse3
import Verif.Model.Zcash
import Verif.Spec.Zcash

namespace Verif
open Spec

/-! ### errors -/

/-- The only exception that can be raised is ValueError. -/
def OnlyVE {α : Type} (x : Py α) : Prop := ∀ e, x = .error e → e = .valueError

theorem OnlyVE.bind {α β : Type} {x : Py α} {f : α → Py β} (h : OnlyVE x) (hf : ∀ a, OnlyVE (f a)) : OnlyVE (x >>= f) := by
  intro e he
  rcases bind_error_iff.1 he with he | ⟨a, _, he⟩
  · exact h e he
  · exact hf a e he

theorem OnlyVE.check (c : Prop) [Decidable c] : OnlyVE (check c .valueError) := by
  intro e he; unfold Verif.check at he; split at he <;> cases he; rfl

theorem OnlyVE.ok {α : Type} (a : α) : OnlyVE (.ok a : Py α) := by intro e he; cases he

theorem OnlyVE.validate (b : Bytes) (n : Nat) : OnlyVE (validateBytes b (some n)) := OnlyVE.check _

theorem OnlyVE.gate (net : Network) : OnlyVE (zcashGate net) := OnlyVE.check _

theorem OnlyVE.eq_error {α : Type} {x : Py α} (h : OnlyVE x) (hn : ∀ a, x ≠ .ok a) : x = .error .valueError := by
  cases hx : x with
  | ok a => exact absurd hx (hn a)
  | error e => rw [h e hx]

macro "only_ve" : tactic => `(tactic| repeat' first
  | exact OnlyVE.gate _ | exact OnlyVE.validate _ _ | exact OnlyVE.check _ | exact OnlyVE.ok _
  | (refine OnlyVE.bind ?_ ?_) | (intro _))

theorem zcashGate_ok {net : Network} {u : Unit} : zcashGate net = .ok u ↔ net.isZcash = true := by
  unfold zcashGate; rw [check_eq_ok]

/-! ### slices of concatenations -/

theorem slice_skip {a b : Bytes} {i j : Nat} (h : a.length ≤ i) : slice (a ++ b) i j = slice b (i - a.length) (j - a.length) := by
  unfold slice
  rw [List.take_append, List.drop_append]
  by_cases hj : j ≤ a.length
  · have : j - a.length = 0 := by omega
    rw [this, List.drop_eq_nil_of_le (by simp; omega)]
    simp
  · rw [List.take_of_length_le (l := a) (by omega), List.drop_eq_nil_of_le h]; rfl

theorem slice_take {a b : Bytes} {j : Nat} (h : a.length = j) : slice (a ++ b) 0 j = a := slice_zero_append' _ _ _ h

/-- A slice that lies before the end is a slice of what is before the end. -/
theorem slice_prefix {a b : Bytes} {i j : Nat} (h : j ≤ a.length) : slice (a ++ b) i j = slice a i j := by
  unfold slice; rw [List.take_append_of_le_length h]

theorem slice_adj (x : Bytes) {i j k : Nat} (h1 : i ≤ j) (h2 : j ≤ k) : slice x i j ++ slice x j k = slice x i k := by
  unfold slice
  have : x.take j = (x.take k).take j := by rw [List.take_take, Nat.min_eq_left h2]
  rw [this]
  generalize x.take k = y
  conv => rhs; rw [← List.take_append_drop j y]
  rw [List.drop_append]
  by_cases hl : j ≤ y.length
  · simp [Nat.min_eq_left hl, Nat.sub_eq_zero_of_le h1]
  · have : y.length ≤ j := by omega
    simp [List.drop_eq_nil_of_le this]

/-! ### SproutZkproof -/

theorem SproutZkproof.make_iff {net : Network} {a a' b b' c c' k h : Bytes} {t : SproutZkproof} :
    SproutZkproof.make net a a' b b' c c' k h = .ok t ↔ net.isZcash = true ∧ a.length = 33 ∧ a'.length = 33 ∧ b.length = 65 ∧
      b'.length = 33 ∧ c.length = 33 ∧ c'.length = 33 ∧ k.length = 33 ∧ h.length = 33 ∧
      t = ⟨a, a', b, b', c, c', k, h, a ++ a' ++ b ++ b' ++ c ++ c' ++ k ++ h⟩ := by
  unfold SproutZkproof.make
  simp only [bind_ok_iff, validateBytes_ok, zcashGate_ok, Except.ok.injEq, exists_prop, exists_const]
  simp only [eq_comm (a := t)]

theorem SproutZkproof.make_ve (net : Network) (a a' b b' c c' k h : Bytes) : OnlyVE (SproutZkproof.make net a a' b b' c c' k h) := by
  unfold SproutZkproof.make; only_ve

def SproutZkproof.Built (net : Network) (t : SproutZkproof) : Prop := ∃ a a' b b' c c' k h, SproutZkproof.make net a a' b b' c c' k h = .ok t

theorem SproutZkproof.Built.length {net : Network} {t : SproutZkproof} (h : t.Built net) : t.bytes.length = 296 := by
  obtain ⟨_, _, _, _, _, _, _, _, h⟩ := h
  obtain ⟨_, h1, h2, h3, h4, h5, h6, h7, h8, rfl⟩ := SproutZkproof.make_iff.1 h
  simp [h1, h2, h3, h4, h5, h6, h7, h8]

theorem SproutZkproof.fromBytes_bytes {net : Network} {t : SproutZkproof} (h : t.Built net) (rest : Bytes) :
    SproutZkproof.fromBytes net (t.bytes ++ rest) = .ok t := by
  obtain ⟨a, a', b, b', c, c', k, q, h⟩ := h
  have h0 := SproutZkproof.make_iff.1 h
  obtain ⟨_, h1, h2, h3, h4, h5, h6, h7, h8, rfl⟩ := h0
  unfold SproutZkproof.fromBytes
  simp [slice_skip, slice_take, h1, h2, h3, h4, h5, h6, h7, h8, h]

theorem SproutZkproof.fromBytes_ok {net : Network} {x : Bytes} {t : SproutZkproof} (h : SproutZkproof.fromBytes net x = .ok t) :
    t.Built net ∧ 296 ≤ x.length ∧ t.bytes = x.take 296 := by
  refine ⟨⟨_, _, _, _, _, _, _, _, h⟩, ?_⟩
  obtain ⟨_, _, _, _, _, _, _, _, h8, rfl⟩ := SproutZkproof.make_iff.1 h
  refine ⟨by simp at h8; omega, ?_⟩
  simp only []
  rw [slice_adj, slice_adj, slice_adj, slice_adj, slice_adj, slice_adj, slice_adj] <;> first | omega | rfl

theorem SproutZkproof.fromBytes_iff {net : Network} {x : Bytes} (hz : net.isZcash = true) (hx : 296 ≤ x.length) :
    ∃ t, SproutZkproof.fromBytes net x = .ok t := by
  unfold SproutZkproof.fromBytes
  exact ⟨_, SproutZkproof.make_iff.2 ⟨hz, by simp; omega, by simp; omega, by simp; omega, by simp; omega, by simp; omega, by simp; omega,
    by simp; omega, by simp; omega, rfl⟩⟩

theorem SproutZkproof.fromBytes_ve (net : Network) (x : Bytes) : OnlyVE (SproutZkproof.fromBytes net x) := SproutZkproof.make_ve _ _ _ _ _ _ _ _ _

/-! ### SaplingZkproof -/

theorem SaplingZkproof.make_iff {net : Network} {a b c : Bytes} {t : SaplingZkproof} :
    SaplingZkproof.make net a b c = .ok t ↔ net.isZcash = true ∧ a.length = 48 ∧ b.length = 96 ∧ c.length = 48 ∧
      t = ⟨a, b, c, a ++ b ++ c⟩ := by
  unfold SaplingZkproof.make
  simp only [bind_ok_iff, validateBytes_ok, zcashGate_ok, Except.ok.injEq, exists_prop, exists_const]
  simp only [eq_comm (a := t)]

theorem SaplingZkproof.make_ve (net : Network) (a b c : Bytes) : OnlyVE (SaplingZkproof.make net a b c) := by
  unfold SaplingZkproof.make; only_ve

def SaplingZkproof.Built (net : Network) (t : SaplingZkproof) : Prop := ∃ a b c, SaplingZkproof.make net a b c = .ok t

theorem SaplingZkproof.Built.length {net : Network} {t : SaplingZkproof} (h : t.Built net) : t.bytes.length = 192 := by
  obtain ⟨_, _, _, h⟩ := h
  obtain ⟨_, h1, h2, h3, rfl⟩ := SaplingZkproof.make_iff.1 h
  simp [h1, h2, h3]

theorem SaplingZkproof.fromBytes_bytes {net : Network} {t : SaplingZkproof} (h : t.Built net) (rest : Bytes) :
    SaplingZkproof.fromBytes net (t.bytes ++ rest) = .ok t := by
  obtain ⟨a, b, c, h⟩ := h
  have h0 := SaplingZkproof.make_iff.1 h
  obtain ⟨_, h1, h2, h3, rfl⟩ := h0
  unfold SaplingZkproof.fromBytes
  simp [slice_skip, slice_take, h1, h2, h3, h]

theorem SaplingZkproof.fromBytes_ok {net : Network} {x : Bytes} {t : SaplingZkproof} (h : SaplingZkproof.fromBytes net x = .ok t) :
    t.Built net ∧ 192 ≤ x.length ∧ t.bytes = x.take 192 := by
  refine ⟨⟨_, _, _, h⟩, ?_⟩
  obtain ⟨_, _, _, h8, rfl⟩ := SaplingZkproof.make_iff.1 h
  refine ⟨by simp at h8; omega, ?_⟩
  simp only []
  rw [slice_adj, slice_adj] <;> first | omega | rfl

theorem SaplingZkproof.fromBytes_iff {net : Network} {x : Bytes} (hz : net.isZcash = true) (hx : 192 ≤ x.length) :
    ∃ t, SaplingZkproof.fromBytes net x = .ok t := by
  unfold SaplingZkproof.fromBytes
  exact ⟨_, SaplingZkproof.make_iff.2 ⟨hz, by simp; omega, by simp; omega, by simp; omega, rfl⟩⟩

theorem SaplingZkproof.fromBytes_ve (net : Network) (x : Bytes) : OnlyVE (SaplingZkproof.fromBytes net x) := SaplingZkproof.make_ve _ _ _ _

/-! ### SproutJoinsplit -/

/-- The lengths both kinds of joinsplit require. -/
structure JsLens (vo vn an nf cm ek rs vm en : Bytes) : Prop where
  vo : vo.length = 8
  vn : vn.length = 8
  an : an.length = 32
  nf : nf.length = 64
  cm : cm.length = 64
  ek : ek.length = 32
  rs : rs.length = 32
  vm : vm.length = 64
  en : en.length = 1202

theorem SproutJoinsplit.make_iff {net : Network} {vo vn an nf cm ek rs vm : Bytes} {z : SproutZkproof} {en : Bytes} {t : SproutJoinsplit} :
    SproutJoinsplit.make net vo vn an nf cm ek rs vm z en = .ok t ↔ net.isZcash = true ∧ ¬ (leToNat vo ≠ 0 ∧ leToNat vn ≠ 0) ∧
      JsLens vo vn an nf cm ek rs vm en ∧
      t = ⟨vo, vn, an, nf, cm, ek, rs, vm, z, en, vo ++ vn ++ an ++ nf ++ cm ++ ek ++ rs ++ vm ++ z.bytes ++ en⟩ := by
  unfold SproutJoinsplit.make
  simp only [bind_ok_iff, validateBytes_ok, zcashGate_ok, check_eq_ok, Except.ok.injEq, exists_prop, exists_const]
  constructor
  · rintro ⟨h0, h1, h2, h3, h4, h5, h6, h7, h8, h9, h10, h11⟩
    exact ⟨h0, h1, ⟨h2, h3, h4, h5, h6, h7, h8, h9, h10⟩, h11.symm⟩
  · rintro ⟨h0, h1, ⟨h2, h3, h4, h5, h6, h7, h8, h9, h10⟩, h11⟩
    exact ⟨h0, h1, h2, h3, h4, h5, h6, h7, h8, h9, h10, h11.symm⟩

theorem SproutJoinsplit.make_ve (net : Network) (vo vn an nf cm ek rs vm : Bytes) (z : SproutZkproof) (en : Bytes) :
    OnlyVE (SproutJoinsplit.make net vo vn an nf cm ek rs vm z en) := by
  unfold SproutJoinsplit.make; only_ve

def SproutJoinsplit.Built (net : Network) (t : SproutJoinsplit) : Prop :=
  ∃ vo vn an nf cm ek rs vm z en, z.Built net ∧ SproutJoinsplit.make net vo vn an nf cm ek rs vm z en = .ok t

theorem SproutJoinsplit.Built.length {net : Network} {t : SproutJoinsplit} (h : t.Built net) : t.bytes.length = 1802 := by
  obtain ⟨_, _, _, _, _, _, _, _, z, _, hz, h⟩ := h
  obtain ⟨_, _, q, rfl⟩ := SproutJoinsplit.make_iff.1 h
  simp [q.vo, q.vn, q.an, q.nf, q.cm, q.ek, q.rs, q.vm, q.en, hz.length]

theorem SproutJoinsplit.fromBytes_bytes {net : Network} {t : SproutJoinsplit} (h : t.Built net) (rest : Bytes) :
    SproutJoinsplit.fromBytes net (t.bytes ++ rest) = .ok t := by
  obtain ⟨_, _, _, _, _, _, _, _, z, _, hz, h⟩ := h
  have h0 := SproutJoinsplit.make_iff.1 h
  obtain ⟨_, _, h1, rfl⟩ := h0
  have hl := hz.length
  have hp := SproutZkproof.fromBytes_bytes hz []
  rw [List.append_nil] at hp
  unfold SproutJoinsplit.fromBytes
  simp [slice_skip, slice_take, h1.vo, h1.vn, h1.an, h1.nf, h1.cm, h1.ek, h1.rs, h1.vm, h1.en, hl, hp, h]

theorem SproutJoinsplit.fromBytes_ok {net : Network} {x : Bytes} {t : SproutJoinsplit} (h : SproutJoinsplit.fromBytes net x = .ok t) :
    t.Built net ∧ 1802 ≤ x.length ∧ t.bytes = x.take 1802 := by
  obtain ⟨z, hz, h⟩ := bind_ok_iff.1 h
  obtain ⟨z1, z2, z3⟩ := SproutZkproof.fromBytes_ok hz
  refine ⟨⟨_, _, _, _, _, _, _, _, _, _, z1, h⟩, ?_⟩
  obtain ⟨_, _, hl, rfl⟩ := SproutJoinsplit.make_iff.1 h
  have := hl.en
  rw [slice_length] at this
  refine ⟨by omega, ?_⟩
  simp only [z3]
  rw [List.take_of_length_le (by simp; omega)]
  rw [slice_adj, slice_adj, slice_adj, slice_adj, slice_adj, slice_adj, slice_adj, slice_adj, slice_adj] <;> first | omega | rfl

theorem SproutJoinsplit.fromBytes_iff {net : Network} {x : Bytes} (hz : net.isZcash = true) (hx : 1802 ≤ x.length)
    (hv : ¬ (leToNat (slice x 0 8) ≠ 0 ∧ leToNat (slice x 8 16) ≠ 0)) : ∃ t, SproutJoinsplit.fromBytes net x = .ok t := by
  unfold SproutJoinsplit.fromBytes
  obtain ⟨z, h⟩ := SproutZkproof.fromBytes_iff (x := slice x 304 600) hz (by simp; omega)
  rw [h, ok_bind]
  refine ⟨_, SproutJoinsplit.make_iff.2 ⟨hz, hv, ⟨?_, ?_, ?_, ?_, ?_, ?_, ?_, ?_, ?_⟩, rfl⟩⟩ <;> simp <;> omega

theorem SproutJoinsplit.fromBytes_ve (net : Network) (x : Bytes) : OnlyVE (SproutJoinsplit.fromBytes net x) :=
  OnlyVE.bind (SproutZkproof.fromBytes_ve _ _) fun _ => SproutJoinsplit.make_ve _ _ _ _ _ _ _ _ _ _ _

/-! ### SaplingJoinsplit -/

theorem SaplingJoinsplit.make_iff {net : Network} {vo vn an nf cm ek rs vm : Bytes} {z : SaplingZkproof} {en : Bytes} {t : SaplingJoinsplit} :
    SaplingJoinsplit.make net vo vn an nf cm ek rs vm z en = .ok t ↔ net.isZcash = true ∧ ¬ (leToNat vo ≠ 0 ∧ leToNat vn ≠ 0) ∧
      JsLens vo vn an nf cm ek rs vm en ∧
      t = ⟨vo, vn, an, nf, cm, ek, rs, vm, z, en, vo ++ vn ++ an ++ nf ++ cm ++ ek ++ rs ++ vm ++ z.bytes ++ en⟩ := by
  unfold SaplingJoinsplit.make
  simp only [bind_ok_iff, validateBytes_ok, zcashGate_ok, check_eq_ok, Except.ok.injEq, exists_prop, exists_const]
  constructor
  · rintro ⟨h0, h1, h2, h3, h4, h5, h6, h7, h8, h9, h10, h11⟩
    exact ⟨h0, h1, ⟨h2, h3, h4, h5, h6, h7, h8, h9, h10⟩, h11.symm⟩
  · rintro ⟨h0, h1, ⟨h2, h3, h4, h5, h6, h7, h8, h9, h10⟩, h11⟩
    exact ⟨h0, h1, h2, h3, h4, h5, h6, h7, h8, h9, h10, h11.symm⟩

theorem SaplingJoinsplit.make_ve (net : Network) (vo vn an nf cm ek rs vm : Bytes) (z : SaplingZkproof) (en : Bytes) :
    OnlyVE (SaplingJoinsplit.make net vo vn an nf cm ek rs vm z en) := by
  unfold SaplingJoinsplit.make; only_ve

def SaplingJoinsplit.Built (net : Network) (t : SaplingJoinsplit) : Prop :=
  ∃ vo vn an nf cm ek rs vm z en, z.Built net ∧ SaplingJoinsplit.make net vo vn an nf cm ek rs vm z en = .ok t

theorem SaplingJoinsplit.Built.length {net : Network} {t : SaplingJoinsplit} (h : t.Built net) : t.bytes.length = 1698 := by
  obtain ⟨_, _, _, _, _, _, _, _, z, _, hz, h⟩ := h
  obtain ⟨_, _, q, rfl⟩ := SaplingJoinsplit.make_iff.1 h
  simp [q.vo, q.vn, q.an, q.nf, q.cm, q.ek, q.rs, q.vm, q.en, hz.length]

theorem SaplingJoinsplit.fromBytes_bytes {net : Network} {t : SaplingJoinsplit} (h : t.Built net) (rest : Bytes) :
    SaplingJoinsplit.fromBytes net (t.bytes ++ rest) = .ok t := by
  obtain ⟨_, _, _, _, _, _, _, _, z, _, hz, h⟩ := h
  have h0 := SaplingJoinsplit.make_iff.1 h
  obtain ⟨_, _, h1, rfl⟩ := h0
  have hl := hz.length
  have hp := SaplingZkproof.fromBytes_bytes hz []
  rw [List.append_nil] at hp
  unfold SaplingJoinsplit.fromBytes
  simp [slice_skip, slice_take, h1.vo, h1.vn, h1.an, h1.nf, h1.cm, h1.ek, h1.rs, h1.vm, h1.en, hl, hp, h]

theorem SaplingJoinsplit.fromBytes_ok {net : Network} {x : Bytes} {t : SaplingJoinsplit} (h : SaplingJoinsplit.fromBytes net x = .ok t) :
    t.Built net ∧ 1698 ≤ x.length ∧ t.bytes = x.take 1698 := by
  obtain ⟨z, hz, h⟩ := bind_ok_iff.1 h
  obtain ⟨z1, z2, z3⟩ := SaplingZkproof.fromBytes_ok hz
  refine ⟨⟨_, _, _, _, _, _, _, _, _, _, z1, h⟩, ?_⟩
  obtain ⟨_, _, hl, rfl⟩ := SaplingJoinsplit.make_iff.1 h
  have := hl.en
  rw [slice_length] at this
  refine ⟨by omega, ?_⟩
  simp only [z3]
  rw [List.take_of_length_le (by simp; omega)]
  rw [slice_adj, slice_adj, slice_adj, slice_adj, slice_adj, slice_adj, slice_adj, slice_adj, slice_adj] <;> first | omega | rfl

theorem SaplingJoinsplit.fromBytes_iff {net : Network} {x : Bytes} (hz : net.isZcash = true) (hx : 1698 ≤ x.length)
    (hv : ¬ (leToNat (slice x 0 8) ≠ 0 ∧ leToNat (slice x 8 16) ≠ 0)) : ∃ t, SaplingJoinsplit.fromBytes net x = .ok t := by
  unfold SaplingJoinsplit.fromBytes
  obtain ⟨z, h⟩ := SaplingZkproof.fromBytes_iff (x := slice x 304 496) hz (by simp; omega)
  rw [h, ok_bind]
  refine ⟨_, SaplingJoinsplit.make_iff.2 ⟨hz, hv, ⟨?_, ?_, ?_, ?_, ?_, ?_, ?_, ?_, ?_⟩, rfl⟩⟩ <;> simp <;> omega

theorem SaplingJoinsplit.fromBytes_ve (net : Network) (x : Bytes) : OnlyVE (SaplingJoinsplit.fromBytes net x) :=
  OnlyVE.bind (SaplingZkproof.fromBytes_ve _ _) fun _ => SaplingJoinsplit.make_ve _ _ _ _ _ _ _ _ _ _ _

/-! ### SaplingShieldedSpend -/

theorem SaplingShieldedSpend.make_iff {net : Network} {cv an nf rk : Bytes} {z : SaplingZkproof} {sg : Bytes} {t : SaplingShieldedSpend} :
    SaplingShieldedSpend.make net cv an nf rk z sg = .ok t ↔ net.isZcash = true ∧ cv.length = 32 ∧ an.length = 32 ∧ nf.length = 32 ∧
      rk.length = 32 ∧ sg.length = 64 ∧ t = ⟨cv, an, nf, rk, z, sg, cv ++ an ++ nf ++ rk ++ z.bytes ++ sg⟩ := by
  unfold SaplingShieldedSpend.make
  simp only [bind_ok_iff, validateBytes_ok, zcashGate_ok, Except.ok.injEq, exists_prop, exists_const]
  simp only [eq_comm (a := t)]

theorem SaplingShieldedSpend.make_ve (net : Network) (cv an nf rk : Bytes) (z : SaplingZkproof) (sg : Bytes) :
    OnlyVE (SaplingShieldedSpend.make net cv an nf rk z sg) := by
  unfold SaplingShieldedSpend.make; only_ve

def SaplingShieldedSpend.Built (net : Network) (t : SaplingShieldedSpend) : Prop :=
  ∃ cv an nf rk z sg, z.Built net ∧ SaplingShieldedSpend.make net cv an nf rk z sg = .ok t

theorem SaplingShieldedSpend.Built.length {net : Network} {t : SaplingShieldedSpend} (h : t.Built net) : t.bytes.length = 384 := by
  obtain ⟨_, _, _, _, z, _, hz, h⟩ := h
  obtain ⟨_, h1, h2, h3, h4, h5, rfl⟩ := SaplingShieldedSpend.make_iff.1 h
  simp [h1, h2, h3, h4, h5, hz.length]

theorem SaplingShieldedSpend.fromBytes_bytes {net : Network} {t : SaplingShieldedSpend} (h : t.Built net) (rest : Bytes) :
    SaplingShieldedSpend.fromBytes net (t.bytes ++ rest) = .ok t := by
  obtain ⟨_, _, _, _, z, _, hz, h⟩ := h
  have h0 := SaplingShieldedSpend.make_iff.1 h
  obtain ⟨_, h1, h2, h3, h4, h5, rfl⟩ := h0
  have hl := hz.length
  have hp := SaplingZkproof.fromBytes_bytes hz []
  rw [List.append_nil] at hp
  unfold SaplingShieldedSpend.fromBytes
  simp [slice_skip, slice_take, h1, h2, h3, h4, h5, hl, hp, h]

theorem SaplingShieldedSpend.fromBytes_ok {net : Network} {x : Bytes} {t : SaplingShieldedSpend}
    (h : SaplingShieldedSpend.fromBytes net x = .ok t) : t.Built net ∧ 384 ≤ x.length ∧ t.bytes = x.take 384 := by
  obtain ⟨z, hz, h⟩ := bind_ok_iff.1 h
  obtain ⟨z1, z2, z3⟩ := SaplingZkproof.fromBytes_ok hz
  refine ⟨⟨_, _, _, _, _, _, z1, h⟩, ?_⟩
  obtain ⟨_, _, _, _, _, hl, rfl⟩ := SaplingShieldedSpend.make_iff.1 h
  rw [slice_length] at hl
  refine ⟨by omega, ?_⟩
  simp only [z3]
  rw [List.take_of_length_le (by simp; omega)]
  rw [slice_adj, slice_adj, slice_adj, slice_adj, slice_adj] <;> first | omega | rfl

theorem SaplingShieldedSpend.fromBytes_iff {net : Network} {x : Bytes} (hz : net.isZcash = true) (hx : 384 ≤ x.length) :
    ∃ t, SaplingShieldedSpend.fromBytes net x = .ok t := by
  unfold SaplingShieldedSpend.fromBytes
  obtain ⟨z, h⟩ := SaplingZkproof.fromBytes_iff (x := slice x 128 320) hz (by simp; omega)
  rw [h, ok_bind]
  refine ⟨_, SaplingShieldedSpend.make_iff.2 ⟨hz, ?_, ?_, ?_, ?_, ?_, rfl⟩⟩ <;> simp <;> omega

theorem SaplingShieldedSpend.fromBytes_ve (net : Network) (x : Bytes) : OnlyVE (SaplingShieldedSpend.fromBytes net x) :=
  OnlyVE.bind (SaplingZkproof.fromBytes_ve _ _) fun _ => SaplingShieldedSpend.make_ve _ _ _ _ _ _ _

/-! ### SaplingShieldedOutput -/

theorem SaplingShieldedOutput.make_iff {net : Network} {cv cm ek ec oc : Bytes} {z : SaplingZkproof} {t : SaplingShieldedOutput} :
    SaplingShieldedOutput.make net cv cm ek ec oc z = .ok t ↔ net.isZcash = true ∧ cv.length = 32 ∧ cm.length = 32 ∧ ek.length = 32 ∧
      ec.length = 580 ∧ oc.length = 80 ∧ t = ⟨cv, cm, ek, ec, oc, z, cv ++ cm ++ ek ++ ec ++ oc ++ z.bytes⟩ := by
  unfold SaplingShieldedOutput.make
  simp only [bind_ok_iff, validateBytes_ok, zcashGate_ok, Except.ok.injEq, exists_prop, exists_const]
  simp only [eq_comm (a := t)]

theorem SaplingShieldedOutput.make_ve (net : Network) (cv cm ek ec oc : Bytes) (z : SaplingZkproof) :
    OnlyVE (SaplingShieldedOutput.make net cv cm ek ec oc z) := by
  unfold SaplingShieldedOutput.make; only_ve

def SaplingShieldedOutput.Built (net : Network) (t : SaplingShieldedOutput) : Prop :=
  ∃ cv cm ek ec oc z, z.Built net ∧ SaplingShieldedOutput.make net cv cm ek ec oc z = .ok t

theorem SaplingShieldedOutput.Built.length {net : Network} {t : SaplingShieldedOutput} (h : t.Built net) : t.bytes.length = 948 := by
  obtain ⟨_, _, _, _, _, z, hz, h⟩ := h
  obtain ⟨_, h1, h2, h3, h4, h5, rfl⟩ := SaplingShieldedOutput.make_iff.1 h
  simp [h1, h2, h3, h4, h5, hz.length]

theorem SaplingShieldedOutput.fromBytes_bytes {net : Network} {t : SaplingShieldedOutput} (h : t.Built net) (rest : Bytes) :
    SaplingShieldedOutput.fromBytes net (t.bytes ++ rest) = .ok t := by
  obtain ⟨_, _, _, _, _, z, hz, h⟩ := h
  have h0 := SaplingShieldedOutput.make_iff.1 h
  obtain ⟨_, h1, h2, h3, h4, h5, rfl⟩ := h0
  have hl := hz.length
  have hp := SaplingZkproof.fromBytes_bytes hz []
  rw [List.append_nil] at hp
  unfold SaplingShieldedOutput.fromBytes
  simp [slice_skip, slice_take, h1, h2, h3, h4, h5, hl, hp, h]

theorem SaplingShieldedOutput.fromBytes_ok {net : Network} {x : Bytes} {t : SaplingShieldedOutput}
    (h : SaplingShieldedOutput.fromBytes net x = .ok t) : t.Built net ∧ 948 ≤ x.length ∧ t.bytes = x.take 948 := by
  obtain ⟨z, hz, h⟩ := bind_ok_iff.1 h
  obtain ⟨z1, z2, z3⟩ := SaplingZkproof.fromBytes_ok hz
  refine ⟨⟨_, _, _, _, _, _, z1, h⟩, ?_⟩
  obtain ⟨_, _, _, _, _, hl, rfl⟩ := SaplingShieldedOutput.make_iff.1 h
  rw [slice_length] at z2
  refine ⟨by omega, ?_⟩
  simp only [z3]
  rw [List.take_of_length_le (by simp; omega)]
  rw [slice_adj, slice_adj, slice_adj, slice_adj, slice_adj] <;> first | omega | rfl

theorem SaplingShieldedOutput.fromBytes_iff {net : Network} {x : Bytes} (hz : net.isZcash = true) (hx : 948 ≤ x.length) :
    ∃ t, SaplingShieldedOutput.fromBytes net x = .ok t := by
  unfold SaplingShieldedOutput.fromBytes
  obtain ⟨z, h⟩ := SaplingZkproof.fromBytes_iff (x := slice x 756 948) hz (by simp; omega)
  rw [h, ok_bind]
  refine ⟨_, SaplingShieldedOutput.make_iff.2 ⟨hz, ?_, ?_, ?_, ?_, ?_, rfl⟩⟩ <;> simp <;> omega

theorem SaplingShieldedOutput.fromBytes_ve (net : Network) (x : Bytes) : OnlyVE (SaplingShieldedOutput.fromBytes net x) :=
  OnlyVE.bind (SaplingZkproof.fromBytes_ve _ _) fun _ => SaplingShieldedOutput.make_ve _ _ _ _ _ _ _

end Verif
