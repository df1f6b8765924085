import Verif.Model.DynDecred
import Verif.Props.DynTx
import Verif.Lemmas.Ints
import Verif.Spec.Decred

/-! Property C116: the constructors of the parts of Zcash and Decred transactions on arguments of any type. -/

namespace Verif.Props
open Verif Spec

/-! ### fields -/

/-- The values are bytes-like, with the given bytes, which have the widths required. -/
def Fields (l : List (Val × Nat)) (bs : List Bytes) : Prop := Contents (l.map (·.1)) bs ∧ bs.map List.length = l.map (·.2)

theorem Fields.nil {bs : List Bytes} : Fields [] bs ↔ bs = [] := by
  constructor
  · rintro ⟨-, h⟩; simpa using h
  · rintro rfl; exact ⟨rfl, rfl⟩

theorem Fields.cons {v : Val} {n : Nat} {l : List (Val × Nat)} {bs : List Bytes} :
    Fields ((v, n) :: l) bs ↔ ∃ b bs', bs = b :: bs' ∧ v.content = some b ∧ b.length = n ∧ Fields l bs' := by
  constructor
  · rintro ⟨h1, h2⟩
    cases bs with
    | nil => simp at h2
    | cons b bs =>
      simp only [Contents, List.map_cons, List.cons.injEq] at h1 h2
      exact ⟨b, bs, rfl, h1.1, h2.1, h1.2, h2.2⟩
  · rintro ⟨b, bs', rfl, h1, h2, h3, h4⟩
    exact ⟨by simp only [Contents, List.map_cons, h1]; rw [h3], by simp only [List.map_cons, h2, h4]⟩

theorem Fields.unique {l : List (Val × Nat)} {a b : List Bytes} (ha : Fields l a) (hb : Fields l b) : a = b := ha.1.unique hb.1

theorem validateAll_cases (l : List (Val × Nat)) :
    (∃ bs, Fields l bs ∧ Val.validateAll l = .ok ()) ∨ (¬ ∃ bs, Fields l bs) ∧ Val.validateAll l = .error .valueError := by
  induction l with
  | nil => exact .inl ⟨[], Fields.nil.2 rfl, rfl⟩
  | cons p l ih =>
    obtain ⟨v, n⟩ := p
    rcases validate_cases v (some n) with ⟨b, hb, lb, e⟩ | ⟨hb, e⟩
    · rcases ih with ⟨bs, h1, h2⟩ | ⟨h1, h2⟩
      · exact .inl ⟨b :: bs, Fields.cons.2 ⟨b, bs, rfl, hb, lb n rfl, h1⟩, by unfold Val.validateAll; rw [e, ok_bind, h2]⟩
      · refine .inr ⟨?_, by unfold Val.validateAll; rw [e, ok_bind, h2]⟩
        rintro ⟨bs, h⟩
        obtain ⟨_, bs', _, _, _, h⟩ := Fields.cons.1 h
        exact h1 ⟨bs', h⟩
    · refine .inr ⟨?_, by unfold Val.validateAll; rw [e]; rfl⟩
      rintro ⟨bs, h⟩
      obtain ⟨b, _, _, h, l, _⟩ := Fields.cons.1 h
      exact hb ⟨b, h, fun k e => by cases e; exact l⟩

theorem isInstance_content {c : Cls} {v : Val} (h : v.isInstance c = true) : ∃ b, v.content = some b := by
  cases v <;> simp [Val.isInstance] at h
  exact ⟨_, rfl⟩

/-- A constructor that tests the network, validates its arguments and adds them. -/
def record (p : Bool) (c : Cls) (fs : List (Val × Nat)) : Py Val := do
  check p .valueError
  Val.validateAll fs
  let self ← Val.iaddAll [] (fs.map (·.1))
  .ok (.obj c (fs.map (·.1)) self)

theorem record_spec (p : Bool) (c : Cls) (fs : List (Val × Nat)) :
    (∀ v, record p c fs = .ok v ↔ p = true ∧ ∃ bs, Fields fs bs ∧ v = .obj c (fs.map (·.1)) bs.flatten) ∧
    ∀ e, record p c fs = .error e → e = .valueError := by
  unfold record
  rw [check_bind]
  by_cases hp : p = true
  · rw [if_pos hp]
    rcases validateAll_cases fs with ⟨bs, h1, h2⟩ | ⟨h1, h2⟩
    · rw [h2, ok_bind, iaddAll_ok h1.1, ok_bind]
      refine ⟨fun v => ⟨fun h => ?_, ?_⟩, fun e h => (by cases h)⟩
      · cases h; exact ⟨hp, bs, h1, by simp⟩
      · rintro ⟨-, bs', h, rfl⟩; rw [h.unique h1]; simp
    · rw [h2]
      refine ⟨fun v => ⟨fun h => (by cases h), ?_⟩, fun e h => (by cases h; rfl)⟩
      rintro ⟨-, bs, h, -⟩; exact absurd ⟨bs, h⟩ h1
  · rw [if_neg hp]
    exact ⟨fun v => ⟨fun h => (by cases h), fun h => absurd h.1 hp⟩, fun e h => (by cases h; rfl)⟩

/-! ### Zcash -/

/-- C116: `SproutZkproof(…)` accepts, on the Zcash networks, exactly bytes-like values of 33, 33, 65, 33, 33, 33, 33 and 33 bytes; everything else raises ValueError. -/
theorem C116_sproutProof (net : Network) (a a' b b' c c' k h : Val) :
    (∀ v, Dyn.sproutProof net a a' b b' c c' k h = .ok v ↔ net.isZcash = true ∧
      ∃ bs, Fields [(a, 33), (a', 33), (b, 65), (b', 33), (c, 33), (c', 33), (k, 33), (h, 33)] bs ∧ v = .obj .sproutProof [a, a', b, b', c, c', k, h] bs.flatten) ∧
    ∀ e, Dyn.sproutProof net a a' b b' c c' k h = .error e → e = .valueError :=
  record_spec net.isZcash .sproutProof [(a, 33), (a', 33), (b, 65), (b', 33), (c, 33), (c', 33), (k, 33), (h, 33)]

/-- C116: `SaplingZkproof(…)` likewise, with 48, 96 and 48 bytes. -/
theorem C116_saplingProof (net : Network) (a b c : Val) :
    (∀ v, Dyn.saplingProof net a b c = .ok v ↔ net.isZcash = true ∧ ∃ bs, Fields [(a, 48), (b, 96), (c, 48)] bs ∧ v = .obj .saplingProof [a, b, c] bs.flatten) ∧
    ∀ e, Dyn.saplingProof net a b c = .error e → e = .valueError :=
  record_spec net.isZcash .saplingProof [(a, 48), (b, 96), (c, 48)]

example : Dyn.saplingProof zcashSaplingMain (.bytearray (List.replicate 48 1)) (.bytes (List.replicate 96 2)) (.obj .other [] (List.replicate 48 3)) =
      .ok (.obj .saplingProof [.bytearray (List.replicate 48 1), .bytes (List.replicate 96 2), .obj .other [] (List.replicate 48 3)]
        (List.replicate 48 1 ++ List.replicate 96 2 ++ List.replicate 48 3)) ∧
    Dyn.saplingProof zcashSaplingMain (.list []) (.bytes (List.replicate 96 2)) (.bytes (List.replicate 48 3)) = .error .valueError ∧
    Dyn.saplingProof bitcoinMain (.bytes (List.replicate 48 1)) (.bytes (List.replicate 96 2)) (.bytes (List.replicate 48 3)) = .error .valueError := ⟨rfl, rfl, rfl⟩

theorem contents_cons {v : Val} {l : List Val} {b : Bytes} {bs : List Bytes} (h : v.content = some b) (hs : Contents l bs) : Contents (v :: l) (b :: bs) := by
  simp only [Contents, List.map_cons, h]; rw [hs]

theorem contents_nil : Contents [] [] := rfl

/-- C116: `SaplingShieldedSpend(…)` accepts, on the Zcash networks, exactly bytes-like values of 32, 32, 32, 32 and (the signature) 64 bytes, and an object of class
`SaplingZkproof`; everything else raises ValueError. -/
theorem C116_spend (net : Network) (cv anchor nullifier rk zkproof sig : Val) :
    (∀ v, Dyn.saplingSpend net cv anchor nullifier rk zkproof sig = .ok v ↔ net.isZcash = true ∧
      ∃ b1 b2 b3 b4 b5 z, Fields [(cv, 32), (anchor, 32), (nullifier, 32), (rk, 32), (sig, 64)] [b1, b2, b3, b4, b5] ∧ zkproof.isInstance .saplingProof = true ∧
        Byteslike zkproof z ∧ v = .obj .saplingSpend [cv, anchor, nullifier, rk, zkproof, sig] (b1 ++ b2 ++ b3 ++ b4 ++ z ++ b5)) ∧
    ∀ e, Dyn.saplingSpend net cv anchor nullifier rk zkproof sig = .error e → e = .valueError := by
  unfold Dyn.saplingSpend zcashGate
  rw [check_bind]
  by_cases hp : net.isZcash = true
  case neg => rw [if_neg hp]; exact ⟨fun v => ⟨fun h => (by cases h), fun h => absurd h.1 hp⟩, fun e h => (by cases h; rfl)⟩
  rw [if_pos hp]
  rcases validateAll_cases [(cv, 32), (anchor, 32), (nullifier, 32), (rk, 32), (sig, 64)] with ⟨bs, h1, h2⟩ | ⟨h1, h2⟩
  case inr =>
    rw [h2]
    refine ⟨fun v => ⟨fun h => (by cases h), ?_⟩, fun e h => (by cases h; rfl)⟩
    rintro ⟨-, b1, b2, b3, b4, b5, z, h, -⟩; exact absurd ⟨_, h⟩ h1
  rw [h2, ok_bind, check_bind]
  by_cases hz : zkproof.isInstance .saplingProof = true
  case neg =>
    rw [if_neg hz]
    refine ⟨fun v => ⟨fun h => (by cases h), ?_⟩, fun e h => (by cases h; rfl)⟩
    rintro ⟨-, b1, b2, b3, b4, b5, z, -, h, -⟩; exact absurd h hz
  rw [if_pos hz]
  obtain ⟨z, cz⟩ := isInstance_content hz
  have h1' := h1
  simp only [Fields.cons, Fields.nil] at h1
  obtain ⟨b1, _, rfl, c1, -, b2, _, rfl, c2, -, b3, _, rfl, c3, -, b4, _, rfl, c4, -, b5, _, rfl, c5, -, rfl⟩ := h1
  have hc : Contents [cv, anchor, nullifier, rk, zkproof, sig] [b1, b2, b3, b4, z, b5] :=
    contents_cons c1 (contents_cons c2 (contents_cons c3 (contents_cons c4 (contents_cons cz (contents_cons c5 contents_nil)))))
  rw [iaddAll_ok hc, ok_bind]
  refine ⟨fun v => ⟨fun h => ?_, ?_⟩, fun e h => (by cases h)⟩
  · cases h; exact ⟨hp, b1, b2, b3, b4, b5, z, h1', hz, cz, by simp⟩
  · rintro ⟨-, x1, x2, x3, x4, x5, z', h, -, h', rfl⟩
    have e := h.unique h1'
    unfold Byteslike at h'
    rw [cz] at h'
    cases h'
    simp only [List.cons.injEq] at e
    obtain ⟨rfl, rfl, rfl, rfl, rfl, -⟩ := e
    simp

/-- C116: `SaplingShieldedOutput(…)` likewise, with 32, 32, 32, 580 and 80 bytes. -/
theorem C116_output (net : Network) (cv cmu ephemeralKey enc out zkproof : Val) :
    (∀ v, Dyn.saplingOutput net cv cmu ephemeralKey enc out zkproof = .ok v ↔ net.isZcash = true ∧
      ∃ b1 b2 b3 b4 b5 z, Fields [(cv, 32), (cmu, 32), (ephemeralKey, 32), (enc, 580), (out, 80)] [b1, b2, b3, b4, b5] ∧ zkproof.isInstance .saplingProof = true ∧
        Byteslike zkproof z ∧ v = .obj .saplingOutput [cv, cmu, ephemeralKey, enc, out, zkproof] (b1 ++ b2 ++ b3 ++ b4 ++ b5 ++ z)) ∧
    ∀ e, Dyn.saplingOutput net cv cmu ephemeralKey enc out zkproof = .error e → e = .valueError := by
  unfold Dyn.saplingOutput zcashGate
  rw [check_bind]
  by_cases hp : net.isZcash = true
  case neg => rw [if_neg hp]; exact ⟨fun v => ⟨fun h => (by cases h), fun h => absurd h.1 hp⟩, fun e h => (by cases h; rfl)⟩
  rw [if_pos hp]
  rcases validateAll_cases [(cv, 32), (cmu, 32), (ephemeralKey, 32), (enc, 580), (out, 80)] with ⟨bs, h1, h2⟩ | ⟨h1, h2⟩
  case inr =>
    rw [h2]
    refine ⟨fun v => ⟨fun h => (by cases h), ?_⟩, fun e h => (by cases h; rfl)⟩
    rintro ⟨-, b1, b2, b3, b4, b5, z, h, -⟩; exact absurd ⟨_, h⟩ h1
  rw [h2, ok_bind, check_bind]
  by_cases hz : zkproof.isInstance .saplingProof = true
  case neg =>
    rw [if_neg hz]
    refine ⟨fun v => ⟨fun h => (by cases h), ?_⟩, fun e h => (by cases h; rfl)⟩
    rintro ⟨-, b1, b2, b3, b4, b5, z, -, h, -⟩; exact absurd h hz
  rw [if_pos hz]
  obtain ⟨z, cz⟩ := isInstance_content hz
  have h1' := h1
  simp only [Fields.cons, Fields.nil] at h1
  obtain ⟨b1, _, rfl, c1, -, b2, _, rfl, c2, -, b3, _, rfl, c3, -, b4, _, rfl, c4, -, b5, _, rfl, c5, -, rfl⟩ := h1
  have hc : Contents [cv, cmu, ephemeralKey, enc, out, zkproof] [b1, b2, b3, b4, b5, z] :=
    contents_cons c1 (contents_cons c2 (contents_cons c3 (contents_cons c4 (contents_cons c5 (contents_cons cz contents_nil)))))
  rw [iaddAll_ok hc, ok_bind]
  refine ⟨fun v => ⟨fun h => ?_, ?_⟩, fun e h => (by cases h)⟩
  · cases h; exact ⟨hp, b1, b2, b3, b4, b5, z, h1', hz, cz, by simp⟩
  · rintro ⟨-, x1, x2, x3, x4, x5, z', h, -, h', rfl⟩
    have e := h.unique h1'
    unfold Byteslike at h'
    rw [cz] at h'
    cases h'
    simp only [List.cons.injEq] at e
    obtain ⟨rfl, rfl, rfl, rfl, rfl, -⟩ := e
    simp

/-! ### joinsplits -/

theorem le2i_content {v : Val} {b : Bytes} (h : v.content = some b) : v.le2i = .ok (leValue b) := by
  cases v <;> simp [Val.content] at h <;> subst h <;> simp only [Val.le2i, Verif.le2i, leToNat_eq_leValue]

theorem byteList_error {l : List Val} {e : PyErr} (h : Val.byteList l = .error e) : e = .valueError ∨ e = .typeError := by
  induction l with
  | nil => cases h
  | cons v l ih =>
    unfold Val.byteList at h
    split at h
    · cases h
    · rename_i heq
      cases heq
      split at h
      · cases hl : Val.byteList l with
        | ok b => rw [hl] at h; cases h
        | error e' => rw [hl] at h; cases h; exact ih hl
      · cases h; exact .inl rfl
    · cases h; exact .inr rfl

theorem le2i_error {v : Val} {e : PyErr} (h : v.le2i = .error e) : v.content = none ∧ (e = .valueError ∨ e = .typeError) := by
  cases v with
  | list l =>
    refine ⟨rfl, ?_⟩
    change (Val.byteList l >>= fun b => .ok (Verif.le2i b)) = _ at h
    cases hl : Val.byteList l with
    | ok b => rw [hl] at h; cases h
    | error e' => rw [hl] at h; cases h; exact byteList_error hl
  | tuple l =>
    refine ⟨rfl, ?_⟩
    change (Val.byteList l >>= fun b => .ok (Verif.le2i b)) = _ at h
    cases hl : Val.byteList l with
    | ok b => rw [hl] at h; cases h
    | error e' => rw [hl] at h; cases h; exact byteList_error hl
  | none => cases h; exact ⟨rfl, .inr rfl⟩
  | int n => cases h; exact ⟨rfl, .inr rfl⟩
  | str s => cases h; exact ⟨rfl, .inr rfl⟩
  | bytes b => cases h
  | bytearray b => cases h
  | obj c a b => cases h

/-- The fields of a joinsplit apart from the proof, with their widths. -/
def jsFields (vpubOld vpubNew anchor nullifiers commitments ephemeralKey randomSeed vmacs encodedNotes : Val) : List (Val × Nat) :=
  [(vpubOld, 8), (vpubNew, 8), (anchor, 32), (nullifiers, 64), (commitments, 64), (ephemeralKey, 32), (randomSeed, 32), (vmacs, 64), (encodedNotes, 1202)]

theorem checkVpub_ok {o n : Val} {x y : Bytes} (ho : o.content = some x) (hn : n.content = some y) :
    Dyn.checkVpub o n = check (leValue x = 0 ∨ leValue y = 0) .valueError := by
  unfold Dyn.checkVpub
  rw [le2i_content ho, ok_bind, le2i_content hn, ok_bind]
  unfold check
  by_cases h1 : leValue x = 0 <;> by_cases h2 : leValue y = 0 <;> simp [h1, h2]

theorem checkVpub_error {o n : Val} {e : PyErr} (h : Dyn.checkVpub o n = .error e) :
    e = .valueError ∨ e = .typeError ∧ (o.content = none ∨ n.content = none) := by
  unfold Dyn.checkVpub at h
  cases ho : o.le2i with
  | error e' =>
    rw [ho] at h; cases h
    obtain ⟨h1, rfl | rfl⟩ := le2i_error ho
    · exact .inl rfl
    · exact .inr ⟨rfl, .inl h1⟩
  | ok x =>
    rw [ho, ok_bind] at h
    split at h
    · cases hn : n.le2i with
      | error e' =>
        rw [hn] at h; cases h
        obtain ⟨h1, rfl | rfl⟩ := le2i_error hn
        · exact .inl rfl
        · exact .inr ⟨rfl, .inr h1⟩
      | ok y =>
        rw [hn, ok_bind] at h
        unfold check at h
        split at h
        · cases h
        · cases h; exact .inl rfl
    · cases h

/-- C116: the constructor of a joinsplit accepts, on the Zcash networks, exactly an object of the class of its proof, bytes-like values of 8, 8, 32, 64, 64, 32, 32, 64 and 1202
bytes, and not both public values different from zero. Everything else raises ValueError, except that public values that are not bytes-like may raise TypeError. -/
theorem C116_joinsplit (cls proof : Cls) (net : Network) (vo vn an nu cm ek rs vm zk en : Val) :
    (∀ v, Dyn.joinsplit cls proof net vo vn an nu cm ek rs vm zk en = .ok v ↔ net.isZcash = true ∧ zk.isInstance proof = true ∧
      ∃ b1 b2 b3 b4 b5 b6 b7 b8 b9 z, Fields (jsFields vo vn an nu cm ek rs vm en) [b1, b2, b3, b4, b5, b6, b7, b8, b9] ∧ Byteslike zk z ∧ (leValue b1 = 0 ∨ leValue b2 = 0) ∧
        v = .obj cls [vo, vn, an, nu, cm, ek, rs, vm, zk, en] (b1 ++ b2 ++ b3 ++ b4 ++ b5 ++ b6 ++ b7 ++ b8 ++ z ++ b9)) ∧
    ∀ e, Dyn.joinsplit cls proof net vo vn an nu cm ek rs vm zk en = .error e → e = .valueError ∨ e = .typeError ∧ (vo.content = none ∨ vn.content = none) := by
  unfold Dyn.joinsplit zcashGate
  rw [check_bind]
  by_cases hp : net.isZcash = true
  case neg => rw [if_neg hp]; exact ⟨fun v => ⟨fun h => (by cases h), fun h => absurd h.1 hp⟩, fun e h => (by cases h; exact .inl rfl)⟩
  rw [if_pos hp, check_bind]
  by_cases hz : zk.isInstance proof = true
  case neg => rw [if_neg hz]; exact ⟨fun v => ⟨fun h => (by cases h), fun h => absurd h.2.1 hz⟩, fun e h => (by cases h; exact .inl rfl)⟩
  rw [if_pos hz]
  obtain ⟨z, cz⟩ := isInstance_content hz
  rcases validateAll_cases (jsFields vo vn an nu cm ek rs vm en) with ⟨bs, h1, h2⟩ | ⟨h1, h2⟩
  case inr =>
    constructor
    · intro v
      constructor
      · intro h
        obtain ⟨_, _, h⟩ := bind_ok_iff.1 h
        rw [show Val.validateAll [(vo, 8), (vn, 8), (an, 32), (nu, 64), (cm, 64), (ek, 32), (rs, 32), (vm, 64), (en, 1202)] = .error .valueError from h2] at h
        cases h
      · rintro ⟨-, -, _, _, _, _, _, _, _, _, _, _, h, -⟩; exact absurd ⟨_, h⟩ h1
    · intro e h
      cases hv : Dyn.checkVpub vo vn with
      | error e' => rw [hv] at h; cases h; exact checkVpub_error hv
      | ok u =>
        rw [hv, ok_bind, show Val.validateAll [(vo, 8), (vn, 8), (an, 32), (nu, 64), (cm, 64), (ek, 32), (rs, 32), (vm, 64), (en, 1202)] = .error .valueError from h2] at h
        cases h; exact .inl rfl
  have h1' := h1
  simp only [jsFields, Fields.cons, Fields.nil] at h1
  obtain ⟨b1, _, rfl, c1, -, b2, _, rfl, c2, -, b3, _, rfl, c3, -, b4, _, rfl, c4, -, b5, _, rfl, c5, -, b6, _, rfl, c6, -, b7, _, rfl, c7, -, b8, _, rfl, c8, -,
    b9, _, rfl, c9, -, rfl⟩ := h1
  rw [show Val.validateAll [(vo, 8), (vn, 8), (an, 32), (nu, 64), (cm, 64), (ek, 32), (rs, 32), (vm, 64), (en, 1202)] = .ok () from h2]
  have hc : Contents [vo, vn, an, nu, cm, ek, rs, vm, zk, en] [b1, b2, b3, b4, b5, b6, b7, b8, z, b9] :=
    contents_cons c1 (contents_cons c2 (contents_cons c3 (contents_cons c4 (contents_cons c5 (contents_cons c6 (contents_cons c7 (contents_cons c8 (contents_cons cz
      (contents_cons c9 contents_nil)))))))))
  rw [iaddAll_ok hc, checkVpub_ok c1 c2, check_bind]
  simp only [ok_bind]
  by_cases hv : leValue b1 = 0 ∨ leValue b2 = 0
  · rw [if_pos hv]
    refine ⟨fun v => ⟨fun h => ?_, ?_⟩, fun e h => (by cases h)⟩
    · cases h; exact ⟨hp, hz, b1, b2, b3, b4, b5, b6, b7, b8, b9, z, h1', cz, hv, by simp⟩
    · rintro ⟨-, -, x1, x2, x3, x4, x5, x6, x7, x8, x9, z', h, h', -, rfl⟩
      have e := h.unique h1'
      unfold Byteslike at h'
      rw [cz] at h'
      cases h'
      simp only [List.cons.injEq] at e
      obtain ⟨rfl, rfl, rfl, rfl, rfl, rfl, rfl, rfl, rfl, -⟩ := e
      simp
  · rw [if_neg hv]
    refine ⟨fun v => ⟨fun h => (by cases h), ?_⟩, fun e h => (by cases h; exact .inl rfl)⟩
    rintro ⟨-, -, x1, x2, x3, x4, x5, x6, x7, x8, x9, z', h, -, h', -⟩
    have e := h.unique h1'
    simp only [List.cons.injEq] at e
    obtain ⟨rfl, rfl, -⟩ := e
    exact absurd h' hv

/-- C116: a value that is not bytes-like where a joinsplit's public value belongs raises TypeError, not ValueError as elsewhere. -/
theorem C116_vpub_none (net : Network) (hz : net.isZcash = true) (zk vn an nu cm ek rs vm en : Val) :
    (zk.isInstance .sproutProof = true → Dyn.sproutJs net .none vn an nu cm ek rs vm zk en = .error .typeError) ∧
    (zk.isInstance .saplingProof = true → Dyn.saplingJs net .none vn an nu cm ek rs vm zk en = .error .typeError) := by
  unfold Dyn.sproutJs Dyn.saplingJs Dyn.joinsplit zcashGate
  refine ⟨fun h => ?_, fun h => ?_⟩ <;>
  · rw [check_bind, if_pos hz, check_bind, if_pos h]; rfl

/-! ### Decred -/

/-- C117: `DecredOutpoint(…)` accepts, on the Decred networks, exactly bytes-like values of 32, 4 and 1 bytes; everything else raises ValueError. -/
theorem C117_outpoint (net : Network) (a b c : Val) :
    (∀ v, Dyn.dcrOutpoint net a b c = .ok v ↔ net.isDecred = true ∧ ∃ bs, Fields [(a, 32), (b, 4), (c, 1)] bs ∧ v = .obj .dcrOutpoint [a, b, c] bs.flatten) ∧
    ∀ e, Dyn.dcrOutpoint net a b c = .error e → e = .valueError :=
  record_spec net.isDecred .dcrOutpoint [(a, 32), (b, 4), (c, 1)]

/-- C117: `DecredTxIn(…)` likewise, with 37 and 4 bytes; the outpoint need not be one. -/
theorem C117_txIn (net : Network) (a b : Val) :
    (∀ v, Dyn.dcrTxIn net a b = .ok v ↔ net.isDecred = true ∧ ∃ bs, Fields [(a, 37), (b, 4)] bs ∧ v = .obj .dcrTxIn [a, b] bs.flatten) ∧
    ∀ e, Dyn.dcrTxIn net a b = .error e → e = .valueError :=
  record_spec net.isDecred .dcrTxIn [(a, 37), (b, 4)]

/-- C117: `DecredTxOut(…)` accepts bytes-like values of 8 and 2 bytes and a bytes-like script; everything else raises ValueError. -/
theorem C117_txOut (net : Network) (a b s : Val) :
    (∀ v, Dyn.dcrTxOut net a b s = .ok v ↔ net.isDecred = true ∧ ∃ x y z, Fields [(a, 8), (b, 2)] [x, y] ∧ Byteslike s z ∧ z.length < 2 ^ 64 ∧
      v = .obj .dcrTxOut [a, b, .int z.length, s] (dcrOut x y z)) ∧
    ∀ e, Dyn.dcrTxOut net a b s = .error e → e = .valueError := by
  unfold Dyn.dcrTxOut decredGate
  rw [check_bind]
  by_cases hp : net.isDecred = true
  case neg => rw [if_neg hp]; exact ⟨fun v => ⟨fun h => (by cases h), fun h => absurd h.1 hp⟩, fun e h => (by cases h; rfl)⟩
  rw [if_pos hp]
  rcases validateAll_cases [(a, 8), (b, 2)] with ⟨bs, h1, h2⟩ | ⟨h1, h2⟩
  case inr =>
    rw [h2]
    refine ⟨fun v => ⟨fun h => (by cases h), ?_⟩, fun e h => (by cases h; rfl)⟩
    rintro ⟨-, _, _, _, h, -⟩; exact absurd ⟨_, h⟩ h1
  rw [h2, ok_bind]
  rcases validate_cases s none with ⟨z, hz, -, e⟩ | ⟨hz, e⟩
  case inr =>
    rw [e]
    refine ⟨fun v => ⟨fun h => (by cases h), ?_⟩, fun e h => (by cases h; rfl)⟩
    rintro ⟨-, _, _, z, _, h, -⟩; exact absurd ⟨z, h, fun k e => by cases e⟩ hz
  have h1' := h1
  simp only [Fields.cons, Fields.nil] at h1
  obtain ⟨x, _, rfl, c1, -, y, _, rfl, c2, -, rfl⟩ := h1
  rw [e, ok_bind, iaddAll_ok (contents_cons c1 (contents_cons c2 contents_nil)), len_content hz]
  simp only [ok_bind]
  by_cases hl : z.length < 2 ^ 64
  case neg =>
    rw [VarInt.make_len_error hl]
    refine ⟨fun v => ⟨fun h => (by cases h), ?_⟩, fun e h => (by cases h; rfl)⟩
    rintro ⟨-, _, _, z', _, h, h', -⟩
    unfold Byteslike at h; rw [hz] at h; cases h; exact absurd h' hl
  rw [VarInt.make_len hl, ok_bind, iadd_ok.2 ⟨z, hz, rfl⟩, ok_bind]
  refine ⟨fun v => ⟨fun h => ?_, ?_⟩, fun e h => (by cases h)⟩
  · cases h; exact ⟨hp, x, y, z, h1', hz, hl, by simp [dcrOut, varBytes]⟩
  · rintro ⟨-, x', y', z', h, h', -, rfl⟩
    have e := h.unique h1'
    unfold Byteslike at h'; rw [hz] at h'; cases h'
    simp only [List.cons.injEq] at e
    obtain ⟨rfl, rfl, -⟩ := e
    simp [dcrOut, varBytes]

/-- C117: `DecredInputWitness(…)` accepts bytes-like values of 8, 4 and 4 bytes, and scripts of type `bytes` or `bytearray`; scripts that are `ByteData` objects raise TypeError,
everything else ValueError. -/
theorem C117_witness (net : Network) (a b c s r : Val) :
    (∀ v, Dyn.dcrWitness net a b c s r = .ok v ↔ net.isDecred = true ∧ ∃ x y z bs br sig, Fields [(a, 8), (b, 4), (c, 4)] [x, y, z] ∧ Byteslike s bs ∧ Byteslike r br ∧
      (bs ++ br).length < 2 ^ 64 ∧ Val.add s r = .ok sig ∧ Byteslike sig (bs ++ br) ∧
      v = .obj .dcrWitness [a, b, c, .int (bs ++ br).length, s, r, sig] (Spec.dcrWitness x y z (bs ++ br))) ∧
    ((∃ sig, Val.add s r = .ok sig) ↔ RawBytes s ∧ RawBytes r) ∧
    ∀ e, Dyn.dcrWitness net a b c s r = .error e → e = .valueError ∨ e = .typeError ∧ ¬ (RawBytes s ∧ RawBytes r) := by
  refine (fun h => ⟨h.1, add_ok, h.2⟩ : _ ∧ _ → _) ?_
  unfold Dyn.dcrWitness decredGate
  rw [check_bind]
  by_cases hp : net.isDecred = true
  case neg => rw [if_neg hp]; exact ⟨fun v => ⟨fun h => (by cases h), fun h => absurd h.1 hp⟩, fun e h => (by cases h; exact .inl rfl)⟩
  rw [if_pos hp]
  rcases validateAll_cases [(a, 8), (b, 4), (c, 4)] with ⟨bs, h1, h2⟩ | ⟨h1, h2⟩
  case inr =>
    rw [h2]
    refine ⟨fun v => ⟨fun h => (by cases h), ?_⟩, fun e h => (by cases h; exact .inl rfl)⟩
    rintro ⟨-, _, _, _, _, _, _, h, -⟩; exact absurd ⟨_, h⟩ h1
  rw [h2, ok_bind]
  rcases validate_cases s none with ⟨bs, hs, -, e⟩ | ⟨hs, e⟩
  case inr =>
    rw [e]
    refine ⟨fun v => ⟨fun h => (by cases h), ?_⟩, fun e h => (by cases h; exact .inl rfl)⟩
    rintro ⟨-, _, _, _, z, _, _, _, h, -⟩; exact absurd ⟨z, h, fun k e => by cases e⟩ hs
  rw [e, ok_bind]
  rcases validate_cases r none with ⟨br, hr, -, e⟩ | ⟨hr, e⟩
  case inr =>
    rw [e]
    refine ⟨fun v => ⟨fun h => (by cases h), ?_⟩, fun e h => (by cases h; exact .inl rfl)⟩
    rintro ⟨-, _, _, _, _, z, _, _, _, h, -⟩; exact absurd ⟨z, h, fun k e => by cases e⟩ hr
  have h1' := h1
  simp only [Fields.cons, Fields.nil] at h1
  obtain ⟨x, _, rfl, c1, -, y, _, rfl, c2, -, z, _, rfl, c3, -, rfl⟩ := h1
  rw [e, ok_bind, iaddAll_ok (contents_cons c1 (contents_cons c2 (contents_cons c3 contents_nil))), len_content hs, len_content hr]
  simp only [ok_bind]
  by_cases hl : bs.length + br.length < 2 ^ 64
  case neg =>
    rw [VarInt.make_len_error hl]
    refine ⟨fun v => ⟨fun h => (by cases h), ?_⟩, fun e h => (by cases h; exact .inl rfl)⟩
    rintro ⟨-, _, _, _, bs', br', _, _, h, h', h'', -⟩
    unfold Byteslike at h h'; rw [hs] at h; rw [hr] at h'; cases h; cases h'; rw [List.length_append] at h''; exact absurd h'' hl
  rw [VarInt.make_len hl, ok_bind, iadd_ok.2 ⟨bs, hs, rfl⟩, ok_bind, iadd_ok.2 ⟨br, hr, rfl⟩, ok_bind]
  cases ha : Val.add s r with
  | error e' =>
    have he := add_error ha
    subst he
    refine ⟨fun v => ⟨fun h => (by cases h), ?_⟩, fun e h => ?_⟩
    · rintro ⟨-, _, _, _, _, _, _, _, _, _, _, h, -⟩; cases h
    · cases h
      refine .inr ⟨rfl, fun h => ?_⟩
      obtain ⟨_, h⟩ := add_ok.2 h
      rw [ha] at h; cases h
  | ok sig =>
    have hc := add_content ha hs hr
    rw [ok_bind, len_content hc, ok_bind]
    refine ⟨fun v => ⟨fun h => ?_, ?_⟩, fun e h => (by cases h)⟩
    · cases h
      exact ⟨hp, x, y, z, bs, br, sig, h1', hs, hr, by rw [List.length_append]; exact hl, rfl, hc, by simp [Spec.dcrWitness, varBytes]⟩
    · rintro ⟨-, x', y', z', bs', br', sig', h, h', h'', -, hsig, -, rfl⟩
      have e := h.unique h1'
      unfold Byteslike at h' h''; rw [hs] at h'; rw [hr] at h''; cases h'; cases h''; cases hsig
      simp only [List.cons.injEq] at e
      obtain ⟨rfl, rfl, rfl, -⟩ := e
      simp [Spec.dcrWitness, varBytes]

example : Dyn.dcrWitness decredMain (.bytes (List.replicate 8 0)) (.bytes [0, 0, 0, 0]) (.bytearray [255, 255, 255, 255]) (.bytes [1]) (.bytearray [2, 3]) =
      .ok (.obj .dcrWitness [.bytes (List.replicate 8 0), .bytes [0, 0, 0, 0], .bytearray [255, 255, 255, 255], .int 3, .bytes [1], .bytearray [2, 3], .bytes [1, 2, 3]]
        (List.replicate 8 0 ++ [0, 0, 0, 0, 255, 255, 255, 255, 3, 1, 2, 3])) ∧
    Dyn.dcrWitness decredMain (.bytes (List.replicate 8 0)) (.bytes [0, 0, 0, 0]) (.bytearray [255, 255, 255, 255]) (.bytes [1]) (.obj .other [] [2, 3]) = .error .typeError :=
  ⟨rfl, rfl⟩

end Verif.Props
