import Verif.Props.DynZTx2
import Verif.Props.DynZTx3
import Verif.Props.DynDcrTx
import Verif.Spec.SpendZcash
import Verif.Spec.SpendDecred

/-! # Whatever a program does with the constructors for Zcash and Decred, the objects are what their class says (C116, C117)

`Made` are the values that a program can have: of the built-in types, and what the constructors make of such values. -/

namespace Verif.Props

open Spec

variable {S : Network → Prop}

theorem fields_length {fs : List (Val × Nat)} {bs : List Bytes} (h : Fields fs bs) : bs.map List.length = fs.map (·.2) := by
  induction fs generalizing bs with
  | nil => rw [Fields.nil.1 h]; rfl
  | cons f fs ih =>
    cases f with
    | mk v n =>
    obtain ⟨b, bs, rfl, -, l, hs⟩ := Fields.cons.1 h
    simp only [List.map_cons, l, ih hs]

theorem SeqOf.made {E : Env} {c : Cls} {v : Val} {l : List Val} {bs : List Bytes} (h : SeqOf c v l bs) (hv : MadeOn S E v) : ∀ x ∈ l, MadeOn S E x ∧ x.isInstance c = true := by
  intro x hx
  refine ⟨?_, List.all_eq_true.1 h.cls x hx⟩
  rcases h.seq with hs | ⟨-, rfl⟩
  · exact made_seq hv hs x hx
  · exact nomatch hx

theorem safe_sproutProof {E : Env} {v : Val} {b : Bytes} (h : MadeOn S E v) (hc : v.isInstance .sproutProof = true) (hb : v.content = some b) : b.length = 296 := by
  cases v <;> simp [Val.isInstance] at hc
  next c t x =>
  subst hc
  obtain ⟨n, hS, a, a', b', b'', c, c', k, g, h⟩ := made_on h
  obtain ⟨-, bs, hf, e⟩ := ((C116_sproutProof _ _ _ _ _ _ _ _ _).1 _).1 h
  cases e; cases hb
  rw [List.length_flatten, fields_length hf]; rfl

theorem safe_saplingProof {E : Env} {v : Val} {b : Bytes} (h : MadeOn S E v) (hc : v.isInstance .saplingProof = true) (hb : v.content = some b) : b.length = 192 := by
  cases v <;> simp [Val.isInstance] at hc
  next c t x =>
  subst hc
  obtain ⟨n, hS, a, b', c, h⟩ := made_on h
  obtain ⟨-, bs, hf, e⟩ := ((C116_saplingProof _ _ _ _).1 _).1 h
  cases e; cases hb
  rw [List.length_flatten, fields_length hf]; rfl

theorem js_length {cls proof : Cls} {net : Network} {vo vn an nu cm ek rs vm zk en v : Val} {b : Bytes} (h : Dyn.joinsplit cls proof net vo vn an nu cm ek rs vm zk en = .ok v)
    (hb : v.content = some b) : ∃ z, zk.isInstance proof = true ∧ zk.content = some z ∧ b.length = 1506 + z.length := by
  obtain ⟨-, hc, b1, b2, b3, b4, b5, b6, b7, b8, b9, z, hf, hz, -, e⟩ := ((C116_joinsplit _ _ _ _ _ _ _ _ _ _ _ _ _).1 _).1 h
  cases e; cases hb
  have hl := fields_length hf
  simp only [List.map_cons, List.map_nil, jsFields, List.cons.injEq] at hl
  obtain ⟨l1, l2, l3, l4, l5, l6, l7, l8, l9, -⟩ := hl
  refine ⟨z, hc, hz, ?_⟩
  simp only [List.length_append, l1, l2, l3, l4, l5, l6, l7, l8, l9]
  omega

/-- C116: every `SproutJoinsplit` has the 1802 bytes of a joinsplit on the wire, was made by its constructor, and moves value in at most one direction. -/
theorem C116_safe_sproutJs (E : Env) (v : Val) (h : MadeOn S E v) (hc : v.isInstance .sproutJs = true) :
    ∃ b : Bytes, b.length = 1802 ∧ (leValue (b.take 8) = 0 ∨ leValue ((b.drop 8).take 8) = 0) ∧ v.content = some b ∧ JsMade .sproutJs .sproutProof v := by
  cases v <;> simp [Val.isInstance] at hc
  next c t x =>
  subst hc
  obtain ⟨n, hS, _, _, _, _, _, _, _, _, _, _, hz, h⟩ := made_on h
  obtain ⟨z, z1, z2, e⟩ := js_length h rfl
  rw [safe_sproutProof hz z1 z2] at e
  refine ⟨x, e, ?_, rfl, ⟨_, _, _, _, _, _, _, _, _, _, _, h⟩⟩
  obtain ⟨-, -, b1, b2, b3, b4, b5, b6, b7, b8, b9, z, hf, -, hv, e⟩ := ((C116_joinsplit _ _ _ _ _ _ _ _ _ _ _ _ _).1 _).1 h
  have hl := fields_length hf
  simp only [List.map_cons, List.map_nil, jsFields, List.cons.injEq] at hl
  obtain ⟨l1, l2, -⟩ := hl
  cases e
  simp only [List.append_assoc]
  rw [List.take_left' l1, List.drop_left' l1, List.take_left' l2]
  exact hv

/-- C116: the same for `SaplingJoinsplit`, which has 1698 bytes. -/
theorem C116_safe_saplingJs (E : Env) (v : Val) (h : MadeOn S E v) (hc : v.isInstance .saplingJs = true) :
    ∃ b : Bytes, b.length = 1698 ∧ (leValue (b.take 8) = 0 ∨ leValue ((b.drop 8).take 8) = 0) ∧ v.content = some b ∧ JsMade .saplingJs .saplingProof v := by
  cases v <;> simp [Val.isInstance] at hc
  next c t x =>
  subst hc
  obtain ⟨n, hS, _, _, _, _, _, _, _, _, _, _, hz, h⟩ := made_on h
  obtain ⟨z, z1, z2, e⟩ := js_length h rfl
  rw [safe_saplingProof hz z1 z2] at e
  refine ⟨x, e, ?_, rfl, ⟨_, _, _, _, _, _, _, _, _, _, _, h⟩⟩
  obtain ⟨-, -, b1, b2, b3, b4, b5, b6, b7, b8, b9, z, hf, -, hv, e⟩ := ((C116_joinsplit _ _ _ _ _ _ _ _ _ _ _ _ _).1 _).1 h
  have hl := fields_length hf
  simp only [List.map_cons, List.map_nil, jsFields, List.cons.injEq] at hl
  obtain ⟨l1, l2, -⟩ := hl
  cases e
  simp only [List.append_assoc]
  rw [List.take_left' l1, List.drop_left' l1, List.take_left' l2]
  exact hv

/-- C116: every `SaplingShieldedSpend` is a spend description and its signature. -/
theorem C116_safe_spend (E : Env) (v : Val) (h : MadeOn S E v) (hc : v.isInstance .saplingSpend = true) :
    ∃ s : Bytes × Bytes, (s.1.length = 320 ∧ s.2.length = 64) ∧ v.content = some (s.1 ++ s.2) := by
  cases v <;> simp [Val.isInstance] at hc
  next c t x =>
  subst hc
  obtain ⟨n, hS, _, _, _, _, _, _, hm, h⟩ := made_on h
  obtain ⟨-, b1, b2, b3, b4, b5, z, hf, hzc, hz, e⟩ := ((C116_spend _ _ _ _ _ _ _).1 _).1 h
  have hl := fields_length hf
  have lz := safe_saplingProof hm hzc hz
  simp only [List.map_cons, List.map_nil, List.cons.injEq] at hl
  obtain ⟨l1, l2, l3, l4, l5, -⟩ := hl
  cases e
  refine ⟨(b1 ++ b2 ++ b3 ++ b4 ++ z, b5), ⟨?_, l5⟩, rfl⟩
  simp only [List.length_append, l1, l2, l3, l4, lz]

/-- C116: every `SaplingShieldedOutput` is an output description. -/
theorem C116_safe_output (E : Env) (v : Val) (h : MadeOn S E v) (hc : v.isInstance .saplingOutput = true) : ∃ b : Bytes, b.length = 948 ∧ v.content = some b := by
  cases v <;> simp [Val.isInstance] at hc
  next c t x =>
  subst hc
  obtain ⟨n, hS, _, _, _, _, _, _, hm, h⟩ := made_on h
  obtain ⟨-, b1, b2, b3, b4, b5, z, hf, hzc, hz, e⟩ := ((C116_output _ _ _ _ _ _ _).1 _).1 h
  have hl := fields_length hf
  have lz := safe_saplingProof hm hzc hz
  simp only [List.map_cons, List.map_nil, List.cons.injEq] at hl
  obtain ⟨l1, l2, l3, l4, l5, -⟩ := hl
  cases e
  refine ⟨_, ?_, rfl⟩
  simp only [List.length_append, l1, l2, l3, l4, l5, lz]

theorem safe_ins {E : Env} {v : Val} {l : List Val} {bs : List Bytes} (h : SeqOf .txIn v l bs) (hv : MadeOn S E v) :
    ∃ ws : List WireIn, ws.length = l.length ∧ bs = ws.map WireIn.bytes ∧ ∀ w ∈ ws, w.WF ∧ w.script.length ≤ 1650 :=
  contents_map WireIn.bytes (fun w => w.WF ∧ w.script.length ≤ 1650) h.bytes fun x hx => C114_safe_in E x (h.made hv x hx).1 (h.made hv x hx).2

theorem safe_outs {E : Env} {v : Val} {l : List Val} {bs : List Bytes} (h : SeqOf .txOut v l bs) (hv : MadeOn S E v) :
    ∃ ws : List WireOut, ws.length = l.length ∧ bs = ws.map WireOut.bytes ∧ ∀ w ∈ ws, w.WF :=
  contents_map WireOut.bytes (fun w => w.WF) h.bytes fun x hx => C114_safe_out E x (h.made hv x hx).1 (h.made hv x hx).2

theorem safe_bytes {E : Env} {c : Cls} {P : Bytes → Prop} {v : Val} {l : List Val} {bs : List Bytes} (h : SeqOf c v l bs) (hv : MadeOn S E v)
    (hp : ∀ x, MadeOn S E x → x.isInstance c = true → ∃ b, P b ∧ x.content = some b) : ∀ b ∈ bs, P b := by
  obtain ⟨ws, -, e, hw⟩ := contents_map (fun b : Bytes => b) P h.bytes fun x hx => hp x (h.made hv x hx).1 (h.made hv x hx).2
  rw [List.map_id'] at e
  rw [e]; exact hw

theorem ne_nil_of_length {α β : Type} {a : List α} {b : List β} (h : a.length = b.length) (hb : b ≠ []) : a ≠ [] := by
  rintro rfl; exact hb (List.length_eq_zero_iff.1 h.symm)

/-- `C116_safe_overwinter`, also for programs that select other networks. -/
theorem overwinter_on (E : Env) (v : Val) (h : MadeOn S E v) (hc : v.isInstance .overwinterTx = true) :
    ∃ w : ZTx, w.version = 3 ∧ w.WF ∧ (w.ins ≠ [] ∨ w.js ≠ []) ∧ w.js.length ≤ 5 ∧ leValue w.expiry ≤ 499999999 ∧ w.bytes.length ≤ 100000 ∧
      ∃ n, (n = E.net ∨ S n) ∧ ∃ attrs, v = .obj .overwinterTx attrs w.bytes ∧ attrs.drop 9 = [.bytes (Env.hash256 ⟨n, E.H⟩ w.bytes), .bytes (Env.hash256 ⟨n, E.H⟩ w.bytes).reverse] := by
  cases v <;> simp [Val.isInstance] at hc
  next c t x =>
  subst hc
  obtain ⟨n, hS, a, b, c, d, e, f, g, ma, mb, me, h⟩ := made_on h
  have hm : ∀ l, IsSeq e l → ∀ v ∈ l, v.isInstance .sproutJs = true → JsMade .sproutJs .sproutProof v := by
    intro l hl v hv hc
    obtain ⟨_, _, _, _, hj⟩ := C116_safe_sproutJs E v (made_seq me hl v hv) hc
    exact hj
  obtain ⟨bl, be, ins, outs, js, bi, bo, bj, k, s, ha, hs, e⟩ := ((C116_overwinter ⟨n, E.H⟩ _ _ _ _ _ _ _ hm).1 _).1 h
  obtain ⟨wi, i1, rfl, i3⟩ := safe_ins ha.ins_ok ma
  obtain ⟨wo, o1, rfl, o3⟩ := safe_outs ha.outs_ok mb
  have hj : ∀ b ∈ bj, b.length = 1802 := safe_bytes ha.js_ok.seq me fun x hx hc => by
    obtain ⟨b, h1, -, h2, -⟩ := C116_safe_sproutJs E x hx hc; exact ⟨b, h1, h2⟩
  have lj := ha.js_ok.seq.length
  have h5 := ha.js_ok.five
  refine ⟨⟨3, wi, wo, bl, be, [], [], [], bj, k, s, []⟩, rfl, ⟨⟨by simp, by simp⟩, ha.lock_len, ⟨by rw [i1]; exact ha.ins_lt, fun i hi => (i3 i hi).1⟩,
    ⟨by rw [o1]; exact ha.outs_lt, o3⟩, fun _ => ha.exp_len, ?_, ?_, (fun h => by cases h), ?_, ?_, ?_⟩, ?_, by rw [← lj]; exact h5, ha.exp_le, hs, n, hS, _, e, ?_⟩
  · rw [if_neg (by simp)]; exact ⟨by simp only; omega, hj⟩
  · intro hne
    have := ha.js_ok.keys (fun e0 => hne (List.length_eq_zero_iff.1 (by rw [← lj]; exact e0)))
    exact ⟨this.2.1, this.2.2.2⟩
  · rfl
  · rfl
  · rintro (h | h) <;> exact absurd rfl h
  · rcases ha.some with h | h
    · exact .inl (ne_nil_of_length i1 h)
    · exact .inr (ne_nil_of_length lj.symm h)
  · cases e
    unfold jsObjs
    split <;> rfl

/-- C116: every `OverwinterTx` that a program can make, of whatever values, is a transaction of version 3 on the wire, with an input or a joinsplit, at most 5 joinsplits and 100000
bytes and an expiry height below 500000000, and its id is the hash of its bytes. -/
theorem C116_safe_overwinter (E : Env) (v : Val) (h : Made E v) (hc : v.isInstance .overwinterTx = true) :
    ∃ w : ZTx, w.version = 3 ∧ w.WF ∧ (w.ins ≠ [] ∨ w.js ≠ []) ∧ w.js.length ≤ 5 ∧ leValue w.expiry ≤ 499999999 ∧ w.bytes.length ≤ 100000 ∧
      ∃ attrs, v = .obj .overwinterTx attrs w.bytes ∧ attrs.drop 9 = [.bytes (E.hash256 w.bytes), .bytes (E.hash256 w.bytes).reverse] := by
  obtain ⟨w, h1, h2, h3, h4, h5, h6, n, rfl | h, h0⟩ := overwinter_on E v h hc
  · exact ⟨w, h1, h2, h3, h4, h5, h6, h0⟩
  · exact h.elim

/-- `C116_safe_sapling`, also for programs that select other networks. -/
theorem sapling_on (E : Env) (v : Val) (h : MadeOn S E v) (hc : v.isInstance .saplingTx = true) :
    ∃ w : ZTx, w.version = 4 ∧ w.WF ∧ (w.ins ≠ [] ∨ w.js ≠ [] ∨ w.spends ≠ []) ∧ w.js.length ≤ 5 ∧ leValue w.expiry ≤ 499999999 ∧ w.bytes.length ≤ 100000 ∧
      (w.spends = [] → w.outputs = [] → w.balance = List.replicate 8 0) ∧
      ∃ n, (n = E.net ∨ S n) ∧ ∃ attrs, v = .obj .saplingTx attrs w.bytes ∧ attrs.drop 13 = [.bytes (Env.hash256 ⟨n, E.H⟩ w.bytes), .bytes (Env.hash256 ⟨n, E.H⟩ w.bytes).reverse] := by
  cases v <;> simp [Val.isInstance] at hc
  next c t x =>
  subst hc
  obtain ⟨n, hS, a, b, c, d, e, f, g, i, j, k', l', ma, mb, mf, mg, mi, h⟩ := made_on h
  have hm : ∀ l, IsSeq i l → ∀ v ∈ l, v.isInstance .saplingJs = true → JsMade .saplingJs .saplingProof v := by
    intro l hl v hv hc
    obtain ⟨_, _, _, _, hj⟩ := C116_safe_saplingJs E v (made_seq mi hl v hv) hc
    exact hj
  obtain ⟨bl, be, bb, ins, outs, ss, so, js, bi, bo, bs, bt, bj, k, s, bg, ha, hb, hbn, hs, e⟩ := ((C116_sapling ⟨n, E.H⟩ _ _ _ _ _ _ _ _ _ _ _ hm).1 _).1 h
  obtain ⟨wi, i1, rfl, i3⟩ := safe_ins ha.ins_ok ma
  obtain ⟨wo, o1, rfl, o3⟩ := safe_outs ha.outs_ok mb
  obtain ⟨ws, s1, rfl, s3⟩ := contents_map (fun s : Bytes × Bytes => s.1 ++ s.2) (fun s => s.1.length = 320 ∧ s.2.length = 64) ha.spends_ok.bytes
    fun x hx => C116_safe_spend E x (ha.spends_ok.made mf x hx).1 (ha.spends_ok.made mf x hx).2
  have hj : ∀ b ∈ bj, b.length = 1698 := safe_bytes ha.js_ok.seq mi fun x hx hc => by
    obtain ⟨b, h1, -, h2, -⟩ := C116_safe_saplingJs E x hx hc; exact ⟨b, h1, h2⟩
  have ht : ∀ b ∈ bt, b.length = 948 := safe_bytes ha.outputs_ok mg fun x hx hc => C116_safe_output E x hx hc
  have lj := ha.js_ok.seq.length
  have lt := ha.outputs_ok.length
  have h5 := ha.js_ok.five
  refine ⟨⟨4, wi, wo, bl, be, bb, ws, bt, bj, k, s, bg⟩, rfl, ⟨⟨by simp, by simp⟩, ha.lock_len, ⟨by rw [i1]; exact ha.ins_lt, fun i hi => (i3 i hi).1⟩,
    ⟨by rw [o1]; exact ha.outs_lt, o3⟩, fun _ => ha.exp_len, ?_, ?_, fun _ => ha.bal_len, ?_, ?_, ?_⟩, ?_, by rw [← lj]; exact h5, ha.exp_le, hs, ?_, n, hS, _, e, ?_⟩
  · rw [if_neg (by simp)]; exact ⟨by simp only; omega, hj⟩
  · intro hne
    have := ha.js_ok.keys (fun e0 => hne (List.length_eq_zero_iff.1 (by rw [← lj]; exact e0)))
    exact ⟨this.2.1, this.2.2.2⟩
  · exact ⟨by rw [s1]; exact ha.spends_lt, s3⟩
  · exact ⟨by rw [← lt]; exact ha.outputs_lt, ht⟩
  · intro hne
    rcases hb with ⟨e0, -⟩ | ⟨-, hb⟩
    · obtain ⟨h1, h2⟩ := hbn e0
      rw [h1] at s1; rw [h2] at lt
      rcases hne with h | h
      · exact absurd (List.length_eq_zero_iff.1 s1) h
      · exact absurd (List.length_eq_zero_iff.1 lt.symm) h
    · exact hb
  · rcases ha.some with h | h | h
    · exact .inl (ne_nil_of_length i1 h)
    · exact .inr (.inl (ne_nil_of_length lj.symm h))
    · exact .inr (.inr (ne_nil_of_length s1 h))
  · intro h1 h2
    have h1 : ws = [] := h1
    have h2 : bt = [] := h2
    rw [h1] at s1; rw [h2] at lt
    exact ha.bal_zero (List.length_eq_zero_iff.1 s1.symm) (List.length_eq_zero_iff.1 lt)
  · cases e
    have : (jsObjs ⟨n, E.H⟩ j k' js bj k).length = 5 := by unfold jsObjs; split <;> rfl
    exact List.drop_left' (by rw [List.length_append, this]; rfl)

/-- C116: every `SaplingTx` is a transaction of version 4 on the wire, with something to spend; its value balance is zero without shielded spends and outputs. -/
theorem C116_safe_sapling (E : Env) (v : Val) (h : Made E v) (hc : v.isInstance .saplingTx = true) :
    ∃ w : ZTx, w.version = 4 ∧ w.WF ∧ (w.ins ≠ [] ∨ w.js ≠ [] ∨ w.spends ≠ []) ∧ w.js.length ≤ 5 ∧ leValue w.expiry ≤ 499999999 ∧ w.bytes.length ≤ 100000 ∧
      (w.spends = [] → w.outputs = [] → w.balance = List.replicate 8 0) ∧
      ∃ attrs, v = .obj .saplingTx attrs w.bytes ∧ attrs.drop 13 = [.bytes (E.hash256 w.bytes), .bytes (E.hash256 w.bytes).reverse] := by
  obtain ⟨w, h1, h2, h3, h4, h5, h6, h7, n, rfl | h, h0⟩ := sapling_on E v h hc
  · exact ⟨w, h1, h2, h3, h4, h5, h6, h7, h0⟩
  · exact h.elim

/-- `C116_safe_sprout`, also for programs that select other networks. -/
theorem sprout_on (E : Env) (v : Val) (h : MadeOn S E v) (hc : v.isInstance .sproutTx = true) :
    ∃ w : ZTx, ∃ b : Bytes, (w.version = 1 ∧ w.ins ≠ [] ∧ w.js = [] ∨ w.version = 2 ∧ w.jsPubkey.length = 32) ∧ (w.jsSig ≠ [] ∨ w.js = [] → w.WF) ∧ (∀ s : Bytes, s.length = 64 → ({ w with jsSig := s } : ZTx).WF) ∧ w.js.length ≤ 5 ∧
      b.length ≤ 100000 ∧ (b = w.bytes ∧ ¬(w.version = 2 ∧ w.js = []) ∨ w.version = 2 ∧ w.js = [] ∧ b = w.bytes ++ w.jsPubkey ++ w.jsSig) ∧ (w.jsSig = [] ∨ w.jsSig.length = 64) ∧
      ∃ n, (n = E.net ∨ S n) ∧ ∃ attrs, v = .obj .sproutTx attrs b ∧ attrs.drop 9 = [.bytes (Env.hash256 ⟨n, E.H⟩ b), .bytes (Env.hash256 ⟨n, E.H⟩ b).reverse] := by
  cases v <;> simp [Val.isInstance] at hc
  next c t x =>
  subst hc
  obtain ⟨n, hS, a, b, c, d, e, f, g, mb, mc, me, h⟩ := made_on h
  have hm : ∀ l, IsSeq e l → ∀ v ∈ l, v.isInstance .sproutJs = true → JsMade .sproutJs .sproutProof v := by
    intro l hl v hv hc
    obtain ⟨_, _, _, _, hj⟩ := C116_safe_sproutJs E v (made_seq me hl v hv) hc
    exact hj
  obtain ⟨bv, bl, ins, outs, bi, bo, ha, ⟨rfl, hj, hi, hs, e⟩ | ⟨rfl, js, bj, k, s, h2, hs, e⟩⟩ := ((C116_sprout ⟨n, E.H⟩ _ _ _ _ _ _ _ hm).1 _).1 h
  · obtain ⟨wi, i1, rfl, i3⟩ := safe_ins ha.ins_ok mb
    obtain ⟨wo, o1, rfl, o3⟩ := safe_outs ha.outs_ok mc
    have wf : ZTx.WF ⟨1, wi, wo, bl, [], [], [], [], [], [], [], []⟩ := ⟨⟨by simp, by simp⟩, ha.lock_len, ⟨by rw [i1]; exact ha.ins_lt, fun i hi => (i3 i hi).1⟩,
      ⟨by rw [o1]; exact ha.outs_lt, o3⟩, fun h => absurd h (by simp), rfl, fun h => absurd rfl h, fun h => absurd h (by simp), rfl, rfl, by rintro (h | h) <;> exact absurd rfl h⟩
    refine ⟨⟨1, wi, wo, bl, [], [], [], [], [], [], [], []⟩, x, .inl ⟨rfl, ne_nil_of_length i1 hi, rfl⟩, fun _ => wf, fun s _ => ⟨wf.1, wf.2, wf.3, wf.4, wf.5, wf.6, fun h => absurd rfl h, wf.8, wf.9, wf.10, wf.11⟩, Nat.zero_le _, ?_, .inl ⟨?_, fun h => absurd h.1 (by simp)⟩, .inl rfl, n, hS, t, rfl, ?_⟩
    · cases e; exact hs
    · cases e
      simp [ZTx.bytes, wireSprout, show leBytes 4 1 = [1, 0, 0, 0] by decide]
    · cases e; rfl
  · obtain ⟨wi, i1, rfl, i3⟩ := safe_ins ha.ins_ok mb
    obtain ⟨wo, o1, rfl, o3⟩ := safe_outs ha.outs_ok mc
    have hj : ∀ b ∈ bj, b.length = 1802 := safe_bytes h2.seq me fun x hx hc => by
      obtain ⟨b, h1, -, h2, -⟩ := C116_safe_sproutJs E x hx hc; exact ⟨b, h1, h2⟩
    have lj := h2.seq.length
    have h5 := h2.five
    have wf : ∀ s : Bytes, s.length = 64 ∨ bj = [] → ZTx.WF ⟨2, wi, wo, bl, [], [], [], [], bj, k, s, []⟩ := fun s hbs => ⟨⟨by simp, by simp⟩, ha.lock_len,
      ⟨by rw [i1]; exact ha.ins_lt, fun i hi => (i3 i hi).1⟩,
      ⟨by rw [o1]; exact ha.outs_lt, o3⟩, fun h => absurd h (by simp), by rw [if_neg (by simp)]; exact ⟨by simp only; omega, hj⟩,
      fun h => ⟨h2.key_len, hbs.elim id (fun e => absurd e h)⟩, fun h => absurd h (by simp), rfl, rfl,
      by rintro (h | h) <;> exact absurd rfl h⟩
    refine ⟨⟨2, wi, wo, bl, [], [], [], [], bj, k, s, []⟩, x, .inr ⟨rfl, h2.key_len⟩, fun h => wf s (h.elim (fun h => .inl (h2.sig_len.elim (fun e => absurd e h) id)) .inr), fun s hs => wf s (.inl hs), by rw [← lj]; exact h5, ?_, ?_, h2.sig_len, n, hS, t, rfl, ?_⟩
    · cases e; exact hs
    · cases e
      by_cases hb : bj = []
      · refine .inr ⟨rfl, hb, ?_⟩
        simp [ZTx.bytes, wireSprout, show leBytes 4 2 = [2, 0, 0, 0] by decide, wireJoinsplits, hb]
      · refine .inl ⟨?_, fun h => hb h.2⟩
        simp [ZTx.bytes, wireSprout, show leBytes 4 2 = [2, 0, 0, 0] by decide, wireJoinsplits, hb]
    · cases e; rfl

/-- C116: every `SproutTx` is a transaction of version 1 or 2 on the wire, except that in version 2 without joinsplits the public key and signature are there all the same, and that
with joinsplits the signature may be missing (as it is before the transaction is signed). -/
theorem C116_safe_sprout (E : Env) (v : Val) (h : Made E v) (hc : v.isInstance .sproutTx = true) :
    ∃ w : ZTx, ∃ b : Bytes, (w.version = 1 ∧ w.ins ≠ [] ∧ w.js = [] ∨ w.version = 2 ∧ w.jsPubkey.length = 32) ∧ (w.jsSig ≠ [] ∨ w.js = [] → w.WF) ∧ (∀ s : Bytes, s.length = 64 → ({ w with jsSig := s } : ZTx).WF) ∧ w.js.length ≤ 5 ∧
      b.length ≤ 100000 ∧ (b = w.bytes ∧ ¬(w.version = 2 ∧ w.js = []) ∨ w.version = 2 ∧ w.js = [] ∧ b = w.bytes ++ w.jsPubkey ++ w.jsSig) ∧ (w.jsSig = [] ∨ w.jsSig.length = 64) ∧
      ∃ attrs, v = .obj .sproutTx attrs b ∧ attrs.drop 9 = [.bytes (E.hash256 b), .bytes (E.hash256 b).reverse] := by
  obtain ⟨w, b, h1, h2, h3, h4, h5, h6, h7, n, rfl | h, h8⟩ := sprout_on E v h hc
  · exact ⟨w, b, h1, h2, h3, h4, h5, h6, h7, h8⟩
  · exact h.elim

/-- C117: every `DecredTx` that a program can make is a transaction on the wire (with some number of witnesses), and its id is the hash of the prefix. -/
theorem C117_safe (E : Env) (v : Val) (h : MadeOn S E v) (hc : v.isInstance .dcrTx = true) :
    ∃ w : DcrTx, w.version.length = 4 ∧ w.lockTime.length = 4 ∧ w.expiry.length = 4 ∧
      (w.ins ≠ [] ∧ w.ins.length < 2 ^ 64 ∧ ∀ i ∈ w.ins, i.txId.length = 32 ∧ i.index.length = 4 ∧ i.tree.length = 1 ∧ i.sequence.length = 4) ∧
      (w.outs ≠ [] ∧ w.outs.length < 2 ^ 64 ∧ ∀ o ∈ w.outs, o.value.length = 8 ∧ o.version.length = 2 ∧ o.script.length < 2 ^ 64) ∧
      (w.wits.length < 2 ^ 64 ∧ ∀ x ∈ w.wits, x.value.length = 8 ∧ x.height.length = 4 ∧ x.index.length = 4 ∧ x.script.length < 2 ^ 64) ∧ w.bytes.length ≤ 100000 ∧
      ∃ attrs b, v = .obj .dcrTx attrs w.bytes ∧ attrs.drop 6 = [.bytes (blake256 b), .bytes (blake256 b).reverse] ∧
        b = dcrPrefix w.version (w.ins.map fun i => dcrIn i.txId i.index i.tree i.sequence) (w.outs.map fun o => dcrOut o.value o.version o.script) w.lockTime w.expiry := by
  cases v <;> simp [Val.isInstance] at hc
  next c t x =>
  subst hc
  obtain ⟨n, hS, a, b, c, d, e, f, mb, mc, mf, h⟩ := made_on h
  obtain ⟨bv, bl, be, ins, outs, wits, bi, bo, bw, ha, hs, e⟩ := ((C117_tx _ _ _ _ _ _ _).1 _).1 h
  obtain ⟨wi, i1, rfl, i3⟩ := contents_map (fun i : DcrWireIn => dcrIn i.txId i.index i.tree i.sequence)
    (fun i => i.txId.length = 32 ∧ i.index.length = 4 ∧ i.tree.length = 1 ∧ i.sequence.length = 4) ha.ins_ok.bytes (fun v hv => by
      obtain ⟨h, hc⟩ := ha.ins_ok.made mb v hv
      cases v <;> simp [Val.isInstance] at hc
      next c t x =>
      subst hc
      obtain ⟨n, hS, a, b, h⟩ := made_on h
      obtain ⟨-, bs, hf, e⟩ := ((C117_txIn _ _ _).1 _).1 h
      obtain ⟨x1, bs, rfl, -, l1, hf⟩ := Fields.cons.1 hf
      obtain ⟨x2, bs, rfl, -, l2, hf⟩ := Fields.cons.1 hf
      cases Fields.nil.1 hf
      cases e
      refine ⟨⟨x1.take 32, (x1.drop 32).take 4, (x1.drop 32).drop 4, x2⟩, ⟨by simp [l1], by simp [l1], by simp [l1], l2⟩, ?_⟩
      have e1 : x1 = x1.take 32 ++ ((x1.drop 32).take 4 ++ (x1.drop 32).drop 4) := by rw [List.take_append_drop, List.take_append_drop]
      simp only [dcrIn, Val.content, List.flatten_cons, List.flatten_nil, List.append_nil, Option.some.injEq]
      rw [List.append_assoc (x1.take 32), ← e1])
  obtain ⟨wo, o1, rfl, o3⟩ := contents_map (fun o : DcrWireOut => dcrOut o.value o.version o.script)
    (fun o => o.value.length = 8 ∧ o.version.length = 2 ∧ o.script.length < 2 ^ 64) ha.outs_ok.bytes (fun v hv => by
      obtain ⟨h, hc⟩ := ha.outs_ok.made mc v hv
      cases v <;> simp [Val.isInstance] at hc
      next c t x =>
      subst hc
      obtain ⟨n, hS, a, b, c, h⟩ := made_on h
      obtain ⟨-, x1, x2, x3, hf, -, l3, e⟩ := ((C117_txOut _ _ _ _).1 _).1 h
      have hl := fields_length hf
      simp only [List.map_cons, List.map_nil, List.cons.injEq] at hl
      cases e
      exact ⟨⟨x1, x2, x3⟩, ⟨hl.1, hl.2.1, l3⟩, rfl⟩)
  obtain ⟨ww, w1, rfl, w3⟩ := contents_map (fun x : DcrWireWit => Spec.dcrWitness x.value x.height x.index x.script)
    (fun x => x.value.length = 8 ∧ x.height.length = 4 ∧ x.index.length = 4 ∧ x.script.length < 2 ^ 64) ha.wits_ok.bytes (fun v hv => by
      obtain ⟨h, hc⟩ := ha.wits_ok.made mf v hv
      cases v <;> simp [Val.isInstance] at hc
      next c t x =>
      subst hc
      obtain ⟨n, hS, a, b, c, d, e, h⟩ := made_on h
      obtain ⟨-, x1, x2, x3, s, r, sig, hf, -, -, l4, -, -, e⟩ := ((C117_witness _ _ _ _ _ _).1 _).1 h
      have hl := fields_length hf
      simp only [List.map_cons, List.map_nil, List.cons.injEq] at hl
      cases e
      exact ⟨⟨x1, x2, x3, s ++ r⟩, ⟨hl.1, hl.2.1, hl.2.2.1, l4⟩, rfl⟩)
  refine ⟨⟨bv, wi, wo, bl, be, ww⟩, ha.ver_len, ha.lock_len, ha.exp_len, ⟨ne_nil_of_length i1 ha.ins_ne, by rw [i1]; exact ha.ins_lt, i3⟩,
    ⟨ne_nil_of_length o1 ha.outs_ne, by rw [o1]; exact ha.outs_lt, o3⟩, ⟨by rw [w1]; exact ha.wits_lt, w3⟩, hs, _, _, e, ?_, rfl⟩
  cases e; rfl

end Verif.Props
