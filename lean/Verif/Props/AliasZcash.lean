import Verif.Props.Alias
import Verif.Props.Decred
import Verif.Props.ZcashTx
import Verif.Lemmas.Overwinter
import Verif.Lemmas.Sapling

/-! Property C100 for the Zcash and Decred classes. -/

namespace Verif.Props
open Verif

theorem look_congr {h h0 : Nat → Bytes} {b : BArg} (e : ∀ a ∈ b.refs, h a = h0 a) : b.look h = b.look h0 := by
  cases b with
  | bytes b => rfl
  | bytearray a => exact e a (by simp [BArg.refs])

theorem SproutZkproof.attrs {net : Network} {a : Bytes} {a' : Bytes} {b : Bytes} {b' : Bytes} {c : Bytes} {c' : Bytes} {k : Bytes} {q : Bytes} {t : SproutZkproof}
    (h : SproutZkproof.make net a a' b b' c c' k q = .ok t) :
    t = { t with piSubA := a, piPrimeSubA := a', piSubB := b, piPrimeSubB := b', piSubC := c, piPrimeSubC := c', piSubK := k, piSubH := q } := by
  unfold SproutZkproof.make at h
  simp only [bind_ok_iff] at h
  repeat' obtain ⟨_, -, h⟩ := h
  rfl

theorem SproutJoinsplit.attrs {net : Network} {vo : Bytes} {vn : Bytes} {an : Bytes} {nf : Bytes} {cm : Bytes} {ek : Bytes} {rs : Bytes} {vm : Bytes} {z : SproutZkproof} {en : Bytes} {t : SproutJoinsplit}
    (h : SproutJoinsplit.make net vo vn an nf cm ek rs vm z en = .ok t) :
    t = { t with vpubOld := vo, vpubNew := vn, anchor := an, nullifiers := nf, commitments := cm, ephemeralKey := ek, randomSeed := rs, vmacs := vm, zkproof := z, encodedNotes := en } := by
  unfold SproutJoinsplit.make at h
  simp only [bind_ok_iff] at h
  repeat' obtain ⟨_, -, h⟩ := h
  rfl

theorem SaplingZkproof.attrs {net : Network} {a : Bytes} {b : Bytes} {c : Bytes} {t : SaplingZkproof}
    (h : SaplingZkproof.make net a b c = .ok t) :
    t = { t with piSubA := a, piSubB := b, piSubC := c } := by
  unfold SaplingZkproof.make at h
  simp only [bind_ok_iff] at h
  repeat' obtain ⟨_, -, h⟩ := h
  rfl

theorem SaplingShieldedSpend.attrs {net : Network} {cv : Bytes} {an : Bytes} {nf : Bytes} {rk : Bytes} {z : SaplingZkproof} {sig : Bytes} {t : SaplingShieldedSpend}
    (h : SaplingShieldedSpend.make net cv an nf rk z sig = .ok t) :
    t = { t with cv := cv, anchor := an, nullifier := nf, rk := rk, zkproof := z, spendAuthSig := sig } := by
  unfold SaplingShieldedSpend.make at h
  simp only [bind_ok_iff] at h
  repeat' obtain ⟨_, -, h⟩ := h
  rfl

theorem SaplingShieldedOutput.attrs {net : Network} {cv : Bytes} {cmu : Bytes} {ek : Bytes} {enc : Bytes} {out : Bytes} {z : SaplingZkproof} {t : SaplingShieldedOutput}
    (h : SaplingShieldedOutput.make net cv cmu ek enc out z = .ok t) :
    t = { t with cv := cv, cmu := cmu, ephemeralKey := ek, encCiphertext := enc, outCiphertext := out, zkproof := z } := by
  unfold SaplingShieldedOutput.make at h
  simp only [bind_ok_iff] at h
  repeat' obtain ⟨_, -, h⟩ := h
  rfl

theorem SaplingJoinsplit.attrs {net : Network} {vo : Bytes} {vn : Bytes} {an : Bytes} {nf : Bytes} {cm : Bytes} {ek : Bytes} {rs : Bytes} {vm : Bytes} {z : SaplingZkproof} {en : Bytes} {t : SaplingJoinsplit}
    (h : SaplingJoinsplit.make net vo vn an nf cm ek rs vm z en = .ok t) :
    t = { t with vpubOld := vo, vpubNew := vn, anchor := an, nullifiers := nf, commitments := cm, ephemeralKey := ek, randomSeed := rs, vmacs := vm, zkproof := z, encodedNotes := en } := by
  unfold SaplingJoinsplit.make at h
  simp only [bind_ok_iff] at h
  repeat' obtain ⟨_, -, h⟩ := h
  rfl

theorem DecredOutpoint.attrs {net : Network} {i : Bytes} {n : Bytes} {tr : Bytes} {t : DecredOutpoint}
    (h : DecredOutpoint.make net i n tr = .ok t) :
    t = { t with txId := i, index := n, tree := tr } := by
  unfold DecredOutpoint.make at h
  simp only [bind_ok_iff] at h
  repeat' obtain ⟨_, -, h⟩ := h
  rfl

theorem DecredTxIn.attrs {net : Network} {o : DecredOutpoint} {s : Bytes} {t : DecredTxIn}
    (h : DecredTxIn.make net o s = .ok t) :
    t = { t with outpoint := o, sequence := s } := by
  unfold DecredTxIn.make at h
  simp only [bind_ok_iff] at h
  repeat' obtain ⟨_, -, h⟩ := h
  rfl

theorem DecredTxOut.attrs {net : Network} {v : Bytes} {ver : Bytes} {s : Bytes} {t : DecredTxOut}
    (h : DecredTxOut.make net v ver s = .ok t) :
    t = { t with value := v, version := ver, outputScript := s } := by
  unfold DecredTxOut.make at h
  simp only [bind_ok_iff] at h
  repeat' obtain ⟨_, -, h⟩ := h
  rfl

theorem DecredInputWitness.attrs {net : Network} {v : Bytes} {ht : Bytes} {ix : Bytes} {s : Bytes} {r : Bytes} {t : DecredInputWitness}
    (h : DecredInputWitness.make net v ht ix s r = .ok t) :
    t = { t with value := v, height := ht, index := ix, stackScript := s, redeemScript := r } := by
  unfold DecredInputWitness.make at h
  simp only [bind_ok_iff] at h
  repeat' obtain ⟨_, -, h⟩ := h
  rfl

/-- C100, the Zcash components: whatever becomes of the bytearrays, the bytes of the object stay; and as long as the bytearrays among
the arguments keep their contents, and the proof is unchanged, the object is what the constructor builds from the values at the time. -/
theorem C100_zcash_parts (net : Network) (h0 h : Nat → Bytes) :
    (∀ a a' b b' c c' k q t, SproutZkproof.makeLive net h0 a a' b b' c c' k q = .ok t → (t h).bytes = (t h0).bytes ∧
      ((∀ x ∈ a.refs ++ a'.refs ++ b.refs ++ b'.refs ++ c.refs ++ c'.refs ++ k.refs ++ q.refs, h x = h0 x) → 
        SproutZkproof.make net (a.look h0) (a'.look h0) (b.look h0) (b'.look h0) (c.look h0) (c'.look h0) (k.look h0) (q.look h0) = .ok (t h))) ∧
    (∀ vo vn an nf cm ek rs vm z en t, SproutJoinsplit.makeLive net h0 vo vn an nf cm ek rs vm z en = .ok t → (t h).bytes = (t h0).bytes ∧
      ((∀ x ∈ vo.refs ++ vn.refs ++ an.refs ++ nf.refs ++ cm.refs ++ ek.refs ++ rs.refs ++ vm.refs ++ en.refs, h x = h0 x) → z h = z h0 → 
        SproutJoinsplit.make net (vo.look h0) (vn.look h0) (an.look h0) (nf.look h0) (cm.look h0) (ek.look h0) (rs.look h0) (vm.look h0) (z h0) (en.look h0) = .ok (t h))) ∧
    (∀ a b c t, SaplingZkproof.makeLive net h0 a b c = .ok t → (t h).bytes = (t h0).bytes ∧
      ((∀ x ∈ a.refs ++ b.refs ++ c.refs, h x = h0 x) → 
        SaplingZkproof.make net (a.look h0) (b.look h0) (c.look h0) = .ok (t h))) ∧
    (∀ cv an nf rk z sig t, SaplingShieldedSpend.makeLive net h0 cv an nf rk z sig = .ok t → (t h).bytes = (t h0).bytes ∧
      ((∀ x ∈ cv.refs ++ an.refs ++ nf.refs ++ rk.refs ++ sig.refs, h x = h0 x) → z h = z h0 → 
        SaplingShieldedSpend.make net (cv.look h0) (an.look h0) (nf.look h0) (rk.look h0) (z h0) (sig.look h0) = .ok (t h))) ∧
    (∀ cv cmu ek enc out z t, SaplingShieldedOutput.makeLive net h0 cv cmu ek enc out z = .ok t → (t h).bytes = (t h0).bytes ∧
      ((∀ x ∈ cv.refs ++ cmu.refs ++ ek.refs ++ enc.refs ++ out.refs, h x = h0 x) → z h = z h0 → 
        SaplingShieldedOutput.make net (cv.look h0) (cmu.look h0) (ek.look h0) (enc.look h0) (out.look h0) (z h0) = .ok (t h))) ∧
    (∀ vo vn an nf cm ek rs vm z en t, SaplingJoinsplit.makeLive net h0 vo vn an nf cm ek rs vm z en = .ok t → (t h).bytes = (t h0).bytes ∧
      ((∀ x ∈ vo.refs ++ vn.refs ++ an.refs ++ nf.refs ++ cm.refs ++ ek.refs ++ rs.refs ++ vm.refs ++ en.refs, h x = h0 x) → z h = z h0 → 
        SaplingJoinsplit.make net (vo.look h0) (vn.look h0) (an.look h0) (nf.look h0) (cm.look h0) (ek.look h0) (rs.look h0) (vm.look h0) (z h0) (en.look h0) = .ok (t h))) := by
  refine ⟨fun a a' b b' c c' k q t made => ?_, fun vo vn an nf cm ek rs vm z en t made => ?_, fun a b c t made => ?_, fun cv an nf rk z sig t made => ?_, fun cv cmu ek enc out z t made => ?_, fun vo vn an nf cm ek rs vm z en t made => ?_⟩
  · unfold SproutZkproof.makeLive at made
    obtain ⟨t0, h1, made⟩ := bind_ok_iff.1 made
    cases made
    refine ⟨rfl, fun hx  => ?_⟩
    rw [h1]
    dsimp only
    rw [look_congr (b := a) (fun x hx' => hx x (by simp [hx'])), look_congr (b := a') (fun x hx' => hx x (by simp [hx'])), look_congr (b := b) (fun x hx' => hx x (by simp [hx'])), look_congr (b := b') (fun x hx' => hx x (by simp [hx'])), look_congr (b := c) (fun x hx' => hx x (by simp [hx'])), look_congr (b := c') (fun x hx' => hx x (by simp [hx'])), look_congr (b := k) (fun x hx' => hx x (by simp [hx'])), look_congr (b := q) (fun x hx' => hx x (by simp [hx']))]
    exact congrArg Except.ok (SproutZkproof.attrs h1)
  · unfold SproutJoinsplit.makeLive at made
    obtain ⟨t0, h1, made⟩ := bind_ok_iff.1 made
    cases made
    refine ⟨rfl, fun hx ez => ?_⟩
    rw [h1]
    dsimp only
    rw [look_congr (b := vo) (fun x hx' => hx x (by simp [hx'])), look_congr (b := vn) (fun x hx' => hx x (by simp [hx'])), look_congr (b := an) (fun x hx' => hx x (by simp [hx'])), look_congr (b := nf) (fun x hx' => hx x (by simp [hx'])), look_congr (b := cm) (fun x hx' => hx x (by simp [hx'])), look_congr (b := ek) (fun x hx' => hx x (by simp [hx'])), look_congr (b := rs) (fun x hx' => hx x (by simp [hx'])), look_congr (b := vm) (fun x hx' => hx x (by simp [hx'])), look_congr (b := en) (fun x hx' => hx x (by simp [hx'])), ez]
    exact congrArg Except.ok (SproutJoinsplit.attrs h1)
  · unfold SaplingZkproof.makeLive at made
    obtain ⟨t0, h1, made⟩ := bind_ok_iff.1 made
    cases made
    refine ⟨rfl, fun hx  => ?_⟩
    rw [h1]
    dsimp only
    rw [look_congr (b := a) (fun x hx' => hx x (by simp [hx'])), look_congr (b := b) (fun x hx' => hx x (by simp [hx'])), look_congr (b := c) (fun x hx' => hx x (by simp [hx']))]
    exact congrArg Except.ok (SaplingZkproof.attrs h1)
  · unfold SaplingShieldedSpend.makeLive at made
    obtain ⟨t0, h1, made⟩ := bind_ok_iff.1 made
    cases made
    refine ⟨rfl, fun hx ez => ?_⟩
    rw [h1]
    dsimp only
    rw [look_congr (b := cv) (fun x hx' => hx x (by simp [hx'])), look_congr (b := an) (fun x hx' => hx x (by simp [hx'])), look_congr (b := nf) (fun x hx' => hx x (by simp [hx'])), look_congr (b := rk) (fun x hx' => hx x (by simp [hx'])), look_congr (b := sig) (fun x hx' => hx x (by simp [hx'])), ez]
    exact congrArg Except.ok (SaplingShieldedSpend.attrs h1)
  · unfold SaplingShieldedOutput.makeLive at made
    obtain ⟨t0, h1, made⟩ := bind_ok_iff.1 made
    cases made
    refine ⟨rfl, fun hx ez => ?_⟩
    rw [h1]
    dsimp only
    rw [look_congr (b := cv) (fun x hx' => hx x (by simp [hx'])), look_congr (b := cmu) (fun x hx' => hx x (by simp [hx'])), look_congr (b := ek) (fun x hx' => hx x (by simp [hx'])), look_congr (b := enc) (fun x hx' => hx x (by simp [hx'])), look_congr (b := out) (fun x hx' => hx x (by simp [hx'])), ez]
    exact congrArg Except.ok (SaplingShieldedOutput.attrs h1)
  · unfold SaplingJoinsplit.makeLive at made
    obtain ⟨t0, h1, made⟩ := bind_ok_iff.1 made
    cases made
    refine ⟨rfl, fun hx ez => ?_⟩
    rw [h1]
    dsimp only
    rw [look_congr (b := vo) (fun x hx' => hx x (by simp [hx'])), look_congr (b := vn) (fun x hx' => hx x (by simp [hx'])), look_congr (b := an) (fun x hx' => hx x (by simp [hx'])), look_congr (b := nf) (fun x hx' => hx x (by simp [hx'])), look_congr (b := cm) (fun x hx' => hx x (by simp [hx'])), look_congr (b := ek) (fun x hx' => hx x (by simp [hx'])), look_congr (b := rs) (fun x hx' => hx x (by simp [hx'])), look_congr (b := vm) (fun x hx' => hx x (by simp [hx'])), look_congr (b := en) (fun x hx' => hx x (by simp [hx'])), ez]
    exact congrArg Except.ok (SaplingJoinsplit.attrs h1)

/-- C100, the Decred components, likewise. -/
theorem C100_decred_parts (net : Network) (h0 h : Nat → Bytes) :
    (∀ i n tr t, DecredOutpoint.makeLive net h0 i n tr = .ok t → (t h).bytes = (t h0).bytes ∧
      ((∀ x ∈ i.refs ++ n.refs ++ tr.refs, h x = h0 x) → 
        DecredOutpoint.make net (i.look h0) (n.look h0) (tr.look h0) = .ok (t h))) ∧
    (∀ o s t, DecredTxIn.makeLive net h0 o s = .ok t → (t h).bytes = (t h0).bytes ∧
      ((∀ x ∈ s.refs, h x = h0 x) → o h = o h0 → 
        DecredTxIn.make net (o h0) (s.look h0) = .ok (t h))) ∧
    (∀ v ver s t, DecredTxOut.makeLive net h0 v ver s = .ok t → (t h).bytes = (t h0).bytes ∧
      ((∀ x ∈ v.refs ++ ver.refs ++ s.refs, h x = h0 x) → 
        DecredTxOut.make net (v.look h0) (ver.look h0) (s.look h0) = .ok (t h))) ∧
    (∀ v ht ix s r t, DecredInputWitness.makeLive net h0 v ht ix s r = .ok t → (t h).bytes = (t h0).bytes ∧
      ((∀ x ∈ v.refs ++ ht.refs ++ ix.refs ++ s.refs ++ r.refs, h x = h0 x) → 
        DecredInputWitness.make net (v.look h0) (ht.look h0) (ix.look h0) (s.look h0) (r.look h0) = .ok (t h))) := by
  refine ⟨fun i n tr t made => ?_, fun o s t made => ?_, fun v ver s t made => ?_, fun v ht ix s r t made => ?_⟩
  · unfold DecredOutpoint.makeLive at made
    obtain ⟨t0, h1, made⟩ := bind_ok_iff.1 made
    cases made
    refine ⟨rfl, fun hx  => ?_⟩
    rw [h1]
    dsimp only
    rw [look_congr (b := i) (fun x hx' => hx x (by simp [hx'])), look_congr (b := n) (fun x hx' => hx x (by simp [hx'])), look_congr (b := tr) (fun x hx' => hx x (by simp [hx']))]
    exact congrArg Except.ok (DecredOutpoint.attrs h1)
  · unfold DecredTxIn.makeLive at made
    obtain ⟨t0, h1, made⟩ := bind_ok_iff.1 made
    cases made
    refine ⟨rfl, fun hx eo => ?_⟩
    rw [h1]
    dsimp only
    rw [look_congr (b := s) (fun x hx' => hx x (by simp [hx'])), eo]
    exact congrArg Except.ok (DecredTxIn.attrs h1)
  · unfold DecredTxOut.makeLive at made
    obtain ⟨t0, h1, made⟩ := bind_ok_iff.1 made
    cases made
    refine ⟨rfl, fun hx  => ?_⟩
    rw [h1]
    dsimp only
    rw [look_congr (b := v) (fun x hx' => hx x (by simp [hx'])), look_congr (b := ver) (fun x hx' => hx x (by simp [hx'])), look_congr (b := s) (fun x hx' => hx x (by simp [hx']))]
    exact congrArg Except.ok (DecredTxOut.attrs h1)
  · unfold DecredInputWitness.makeLive at made
    obtain ⟨t0, h1, made⟩ := bind_ok_iff.1 made
    cases made
    refine ⟨rfl, fun hx  => ?_⟩
    rw [h1]
    dsimp only
    rw [look_congr (b := v) (fun x hx' => hx x (by simp [hx'])), look_congr (b := ht) (fun x hx' => hx x (by simp [hx'])), look_congr (b := ix) (fun x hx' => hx x (by simp [hx'])), look_congr (b := s) (fun x hx' => hx x (by simp [hx'])), look_congr (b := r) (fun x hx' => hx x (by simp [hx']))]
    exact congrArg Except.ok (DecredInputWitness.attrs h1)

/-- The bytearrays in optional arguments. -/
def optRefs (b : Option BArg) : List Nat := (b.map (·.refs)).getD []

theorem optGet_congr {m m' : Mem} {b : Option BArg} (h : ∀ a ∈ optRefs b, m'.arr a = m.arr a) : b.map (·.get m') = b.map (·.get m) := by
  cases b with
  | none => rfl
  | some b => simp only [Option.map_some]; rw [BArg.get_congr h]

/-- The bytearrays in inputs and outputs. -/
def ioRefs (ins : List HTxIn) (outs : List HTxOut) : List Nat := ins.flatMap HTxIn.refs ++ outs.flatMap HTxOut.refs

theorem ioRefs_ins {m m' : Mem} {ins : List HTxIn} {outs : List HTxOut} (h : ∀ a ∈ ioRefs ins outs, m'.arr a = m.arr a) :
    ins.map (·.view m') = ins.map (·.view m) :=
  List.map_congr_left fun i hi => HTxIn.view_congr fun a ha => h a (List.mem_append_left _ (List.mem_flatMap.2 ⟨i, hi, ha⟩))

theorem ioRefs_outs {m m' : Mem} {ins : List HTxIn} {outs : List HTxOut} (h : ∀ a ∈ ioRefs ins outs, m'.arr a = m.arr a) :
    outs.map (·.view m') = outs.map (·.view m) :=
  List.map_congr_left fun i hi => HTxOut.view_congr fun a ha => h a (List.mem_append_right _ (List.mem_flatMap.2 ⟨i, hi, ha⟩))

theorem live_congr {α : Type} {h h0 : Nat → Bytes} {xs : List (Live α)} (e : ∀ x ∈ xs, x h = x h0) : xs.map (· h) = xs.map (· h0) :=
  List.map_congr_left e

/-- C100: the Zcash transactions copy their lists: they are, in every later memory, what the constructor builds from the lists as they were,
as long as the bytearrays among the arguments and inside the elements keep their contents. -/
theorem C100_sprout (E : Env) (m m' : Mem) (version : BArg) (txIns : SArg HTxIn) (txOuts : SArg HTxOut) (lockTime : BArg)
    (js : SArg (Live SproutJoinsplit)) (pk sig : Option BArg) (t : HSproutTx)
    (h : HSproutTx.make E m version txIns txOuts lockTime js pk sig = .ok t)
    (hr : ∀ a ∈ version.refs ++ lockTime.refs ++ optRefs pk ++ optRefs sig ++ ioRefs (txIns.get m) (txOuts.get m), m'.arr a = m.arr a)
    (hj : ∀ j ∈ js.get m, j m'.arr = j m.arr) :
    SproutTx.make E (version.get m) ((txIns.get m).map (·.view m)) ((txOuts.get m).map (·.view m)) (lockTime.get m)
      (some ((js.get m).map (· m.arr))) (pk.map (·.get m)) (sig.map (·.get m)) = .ok (t.view m') := by
  unfold HSproutTx.make at h
  obtain ⟨t0, h0, h⟩ := bind_ok_iff.1 h
  have two : i2lePadded 2 4 = .ok [2, 0, 0, 0] := by decide
  rw [two, ok_bind] at h
  cases h
  simp only [List.mem_append] at hr
  obtain ⟨-, he⟩ := SproutTx.make_iff.1 h0
  have e1 := BArg.get_congr (b := version) (m := m) (m' := m') fun a ha => hr a (by simp [ha])
  have e2 := BArg.get_congr (b := lockTime) (m := m) (m' := m') fun a ha => hr a (by simp [ha])
  have e3 := optGet_congr (b := pk) (m := m) (m' := m') fun a ha => hr a (by simp [ha])
  have e4 := optGet_congr (b := sig) (m := m) (m' := m') fun a ha => hr a (by simp [ha])
  have e5 := ioRefs_ins (m := m) (m' := m') fun a ha => hr a (.inr ha)
  have e6 := ioRefs_outs (m := m) (m' := m') fun a ha => hr a (.inr ha)
  have e7 := live_congr hj
  rw [h0]
  unfold HSproutTx.view
  have tt : ∀ {α : Type} (s : SArg α), (s.toTuple m).get m' = s.get m := fun _ => rfl
  simp only [tt, e1, e2, e5, e6, e7]
  rw [he]
  by_cases hv : version.get m = v2
  · simp only [sproutObj, Option.getD_some]
    rw [if_pos hv, if_pos hv, if_pos hv, if_pos hv, if_pos (show version.get m = [2, 0, 0, 0] from hv),
      if_pos (show version.get m = [2, 0, 0, 0] from hv), e3, e4]
  · simp only [sproutObj, Option.getD_some]
    rw [if_neg hv, if_neg hv, if_neg hv, if_neg hv, if_neg (show ¬ version.get m = [2, 0, 0, 0] from hv),
      if_neg (show ¬ version.get m = [2, 0, 0, 0] from hv)]
    rfl

theorem ite_map {α β : Type} {c : Prop} [Decidable c] (f : α → β) (x : Option α) :
    (if c then x else none).map f = if c then x.map f else none := by split <;> rfl

theorem ite_tuple {α β : Type} (m m' : Mem) (s : SArg α) (f : α → β) :
    ((if (s.get m).length ≠ 0 then s.toTuple m else .tuple []).get m').map f = (s.get m).map f := by
  split
  · rfl
  · rename_i h
    have : s.get m = [] := List.eq_nil_of_length_eq_zero (by omega)
    rw [this]; rfl

theorem length_ne_zero_iff {α β : Type} (xs : List α) (f : α → β) : (xs.length ≠ 0) = (xs.map f ≠ []) := by
  cases xs <;> simp

theorem C100_overwinter (E : Env) (m m' : Mem) (txIns : SArg HTxIn) (txOuts : SArg HTxOut) (lockTime expiry : BArg)
    (js : SArg (Live SproutJoinsplit)) (pk sig : Option BArg) (t : HOverwinterTx)
    (h : HOverwinterTx.make E m txIns txOuts lockTime expiry js pk sig = .ok t)
    (hr : ∀ a ∈ lockTime.refs ++ expiry.refs ++ optRefs pk ++ optRefs sig ++ ioRefs (txIns.get m) (txOuts.get m), m'.arr a = m.arr a)
    (hj : ∀ j ∈ js.get m, j m'.arr = j m.arr) :
    OverwinterTx.make E ((txIns.get m).map (·.view m)) ((txOuts.get m).map (·.view m)) (lockTime.get m) (expiry.get m)
      ((js.get m).map (· m.arr)) (pk.map (·.get m)) (sig.map (·.get m)) = .ok (t.view m') := by
  unfold HOverwinterTx.make at h
  obtain ⟨t0, h0, h⟩ := bind_ok_iff.1 h
  cases h
  simp only [List.mem_append] at hr
  obtain ⟨-, he⟩ := OverwinterTx.make_iff.1 h0
  have e1 := BArg.get_congr (b := lockTime) (m := m) (m' := m') fun a ha => hr a (by simp [ha])
  have e2 := BArg.get_congr (b := expiry) (m := m) (m' := m') fun a ha => hr a (by simp [ha])
  have e3 := optGet_congr (b := pk) (m := m) (m' := m') fun a ha => hr a (by simp [ha])
  have e4 := optGet_congr (b := sig) (m := m) (m' := m') fun a ha => hr a (by simp [ha])
  have e5 := ioRefs_ins (m := m) (m' := m') fun a ha => hr a (.inr ha)
  have e6 := ioRefs_outs (m := m) (m' := m') fun a ha => hr a (.inr ha)
  have e7 := live_congr hj
  rw [h0]
  unfold HOverwinterTx.view
  have tt : ∀ {α : Type} (s : SArg α), (s.toTuple m).get m' = s.get m := fun _ => rfl
  simp only [tt, e1, e2, e5, e6, e7, ite_map, e3, e4, ite_tuple]
  rw [he]
  simp only [overObj, length_ne_zero_iff (js.get m) (· m.arr)]

theorem C100_sapling (E : Env) (m m' : Mem) (txIns : SArg HTxIn) (txOuts : SArg HTxOut) (lockTime expiry balance : BArg)
    (ss : SArg (Live SaplingShieldedSpend)) (so : SArg (Live SaplingShieldedOutput)) (js : SArg (Live SaplingJoinsplit))
    (pk sig bsig : Option BArg) (t : HSaplingTx)
    (h : HSaplingTx.make E m txIns txOuts lockTime expiry balance ss so js pk sig bsig = .ok t)
    (hr : ∀ a ∈ lockTime.refs ++ expiry.refs ++ balance.refs ++ optRefs pk ++ optRefs sig ++ optRefs bsig ++ ioRefs (txIns.get m) (txOuts.get m),
      m'.arr a = m.arr a)
    (hs : ∀ j ∈ ss.get m, j m'.arr = j m.arr) (ho : ∀ j ∈ so.get m, j m'.arr = j m.arr) (hj : ∀ j ∈ js.get m, j m'.arr = j m.arr) :
    SaplingTx.make E ((txIns.get m).map (·.view m)) ((txOuts.get m).map (·.view m)) (lockTime.get m) (expiry.get m) (balance.get m)
      ((ss.get m).map (· m.arr)) ((so.get m).map (· m.arr)) ((js.get m).map (· m.arr)) (pk.map (·.get m)) (sig.map (·.get m))
      (bsig.map (·.get m)) = .ok (t.view m') := by
  unfold HSaplingTx.make at h
  obtain ⟨t0, h0, h⟩ := bind_ok_iff.1 h
  cases h
  simp only [List.mem_append] at hr
  obtain ⟨-, he⟩ := SaplingTx.make_iff.1 h0
  have e1 := BArg.get_congr (b := lockTime) (m := m) (m' := m') fun a ha => hr a (by simp [ha])
  have e2 := BArg.get_congr (b := expiry) (m := m) (m' := m') fun a ha => hr a (by simp [ha])
  have e2' := BArg.get_congr (b := balance) (m := m) (m' := m') fun a ha => hr a (by simp [ha])
  have e3 := optGet_congr (b := pk) (m := m) (m' := m') fun a ha => hr a (by simp [ha])
  have e4 := optGet_congr (b := sig) (m := m) (m' := m') fun a ha => hr a (by simp [ha])
  have e4' := optGet_congr (b := bsig) (m := m) (m' := m') fun a ha => hr a (by simp [ha])
  have e5 := ioRefs_ins (m := m) (m' := m') fun a ha => hr a (.inr ha)
  have e6 := ioRefs_outs (m := m) (m' := m') fun a ha => hr a (.inr ha)
  have e7 := live_congr hj
  have e8 := live_congr hs
  have e9 := live_congr ho
  rw [h0]
  unfold HSaplingTx.view
  have tt : ∀ {α : Type} (s : SArg α), (s.toTuple m).get m' = s.get m := fun _ => rfl
  simp only [tt, e1, e2, e2', e5, e6, e7, e8, e9, ite_map, e3, e4, e4', ite_tuple]
  rw [he]
  have hb : ((so.get m).length + (ss.get m).length ≠ 0) = ((ss.get m).map (· m.arr) ≠ [] ∨ (so.get m).map (· m.arr) ≠ []) := by
    cases so.get m <;> cases ss.get m <;> simp
  simp only [saplingObj, length_ne_zero_iff (js.get m) (· m.arr), hb]

/-- C100: the bytes, the ids and the values derived for the proofs of a Zcash transaction stay the same whatever is changed. -/
theorem C100_zcash_frozen (m' : Mem) :
    (∀ E m version txIns txOuts lockTime js pk sig t, HSproutTx.make E m version txIns txOuts lockTime js pk sig = .ok t →
      (t.view m').bytes = (t.view m).bytes ∧ (t.view m').txId = (t.view m).txId ∧ (t.view m').txIdLe = (t.view m).txIdLe ∧
      (t.view m').hsigs = (t.view m).hsigs ∧ (t.view m').primaryInputs = (t.view m).primaryInputs ∧
      (t.view m').txIns.map (·.bytes) = (t.view m).txIns.map (·.bytes) ∧ (t.view m').txOuts.map (·.bytes) = (t.view m).txOuts.map (·.bytes)) ∧
    (∀ E m txIns txOuts lockTime ex js pk sig t, HOverwinterTx.make E m txIns txOuts lockTime ex js pk sig = .ok t →
      (t.view m').bytes = (t.view m).bytes ∧ (t.view m').txId = (t.view m).txId ∧ (t.view m').txIdLe = (t.view m).txIdLe ∧
      (t.view m').hsigs = (t.view m).hsigs ∧ (t.view m').primaryInputs = (t.view m).primaryInputs ∧
      (t.view m').txIns.map (·.bytes) = (t.view m).txIns.map (·.bytes) ∧ (t.view m').txOuts.map (·.bytes) = (t.view m).txOuts.map (·.bytes)) ∧
    (∀ E m txIns txOuts lockTime ex vb ss so js pk sig bs t, HSaplingTx.make E m txIns txOuts lockTime ex vb ss so js pk sig bs = .ok t →
      (t.view m').bytes = (t.view m).bytes ∧ (t.view m').txId = (t.view m).txId ∧ (t.view m').txIdLe = (t.view m).txIdLe ∧
      (t.view m').hsigs = (t.view m).hsigs ∧ (t.view m').primaryInputs = (t.view m).primaryInputs ∧
      (t.view m').txIns.map (·.bytes) = (t.view m).txIns.map (·.bytes) ∧ (t.view m').txOuts.map (·.bytes) = (t.view m).txOuts.map (·.bytes)) := by
  have i : ∀ (m : Mem) (xs : List HTxIn), (xs.map (·.view m')).map (·.bytes) = (xs.map (·.view m)).map (·.bytes) := by
    intro m xs; simp [HTxIn.view, Function.comp_def]
  have o : ∀ (m : Mem) (xs : List HTxOut), (xs.map (·.view m')).map (·.bytes) = (xs.map (·.view m)).map (·.bytes) := by
    intro m xs; simp [HTxOut.view, Function.comp_def]
  refine ⟨?_, ?_, ?_⟩
  · intro E m version txIns txOuts lockTime js pk sig t h
    unfold HSproutTx.make at h
    obtain ⟨t0, h0, h⟩ := bind_ok_iff.1 h
    obtain ⟨two, -, h⟩ := bind_ok_iff.1 h
    cases h
    exact ⟨rfl, rfl, rfl, rfl, rfl, i m _, o m _⟩
  · intro E m txIns txOuts lockTime ex js pk sig t h
    unfold HOverwinterTx.make at h
    obtain ⟨t0, h0, h⟩ := bind_ok_iff.1 h
    cases h
    exact ⟨rfl, rfl, rfl, rfl, rfl, i m _, o m _⟩
  · intro E m txIns txOuts lockTime ex vb ss so js pk sig bs t h
    unfold HSaplingTx.make at h
    obtain ⟨t0, h0, h⟩ := bind_ok_iff.1 h
    cases h
    exact ⟨rfl, rfl, rfl, rfl, rfl, i m _, o m _⟩

/-! What the digests, fees and copies of a transaction depend on. -/

theorem SproutTx.reads {E : Env} {t u : SproutTx} (h1 : t.version = u.version) (h2 : t.txIns = u.txIns) (h3 : t.txOuts = u.txOuts)
    (h4 : t.lockTime = u.lockTime) (h5 : t.txJoinsplits = u.txJoinsplits) (h6 : t.joinsplitPubkey = u.joinsplitPubkey)
    (h7 : t.joinsplitSig = u.joinsplitSig) :
    (∀ index script acp, t.sighashAll E index script acp = u.sighashAll E index script acp) ∧
    (∀ index script acp, t.sighashSingle E index script acp = u.sighashSingle E index script acp) ∧
    (∀ values, t.calculateFee values = u.calculateFee values) ∧ t.copy E = u.copy E := by
  cases t; cases u
  simp only at h1 h2 h3 h4 h5 h6 h7
  subst h1 h2 h3 h4 h5 h6 h7
  exact ⟨fun _ _ _ => rfl, fun _ _ _ => rfl, fun _ => rfl, rfl⟩

theorem OverwinterTx.reads {E : Env} {t u : OverwinterTx} (h1 : t.txIns = u.txIns) (h2 : t.txOuts = u.txOuts) (h3 : t.lockTime = u.lockTime)
    (h4 : t.expiryHeight = u.expiryHeight) (h5 : t.txJoinsplits = u.txJoinsplits) (h6 : t.joinsplitPubkey = u.joinsplitPubkey)
    (h7 : t.joinsplitSig = u.joinsplitSig) (h8 : t.header = u.header) (h9 : t.groupId = u.groupId) :
    (∀ ty value script index joinsplit acp, t.sighash E ty value script index joinsplit acp = u.sighash E ty value script index joinsplit acp) ∧
    (∀ values, t.calculateFee values = u.calculateFee values) ∧ t.copy E = u.copy E := by
  cases t; cases u
  simp only at h1 h2 h3 h4 h5 h6 h7 h8 h9
  subst h1 h2 h3 h4 h5 h6 h7 h8 h9
  exact ⟨fun _ _ _ _ _ _ => rfl, fun _ => rfl, rfl⟩

theorem SaplingTx.reads {E : Env} {t u : SaplingTx} (h1 : t.txIns = u.txIns) (h2 : t.txOuts = u.txOuts) (h3 : t.lockTime = u.lockTime)
    (h4 : t.expiryHeight = u.expiryHeight) (h5 : t.txJoinsplits = u.txJoinsplits) (h6 : t.joinsplitPubkey = u.joinsplitPubkey)
    (h7 : t.joinsplitSig = u.joinsplitSig) (h8 : t.header = u.header) (h9 : t.groupId = u.groupId) (h10 : t.valueBalance = u.valueBalance)
    (h11 : t.txShieldedSpends = u.txShieldedSpends) (h12 : t.txShieldedOutputs = u.txShieldedOutputs) (h13 : t.bindingSig = u.bindingSig) :
    (∀ ty value index joinsplit script acp, t.sighash E ty value index joinsplit script acp = u.sighash E ty value index joinsplit script acp) ∧
    (∀ values, t.calculateFee values = u.calculateFee values) ∧ t.copy E = u.copy E := by
  cases t; cases u
  simp only at h1 h2 h3 h4 h5 h6 h7 h8 h9 h10 h11 h12 h13
  subst h1 h2 h3 h4 h5 h6 h7 h8 h9 h10 h11 h12 h13
  exact ⟨fun _ _ _ _ _ _ => rfl, fun _ => rfl, rfl⟩

/-- What a Sprout transaction does when bytearrays other than the version are changed: every digest, the fee, and the copy, is that of the
transaction the constructor builds from the lists as they were and the bytearrays as they are. -/
theorem C100_sprout_follows (E : Env) (m m' : Mem) (version : BArg) (txIns : SArg HTxIn) (txOuts : SArg HTxOut) (lockTime : BArg)
    (js : SArg (Live SproutJoinsplit)) (pk sig : Option BArg) (t : HSproutTx)
    (h : HSproutTx.make E m version txIns txOuts lockTime js pk sig = .ok t) (hv : version.get m' = version.get m) (t' : SproutTx)
    (h' : SproutTx.make E (version.get m) ((txIns.get m).map (·.view m')) ((txOuts.get m).map (·.view m')) (lockTime.get m')
      (some ((js.get m).map (· m'.arr))) (pk.map (·.get m')) (sig.map (·.get m')) = .ok t') :
    (∀ index script acp, (t.view m').sighashAll E index script acp = t'.sighashAll E index script acp) ∧
    (∀ index script acp, (t.view m').sighashSingle E index script acp = t'.sighashSingle E index script acp) ∧
    (∀ values, (t.view m').calculateFee values = t'.calculateFee values) ∧ (t.view m').copy E = t'.copy E := by
  unfold HSproutTx.make at h
  obtain ⟨t0, h0, h⟩ := bind_ok_iff.1 h
  have two : i2lePadded 2 4 = .ok [2, 0, 0, 0] := by decide
  rw [two, ok_bind] at h
  cases h
  obtain ⟨-, he'⟩ := SproutTx.make_iff.1 h'
  apply SproutTx.reads
  all_goals rw [he']
  · exact hv
  · rfl
  · rfl
  · rfl
  · rfl
  · simp only [HSproutTx.view, ite_map, sproutObj]
  · simp only [HSproutTx.view, ite_map, sproutObj]

/-- The condition under which the keys are stored does not depend on the memory. -/
theorem keys_stored {α β : Type} {x : Option β} (xs : List (Live α)) (h : Nat → Bytes) :
    (if xs.length ≠ 0 then x else none) = if xs.map (· h) ≠ [] then x else none := by
  cases xs with
  | nil => rfl
  | cons a l =>
    rw [if_pos (by simp), if_pos (by simp)]

/-- What an Overwinter transaction does when bytearrays are changed, likewise. -/
theorem C100_overwinter_follows (E : Env) (m m' : Mem) (txIns : SArg HTxIn) (txOuts : SArg HTxOut) (lockTime expiry : BArg)
    (js : SArg (Live SproutJoinsplit)) (pk sig : Option BArg) (t : HOverwinterTx)
    (h : HOverwinterTx.make E m txIns txOuts lockTime expiry js pk sig = .ok t) (t' : OverwinterTx)
    (h' : OverwinterTx.make E ((txIns.get m).map (·.view m')) ((txOuts.get m).map (·.view m')) (lockTime.get m') (expiry.get m')
      ((js.get m).map (· m'.arr)) (pk.map (·.get m')) (sig.map (·.get m')) = .ok t') :
    (∀ ty value script index joinsplit acp, (t.view m').sighash E ty value script index joinsplit acp = t'.sighash E ty value script index joinsplit acp) ∧
    (∀ values, (t.view m').calculateFee values = t'.calculateFee values) ∧ (t.view m').copy E = t'.copy E := by
  unfold HOverwinterTx.make at h
  obtain ⟨t0, h0, h⟩ := bind_ok_iff.1 h
  cases h
  obtain ⟨-, he⟩ := OverwinterTx.make_iff.1 h0
  obtain ⟨-, he'⟩ := OverwinterTx.make_iff.1 h'
  apply OverwinterTx.reads
  all_goals rw [he']
  · rfl
  · rfl
  · rfl
  · rfl
  · simp only [HOverwinterTx.view, ite_tuple, overObj]
  · simp only [HOverwinterTx.view, ite_map, overObj]; exact keys_stored _ _
  · simp only [HOverwinterTx.view, ite_map, overObj]; exact keys_stored _ _
  · simp only [HOverwinterTx.view, he, overObj]
  · simp only [HOverwinterTx.view, he, overObj]

/-- What a Sapling transaction does when bytearrays are changed, likewise. -/
theorem C100_sapling_follows (E : Env) (m m' : Mem) (txIns : SArg HTxIn) (txOuts : SArg HTxOut) (lockTime expiry balance : BArg)
    (ss : SArg (Live SaplingShieldedSpend)) (so : SArg (Live SaplingShieldedOutput)) (js : SArg (Live SaplingJoinsplit))
    (pk sig bsig : Option BArg) (t : HSaplingTx)
    (h : HSaplingTx.make E m txIns txOuts lockTime expiry balance ss so js pk sig bsig = .ok t) (t' : SaplingTx)
    (h' : SaplingTx.make E ((txIns.get m).map (·.view m')) ((txOuts.get m).map (·.view m')) (lockTime.get m') (expiry.get m') (balance.get m')
      ((ss.get m).map (· m'.arr)) ((so.get m).map (· m'.arr)) ((js.get m).map (· m'.arr)) (pk.map (·.get m')) (sig.map (·.get m'))
      (bsig.map (·.get m')) = .ok t') :
    (∀ ty value index joinsplit script acp, (t.view m').sighash E ty value index joinsplit script acp = t'.sighash E ty value index joinsplit script acp) ∧
    (∀ values, (t.view m').calculateFee values = t'.calculateFee values) ∧ (t.view m').copy E = t'.copy E := by
  unfold HSaplingTx.make at h
  obtain ⟨t0, h0, h⟩ := bind_ok_iff.1 h
  cases h
  obtain ⟨-, he⟩ := SaplingTx.make_iff.1 h0
  obtain ⟨-, he'⟩ := SaplingTx.make_iff.1 h'
  apply SaplingTx.reads
  all_goals rw [he']
  · rfl
  · rfl
  · rfl
  · rfl
  · simp only [HSaplingTx.view, ite_tuple, saplingObj]
  · simp only [HSaplingTx.view, ite_map, saplingObj]; exact keys_stored _ _
  · simp only [HSaplingTx.view, ite_map, saplingObj]; exact keys_stored _ _
  · simp only [HSaplingTx.view, he, saplingObj]
  · simp only [HSaplingTx.view, he, saplingObj]
  · rfl
  · simp only [HSaplingTx.view, ite_tuple, saplingObj]
  · simp only [HSaplingTx.view, ite_tuple, saplingObj]
  · simp only [HSaplingTx.view, ite_map, saplingObj]
    cases so.get m with
    | nil => cases ss.get m with
      | nil => rfl
      | cons a l => rw [if_pos (by simp), if_pos (by simp)]
    | cons a l => rw [if_pos (by simp), if_pos (by simp)]

/-- C100, for Decred only while the caller leaves the lists alone (or passes tuples), and the bytearrays. -/
theorem C100_decred_partial (net : Network) (m m' : Mem) (version : BArg) (txIns : SArg (Live DecredTxIn)) (txOuts : SArg (Live DecredTxOut))
    (lockTime expiry : BArg) (ws : SArg (Live DecredInputWitness)) (t : HDecredTx)
    (h : HDecredTx.make net m version txIns txOuts lockTime expiry ws = .ok t)
    (hr : ∀ a ∈ version.refs ++ lockTime.refs ++ expiry.refs, m'.arr a = m.arr a)
    (h1 : txIns.get m' = txIns.get m) (h2 : txOuts.get m' = txOuts.get m) (h3 : ws.get m' = ws.get m)
    (g1 : ∀ x ∈ txIns.get m, x m'.arr = x m.arr) (g2 : ∀ x ∈ txOuts.get m, x m'.arr = x m.arr) (g3 : ∀ x ∈ ws.get m, x m'.arr = x m.arr) :
    DecredTx.make net (version.get m) ((txIns.get m).map (· m.arr)) ((txOuts.get m).map (· m.arr)) (lockTime.get m) (expiry.get m)
      ((ws.get m).map (· m.arr)) = .ok (t.view m') := by
  unfold HDecredTx.make at h
  obtain ⟨t0, h0, h⟩ := bind_ok_iff.1 h
  cases h
  rw [h0]
  obtain ⟨-, he⟩ := DecredTx.make_iff.1 h0
  simp only [List.mem_append] at hr
  unfold HDecredTx.view
  simp only
  rw [h1, h2, h3, live_congr g1, live_congr g2, live_congr g3, BArg.get_congr (b := version) (m := m) (m' := m') fun a ha => hr a (by simp [ha]),
    BArg.get_congr (b := lockTime) (m := m) (m' := m') fun a ha => hr a (by simp [ha]),
    BArg.get_congr (b := expiry) (m := m) (m' := m') fun a ha => hr a (by simp [ha]), he]
  simp only [decredObj]

/-- What a Decred transaction does when its lists or bytearrays are changed: the bytes and the id remain those of the arguments as they were,
the fee and the digests to be signed become those of the arguments as they are. -/
theorem C100_decred_follows (net : Network) (m m' : Mem) (version : BArg) (txIns : SArg (Live DecredTxIn)) (txOuts : SArg (Live DecredTxOut))
    (lockTime expiry : BArg) (ws : SArg (Live DecredInputWitness)) (t : HDecredTx)
    (h : HDecredTx.make net m version txIns txOuts lockTime expiry ws = .ok t) (t' : DecredTx)
    (h' : DecredTx.make net (version.get m') ((txIns.get m').map (· m'.arr)) ((txOuts.get m').map (· m'.arr)) (lockTime.get m') (expiry.get m')
      ((ws.get m').map (· m'.arr)) = .ok t') :
    (t.view m').bytes = (t.view m).bytes ∧ (t.view m').txId = (t.view m).txId ∧ (t.view m').calculateFee = t'.calculateFee ∧
    (∀ index script acp, (t.view m').sighashAll net index script acp = t'.sighashAll net index script acp) ∧
    ∀ index script acp, (t.view m').sighashSingle net index script acp = t'.sighashSingle net index script acp := by
  unfold HDecredTx.make at h
  obtain ⟨t0, h0, h⟩ := bind_ok_iff.1 h
  obtain ⟨-, he⟩ := DecredTx.make_iff.1 h0
  obtain ⟨-, he'⟩ := DecredTx.make_iff.1 h'
  cases h
  have prep : ∀ index script, DecredTx.sighashPrep net (HDecredTx.view m' ⟨version, txIns, txOuts, lockTime, expiry, ws, t0⟩) index script = t'.sighashPrep net index script := by
    intro index script
    unfold DecredTx.sighashPrep DecredTx.copy HDecredTx.view
    rw [he, he']
    simp only [decredObj, Option.getD_none]
  refine ⟨rfl, rfl, ?_, fun index script acp => ?_, fun index script acp => ?_⟩
  · rw [he']
    simp only [DecredTx.calculateFee, HDecredTx.view, decredObj]
  · unfold DecredTx.sighashAll; rw [prep]
  · unfold DecredTx.sighashSingle; rw [prep]

/-- A memory with one list of Decred outputs. -/
noncomputable def memOuts (xs : List (Live DecredTxOut)) : Mem where
  arr _ := []
  list α _ := open Classical in if h : α = Live DecredTxOut then h ▸ xs else []

theorem memOuts_get (xs : List (Live DecredTxOut)) (a : Nat) : (SArg.list a : SArg (Live DecredTxOut)).get (memOuts xs) = xs := by
  simp [SArg.get, memOuts]

/-- C100 fails for Decred: the caller appends an output to the list it made the transaction from; the bytes and the id stay, the fee and
the outputs that are signed change. -/
theorem C100_decred_false : ∃ (m m' : Mem) (txOuts : SArg (Live DecredTxOut)) (t : HDecredTx),
    HDecredTx.make decredMain m (.bytes [1, 0, 0, 0]) (.tuple [fun _ => exDIn]) txOuts (.bytes [0, 0, 0, 0]) (.bytes [0, 0, 0, 0])
      (.tuple [fun _ => exDWit]) = .ok t ∧
    txOuts.get m' = txOuts.get m ++ [fun _ => exDOut] ∧ (t.view m').bytes = (t.view m).bytes ∧ (t.view m').txId = (t.view m).txId ∧
    (t.view m').calculateFee ≠ (t.view m).calculateFee ∧
    ∃ t', DecredTx.make decredMain [1, 0, 0, 0] [exDIn] [exDOut, exDOut] [0, 0, 0, 0] [0, 0, 0, 0] [exDWit] = .ok t' ∧
      t'.bytes ≠ (t.view m').bytes ∧ ∀ index script acp, (t.view m').sighashAll decredMain index script acp = t'.sighashAll decredMain index script acp := by
  have h1 : DecredTx.make decredMain [1, 0, 0, 0] [exDIn] [exDOut] [0, 0, 0, 0] [0, 0, 0, 0] [exDWit] = .ok (exDTx 1 1) :=
    DecredTx.make_iff.2 ⟨(exDTx_built (n := 1) (m := 1) (by simp) (by simp)).facts.args, rfl⟩
  have h2 : DecredTx.make decredMain [1, 0, 0, 0] [exDIn] [exDOut, exDOut] [0, 0, 0, 0] [0, 0, 0, 0] [exDWit] = .ok (exDTx 1 2) :=
    DecredTx.make_iff.2 ⟨(exDTx_built (n := 1) (m := 2) (by simp) (by simp)).facts.args, rfl⟩
  have hm : HDecredTx.make decredMain (memOuts [fun _ => exDOut]) (.bytes [1, 0, 0, 0]) (.tuple [fun _ => exDIn]) (.list 0) (.bytes [0, 0, 0, 0])
      (.bytes [0, 0, 0, 0]) (.tuple [fun _ => exDWit]) = .ok ⟨.bytes [1, 0, 0, 0], .tuple [fun _ => exDIn], .list 0, .bytes [0, 0, 0, 0],
        .bytes [0, 0, 0, 0], .tuple [fun _ => exDWit], exDTx 1 1⟩ := by
    unfold HDecredTx.make
    rw [memOuts_get]
    show (DecredTx.make decredMain [1, 0, 0, 0] [exDIn] [exDOut] [0, 0, 0, 0] [0, 0, 0, 0] [exDWit] >>= _) = _
    rw [h1]; rfl
  obtain ⟨a1, a2, a3, a4, -⟩ := C100_decred_follows decredMain _ (memOuts [fun _ => exDOut, fun _ => exDOut]) _ _ _ _ _ _ _ hm (exDTx 1 2)
    (by rw [memOuts_get]; exact h2)
  refine ⟨memOuts [fun _ => exDOut], memOuts [fun _ => exDOut, fun _ => exDOut], .list 0, _, hm, by rw [memOuts_get, memOuts_get]; rfl,
    a1, a2, ?_, exDTx 1 2, h2, ?_, a4⟩
  · rw [a3]
    have e : (HDecredTx.view (memOuts [fun _ => exDOut]) ⟨.bytes [1, 0, 0, 0], .tuple [fun _ => exDIn], .list 0, .bytes [0, 0, 0, 0],
        .bytes [0, 0, 0, 0], .tuple [fun _ => exDWit], exDTx 1 1⟩).calculateFee = (exDTx 1 1).calculateFee := by
      unfold HDecredTx.view DecredTx.calculateFee
      simp only [memOuts_get]
      rfl
    rw [e]
    decide
  · rw [a1]
    intro e
    have := congrArg List.length e
    revert this
    show (exDTx 1 2).bytes.length ≠ (exDTx 1 1).bytes.length
    decide

/-- Environments whose hashes return the last 32 bytes, reversed. -/
def tailHashes : Hashes :=
  { toyHashes with
    sha256 := fun m => (m.reverse ++ List.replicate 32 0).take 32
    blake2b := fun _ m => (m.reverse ++ List.replicate 32 0).take 32 }

/-- C100 fails for bytearrays in the Zcash classes: a lock time given as a bytearray and changed later changes what is signed, while the
transaction still serializes as before. -/
theorem C100_zcash_bytearray_false : ∃ (m m' : Mem) (o : HOutpoint) (i : HTxIn) (out : HTxOut),
    HOutpoint.make m (.bytes (List.replicate 32 7)) (.bytes [0, 0, 0, 0]) = .ok o ∧
    HTxIn.make m o (.bytes []) (.bytes []) (.bytes [0, 0, 0, 0]) = .ok i ∧
    HTxOut.make m (.bytes [1, 0, 0, 0, 0, 0, 0, 0]) (.bytes [0x51]) = .ok out ∧
    (∃ E t, HSproutTx.make E m (.bytes [1, 0, 0, 0]) (.tuple [i]) (.tuple [out]) (.bytearray 0) (.tuple []) none none = .ok t ∧
      (t.view m').bytes = (t.view m).bytes ∧ (t.view m').txId = (t.view m).txId ∧
      (t.view m').sighashAll E 0 [1, 0x51] ≠ (t.view m).sighashAll E 0 [1, 0x51]) ∧
    (∃ E t, HOverwinterTx.make E m (.tuple [i]) (.tuple [out]) (.bytearray 0) (.bytes [9, 0, 0, 0]) (.tuple []) none none = .ok t ∧
      (t.view m').bytes = (t.view m).bytes ∧ (t.view m').txId = (t.view m).txId ∧
      (t.view m').sighashAll E (List.replicate 8 0) [1, 0x51] 0 true ≠ (t.view m).sighashAll E (List.replicate 8 0) [1, 0x51] 0 true) ∧
    (∃ E t, HSaplingTx.make E m (.tuple [i]) (.tuple [out]) (.bytearray 0) (.bytes [9, 0, 0, 0]) (.bytes (List.replicate 8 0)) (.tuple [])
        (.tuple []) (.tuple []) none none none = .ok t ∧
      (t.view m').bytes = (t.view m).bytes ∧ (t.view m').txId = (t.view m).txId ∧
      (t.view m').sighashAll E (List.replicate 8 0) 0 true ≠ (t.view m).sighashAll E (List.replicate 8 0) 0 true) := by
  refine ⟨memArr [0xff, 0xff, 0xff, 0xff], memArr [0, 0, 0, 0], _, _, _, rfl, rfl, rfl, ⟨⟨zcashSproutMain, tailHashes⟩, _, rfl, rfl, rfl, ?_⟩,
    ⟨⟨zcashOverwinterMain, tailHashes⟩, _, rfl, rfl, rfl, ?_⟩, ⟨⟨zcashSaplingMain, tailHashes⟩, _, rfl, rfl, rfl, ?_⟩⟩ <;> decide +kernel

/-- Inputs and outputs made of `bytes`. -/
def stillIn (t : TxIn) : HTxIn :=
  ⟨⟨.bytes t.outpoint.txId, .bytes t.outpoint.index, t.outpoint.bytes⟩, .bytes t.stackScript, .bytes t.redeemScript, t.scriptSig, .bytes t.sequence,
    t.bytes⟩
def stillOut (t : TxOut) : HTxOut := ⟨.bytes t.value, .bytes t.outputScript, t.bytes⟩

/-- The hypotheses can be met: version 2 with a joinsplit, the lock time in a bytearray; and likewise for the other classes. -/
example : ∃ t, HSproutTx.make sproutEnv (memArr [0, 0, 0, 0]) (.bytes v2) (.tuple [stillIn exIn]) (.tuple [stillOut exOut, stillOut exOut])
    (.bytearray 3) (.tuple [fun _ => exSproutJs]) (some (.bytes (List.replicate 32 9))) (some (.bytes (List.replicate 64 8))) = .ok t := by
  have h := exSprout2_built.facts
  have hm : SproutTx.make sproutEnv v2 [exIn] [exOut, exOut] [0, 0, 0, 0] (some [exSproutJs]) (some (List.replicate 32 9))
    (some (List.replicate 64 8)) = .ok _ := SproutTx.make_iff.2 ⟨h.args, rfl⟩
  exact ⟨_, bind_ok_iff.2 ⟨_, hm, bind_ok_iff.2 ⟨[2, 0, 0, 0], by decide, rfl⟩⟩⟩

example : ∃ t, HOverwinterTx.make overEnv (memArr [0, 0, 0, 0]) (.tuple [stillIn exIn]) (.tuple [stillOut exOut]) (.bytearray 3)
    (.bytes [9, 0, 0, 0]) (.tuple [fun _ => exSproutJs]) (some (.bytes (List.replicate 32 9))) (some (.bytes (List.replicate 64 8))) = .ok t := by
  have h := (exOver_built (n := 1) (by omega)).facts
  have hm : OverwinterTx.make overEnv [exIn] [exOut] [0, 0, 0, 0] [9, 0, 0, 0] [exSproutJs] (some (List.replicate 32 9))
    (some (List.replicate 64 8)) = .ok _ := OverwinterTx.make_iff.2 ⟨h.args, rfl⟩
  exact ⟨_, bind_ok_iff.2 ⟨_, hm, rfl⟩⟩

example : ∃ t, HSaplingTx.make sapEnv (memArr [0, 0, 0, 0]) (.tuple [stillIn exIn]) (.tuple [stillOut exOut]) (.bytearray 3)
    (.bytes [9, 0, 0, 0]) (.bytes [0xfd, 0xff, 0xff, 0xff, 0xff, 0xff, 0xff, 0xff]) (.tuple [fun _ => exSpend]) (.tuple [fun _ => exShieldedOut])
    (.tuple [fun _ => exSaplingJs]) (some (.bytes (List.replicate 32 9))) (some (.bytes (List.replicate 64 8)))
    (some (.bytes (List.replicate 64 7))) = .ok t := by
  have h := (exSap_built (n := 1) (by omega)).facts
  have hm : SaplingTx.make sapEnv [exIn] [exOut] [0, 0, 0, 0] [9, 0, 0, 0] [0xfd, 0xff, 0xff, 0xff, 0xff, 0xff, 0xff, 0xff] [exSpend]
    [exShieldedOut] [exSaplingJs] (some (List.replicate 32 9)) (some (List.replicate 64 8)) (some (List.replicate 64 7)) = .ok _ :=
    SaplingTx.make_iff.2 ⟨h.args, rfl⟩
  exact ⟨_, bind_ok_iff.2 ⟨_, hm, rfl⟩⟩

/-- And the components: a Decred input whose sequence is a bytearray. -/
example : ∃ o t, DecredOutpoint.makeLive decredMain (fun _ => [1, 0, 0, 0]) (.bytes (List.replicate 32 7)) (.bytearray 1) (.bytes [0]) = .ok o ∧
    DecredTxIn.makeLive decredMain (fun _ => [1, 0, 0, 0]) o (.bytearray 2) = .ok t ∧ (t fun _ => [2]).sequence = [2] ∧
    (t fun _ => [2]).bytes = List.replicate 32 7 ++ [1, 0, 0, 0, 0, 1, 0, 0, 0] :=
  ⟨_, _, rfl, rfl, rfl, rfl⟩

end Verif.Props
