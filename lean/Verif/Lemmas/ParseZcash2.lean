import Verif.Lemmas.ParseZcash

/-! Zcash transactions that have lost their end; Sprout and Sapling on arbitrary bytes. -/

namespace Verif
open Spec Props

/-- Objects of a fixed size of which the end is missing: all are there. -/
theorem fixedMany_cut {α : Type} {f : Bytes → Py α} {bytes : α → Bytes} {N : Nat} (hN : ∀ b x, f b = .ok x → N ≤ b.length)
    (xs : List α) (hx : ∀ x ∈ xs, (bytes x).length = N ∧ ∀ rest, f (bytes x ++ rest) = .ok x) (pre p rest : Bytes) (ys : List α)
    (fin : Nat) (hp : p <+: (xs.map bytes).flatten ++ rest)
    (h : parseMany f (fun x => (bytes x).length) (pre ++ p) xs.length pre.length = .ok (ys, fin)) :
    ∃ p', p = (xs.map bytes).flatten ++ p' ∧ p' <+: rest ∧ fin = pre.length + ((xs.map bytes).flatten).length := by
  rcases parseMany_cut (d := 0) xs (fun x hx' rest => ⟨x, (hx x hx').2 rest, rfl⟩)
    (fun x hx' p _ hl x' hf => by have := hN _ _ hf; have := (hx x hx').1; omega) pre p rest ys fin hp h with h | ⟨-, -, x, hx', q, x', -, hl, hf⟩
  · exact h
  · have := hN _ _ hf; have := (hx x hx').1; omega

theorem ins_few {ins : List TxIn} (hi : ∀ i ∈ ins, i.Built) : 41 * ins.length ≤ (vector (ins.map (·.bytes))).length := by
  have i1 : 41 * ins.length ≤ (ins.map fun x => x.bytes.length).sum := sum_ge (fun x hx => (hi x hx).length_ge)
  rw [vector_length, List.map_map]
  have : (List.map (List.length ∘ fun x : TxIn => x.bytes) ins) = ins.map fun x => x.bytes.length := rfl
  rw [this]; omega

theorem outs_few {outs : List TxOut} (hi : ∀ i ∈ outs, i.Built) : 9 * outs.length ≤ (vector (outs.map (·.bytes))).length := by
  have i1 : 9 * outs.length ≤ (outs.map fun x => x.bytes.length).sum := sum_ge (fun x hx => (hi x hx).length_ge)
  rw [vector_length, List.map_map]
  have : (List.map (List.length ∘ fun x : TxOut => x.bytes) outs) = outs.map fun x => x.bytes.length := rfl
  rw [this]; omega

theorem VarInt.fromBytes_nil {net : Network} {v : VarInt} : VarInt.fromBytes net [] ≠ .ok v := by intro h; cases h

theorem VarInt.fd_short0 {net : Network} (v : VarInt) : VarInt.fromBytes net [0xfd] ≠ .ok v := by
  have h : VarInt.fromBytes net [0xfd] = .error .valueError := rfl
  rw [h]; intro h; cases h

theorem VarInt.fd_short1 {net : Network} (hs : net.isSapling = true) {x : UInt8} {v : VarInt} (h : VarInt.fromBytes net [0xfd, x] = .ok v)
    (h0 : v.number = 0) : False := by
  have hsp : VarInt.split 0xfd [0xfd, x] = ([x], [x] == [0x00]) := rfl
  unfold VarInt.fromBytes at h
  simp only [hsp] at h
  rw [if_neg (by simp)] at h
  by_cases c : x = 0
  · subst c
    rw [if_pos ⟨rfl, .inr hs⟩] at h
    cases h
  · rw [if_neg (by simp [c])] at h
    obtain ⟨w, h1, h2, -⟩ := VarInt.make_any (n := leToNat [x]) (by have := leToNat_lt [x]; simp at this; omega)
      (some (if ([x] == [0x00]) = true then [x].length + 1 else 0)) (by simp [c]) (by simp [c])
    have : le2i [x] = (leToNat [x] : Int) := rfl
    rw [this, h1] at h
    cases h
    rw [h2] at h0
    apply c
    have : x.toNat = 0 := by simpa [leToNat] using h0
    exact UInt8.toNat_inj.1 this

/-! ### Overwinter -/

theorem OverwinterTx.cut {E : Env} (hn : E.net.Supported) {t : OverwinterTx} (h : t.Facts E) (hs : InsOutsStable E.net t.txIns t.txOuts)
    (hc : t.txJoinsplits = [] ∨ t.txOuts.length < 253) {p : Bytes} (hp : p <+: t.bytes) (hl : p.length < t.bytes.length) {t' : OverwinterTx}
    (ht : OverwinterTx.fromBytes E p = .ok t') :
    p = overHeader ++ (vector (t.txIns.map (·.bytes)) ++ (vector (t.txOuts.map (·.bytes)) ++ (t.lockTime ++ t.expiryHeight))) := by
  obtain ⟨q, js, pk, sig, h1, h2, h3⟩ := OverwinterTx.fromBytes_steps ht
  rw [OverwinterTx.make_iff] at h3
  obtain ⟨a', -⟩ := h3
  have a := h.args
  have l1 := a'.lt4
  have l2 := a'.ex4
  simp only [slice_length] at l1 l2
  have sz := a.size
  rw [← h.bytes] at sz
  rw [h.bytes, wireOverwinter_eq] at hp hl
  have sz' := sz
  rw [h.bytes, wireOverwinter_eq] at sz'
  simp only [List.length_append] at sz'
  have f1 := ins_few h.ins
  have f2 := outs_few h.outs
  rcases parseInsOuts_cut (q := p) hn h.ins h.outs hs (by omega) (by omega) hp h1 with ⟨r, rfl, hr, hcur, hol⟩ | hx
  case inr => omega
  have hr8 : 8 ≤ r.length := by
    simp only [List.length_append] at l2 hcur
    omega
  rw [← List.append_assoc] at hr
  rcases prefix_cases hr with ⟨r', rfl, hr'⟩ | ⟨-, hx⟩
  case inr => rw [List.length_append, a.lt4, a.ex4] at hx; omega
  by_cases c : r' = []
  · subst c; simp
  exfalso
  have hpre : (overHeader ++ (vector (t.txIns.map (·.bytes)) ++ (vector (t.txOuts.map (·.bytes)) ++ (t.lockTime ++ t.expiryHeight)))).length =
      q.current + 8 := by
    rw [hcur]; simp only [List.length_append, a.lt4, a.ex4]; omega
  have hB' : overHeader ++ (vector (t.txIns.map (·.bytes)) ++ (vector (t.txOuts.map (·.bytes)) ++ (t.lockTime ++ t.expiryHeight ++ r'))) =
      (overHeader ++ (vector (t.txIns.map (·.bytes)) ++ (vector (t.txOuts.map (·.bytes)) ++ (t.lockTime ++ t.expiryHeight)))) ++ r' := by simp
  have hrl : r'.length < (wireJoinsplits (t.txJoinsplits.map (·.bytes)) (t.joinsplitPubkey.getD []) (t.joinsplitSig.getD [])).length := by
    simp only [List.length_append] at hl; omega
  rw [hB', ← hpre] at h2
  generalize overHeader ++ (vector (t.txIns.map (·.bytes)) ++ (vector (t.txOuts.map (·.bytes)) ++ (t.lockTime ++ t.expiryHeight))) = pre at h2
  have c1 := compactSize_one (n := t.txJoinsplits.length) (by have := a.js5; omega)
  have rpos := List.length_pos_of_ne_nil c
  unfold OverwinterTx.parseJs at h2
  rw [if_neg (by rw [List.length_append]; omega)] at h2
  obtain ⟨n, g1, h2⟩ := bind_ok_iff.1 h2
  obtain ⟨⟨ys, fin⟩, g2, h2⟩ := bind_ok_iff.1 h2
  cases h2
  simp only [wireJoinsplits, vector, List.length_map, List.append_assoc] at hr' hrl
  rcases prefix_cases hr' with ⟨r2, rfl, hr2⟩ | ⟨-, hx⟩
  case inr => omega
  rw [List.drop_left, VarInt.fromBytes_len (by have := a.js5; omega) (.inr (by have := a.js5; omega))] at g1
  cases g1
  simp only [] at g2
  by_cases cj : t.txJoinsplits = []
  · rw [cj] at hrl
    simp at hrl
    omega
  have co : t.txOuts.length < 253 := hc.resolve_left cj
  rw [hol, compactSize_one co, ← c1, ← List.length_append, ← List.append_assoc] at g2
  obtain ⟨r3, rfl, hr3, hfin⟩ := fixedMany_cut (bytes := fun x : SproutJoinsplit => x.bytes) (N := 1802) (fun b x hx => (SproutJoinsplit.fromBytes_ok hx).2.1) t.txJoinsplits
    (fun x hx => ⟨(h.js x hx).length, fun rest => SproutJoinsplit.fromBytes_bytes (h.js x hx) rest⟩) _ _ _ _ _ hr2 g2
  have cjm : ¬ (t.txJoinsplits.map (·.bytes)) = [] := by simpa using cj
  rw [if_neg cjm] at hrl
  have hjs : js ≠ [] := by
    intro e
    have := (parseMany_ge g2).1
    rw [e] at this
    exact cj (List.length_eq_zero_iff.1 this.symm)
  obtain ⟨⟨_, e1, k1⟩, ⟨_, e2, k2⟩⟩ := a'.keys hjs
  cases e1
  cases e2
  obtain ⟨⟨pk, e1, k3⟩, ⟨sg, e2, k4⟩⟩ := a.keys cj
  rw [e1, e2] at hrl
  simp only [slice_length, List.length_append, Option.getD_some, k3, k4] at k1 k2 hrl hfin
  omega

/-! ### Sapling -/

theorem SaplingTx.parseRest_steps {net : Network} {b : Bytes} {k c : Nat} {r : SaplingTx.Rest} (h : SaplingTx.parseRest net b k c = .ok r) :
    ∃ ns c1 nso c2 nj c3, VarInt.fromBytes net (b.drop c) = .ok ns ∧
      parseMany (SaplingShieldedSpend.fromBytes net) (·.bytes.length) b ns.number (c + ns.bytes.length) = .ok (r.spends, c1) ∧
      VarInt.fromBytes net (b.drop c1) = .ok nso ∧
      parseMany (SaplingShieldedOutput.fromBytes net) (·.bytes.length) b nso.number (c1 + nso.bytes.length) = .ok (r.outputs, c2) ∧
      VarInt.fromBytes net (b.drop c2) = .ok nj ∧
      parseMany (SaplingJoinsplit.fromBytes net) (·.bytes.length) b nj.number (c2 + k) = .ok (r.js, c3) ∧
      r.pk = (if r.js.length > 0 then some (slice b c3 (c3 + 32)) else none) ∧
      r.sig = (if r.js.length > 0 then some (slice b (c3 + 32) (c3 + 32 + 64)) else none) ∧
      r.binding = (if r.spends.length + r.outputs.length > 0 then some (slice b (if r.js.length > 0 then c3 + 32 + 64 else c3)
        ((if r.js.length > 0 then c3 + 32 + 64 else c3) + 64)) else none) := by
  unfold SaplingTx.parseRest at h
  obtain ⟨ns, h1, h⟩ := bind_ok_iff.1 h
  obtain ⟨⟨ss, c1⟩, h2, h⟩ := bind_ok_iff.1 h
  obtain ⟨nso, h3, h⟩ := bind_ok_iff.1 h
  obtain ⟨⟨so, c2⟩, h4, h⟩ := bind_ok_iff.1 h
  obtain ⟨nj, h5, h⟩ := bind_ok_iff.1 h
  obtain ⟨⟨js, c3⟩, h6, h⟩ := bind_ok_iff.1 h
  cases h
  exact ⟨ns, c1, nso, c2, nj, c3, h1, h2, h3, h4, h5, h6, rfl, rfl, rfl⟩

theorem SaplingTx.parseRest_error {net : Network} {b : Bytes} {k c : Nat} {e : PyErr} (h : SaplingTx.parseRest net b k c = .error e) :
    ParseErr e := by
  unfold SaplingTx.parseRest at h
  rcases bind_error_iff.1 h with h | ⟨_, -, h⟩
  · exact (VarInt.fromBytes_error h).parse
  rcases bind_error_iff.1 h with h | ⟨⟨_, _⟩, -, h⟩
  · exact (parseMany_ve (SaplingShieldedSpend.fromBytes_ve net) b _ _).parse h
  rcases bind_error_iff.1 h with h | ⟨_, -, h⟩
  · exact (VarInt.fromBytes_error h).parse
  rcases bind_error_iff.1 h with h | ⟨⟨_, _⟩, -, h⟩
  · exact (parseMany_ve (SaplingShieldedOutput.fromBytes_ve net) b _ _).parse h
  rcases bind_error_iff.1 h with h | ⟨_, -, h⟩
  · exact (VarInt.fromBytes_error h).parse
  rcases bind_error_iff.1 h with h | ⟨⟨_, _⟩, -, h⟩
  · exact (parseMany_ve (SaplingJoinsplit.fromBytes_ve net) b _ _).parse h
  · cases h

theorem SaplingTx.fromBytes_error {E : Env} (hn : E.net.Supported) {b : Bytes} {e : PyErr} (h : SaplingTx.fromBytes E b = .error e) :
    ParseErr e := by
  unfold SaplingTx.fromBytes at h
  rcases bind_error_iff.1 h with h | ⟨_, -, h⟩
  · exact (OnlyVE.check _).parse h
  rcases bind_error_iff.1 h with h | ⟨p, -, h⟩
  · exact parseInsOuts_error hn h
  rcases bind_error_iff.1 h with h | ⟨r, hr, h⟩
  · exact SaplingTx.parseRest_error h
  · refine (SaplingTx.make_ve _ _ _ _ _ _ _ _ _ _ _ _ ?_).parse h
    obtain ⟨_, _, _, _, _, _, -, -, -, -, -, -, -, -, hb⟩ := SaplingTx.parseRest_steps hr
    intro hx
    rw [hb, if_pos]
    · exact ⟨_, rfl⟩
    · rcases hx with hx | hx <;> have := List.length_pos_of_ne_nil hx <;> omega

theorem SaplingTx.fromBytes_steps {E : Env} {b : Bytes} {t : SaplingTx} (h : SaplingTx.fromBytes E b = .ok t) :
    ∃ p r, parseInsOuts E.net b 8 = .ok p ∧ SaplingTx.parseRest E.net b p.outsNumLen (p.current + 16) = .ok r ∧
      SaplingTx.make E p.txIns p.txOuts (slice b p.current (p.current + 4)) (slice b (p.current + 4) (p.current + 8))
        (slice b (p.current + 8) (p.current + 16)) r.spends r.outputs r.js r.pk r.sig r.binding = .ok t := by
  unfold SaplingTx.fromBytes at h
  obtain ⟨_, -, h⟩ := bind_ok_iff.1 h
  obtain ⟨p, h1, h⟩ := bind_ok_iff.1 h
  obtain ⟨r, h2, h⟩ := bind_ok_iff.1 h
  exact ⟨p, r, h1, h2, h⟩

theorem SaplingTx.fromBytes_ok {E : Env} (hn : E.net.Supported) {b : Bytes} {t : SaplingTx} (h : SaplingTx.fromBytes E b = .ok t) :
    t.Built E ∧ t.bytes.length ≤ b.length := by
  obtain ⟨p, r, h1, h2, hm⟩ := SaplingTx.fromBytes_steps h
  obtain ⟨i1, i2, i3, i4, i5⟩ := parseInsOuts_ok hn h1
  have h3 := hm
  rw [SaplingTx.make_iff] at h3
  obtain ⟨a, rfl⟩ := h3
  have l1 := a.vb8
  simp only [slice_length] at l1
  obtain ⟨ns, c1, nso, c2, nj, c3, g1, g2, g3, g4, g5, g6, e1, e2, e3⟩ := SaplingTx.parseRest_steps h2
  obtain ⟨j1, j2, j3, -⟩ := parseMany_ok (P := fun x : SaplingShieldedSpend => x.Built E.net) (k := 0) (m := 0)
    (fun b x hx => ⟨(SaplingShieldedSpend.fromBytes_ok hx).1, by omega, by omega⟩) b _ _ _ _ g2
  obtain ⟨k1, k2, k3, -⟩ := parseMany_ok (P := fun x : SaplingShieldedOutput => x.Built E.net) (k := 0) (m := 0)
    (fun b x hx => ⟨(SaplingShieldedOutput.fromBytes_ok hx).1, by omega, by omega⟩) b _ _ _ _ g4
  obtain ⟨m1, m2, m3, -⟩ := parseMany_ok (P := fun x : SaplingJoinsplit => x.Built E.net) (k := 0) (m := 0)
    (fun b x hx => ⟨(SaplingJoinsplit.fromBytes_ok hx).1, by omega, by omega⟩) b _ _ _ _ g6
  refine ⟨⟨_, _, _, _, _, _, _, _, _, _, _, i1, i2, fun x hx => (j2 x hx).1, fun x hx => (k2 x hx).1, fun x hx => (m2 x hx).1, hm⟩, ?_⟩
  obtain ⟨-, -, n1, n1'⟩ := VarInt.fromBytes_ok g1
  obtain ⟨-, -, n2, n2'⟩ := VarInt.fromBytes_ok g3
  have n3 := List.length_pos_of_ne_nil (VarInt.fromBytes_ok g5).1
  rw [List.length_drop] at n3
  rw [← j1] at n1
  rw [← k1] at n2
  have cj := compactSize_one (n := r.js.length) (by have := a.js5; omega)
  have hk := a.keys
  have hb := a.binding
  have hb64 := a.bs64
  rw [e1, e2] at hk
  rw [e3] at hb hb64
  simp only [saplingObj, saplingBytes_wire, List.length_append, a.lt4, a.ex4, a.vb8, cj, vector, List.length_map, flatten_length, e1, e2, e3]
  simp only [vector, List.length_append, List.length_map, flatten_length] at i4
  have hh : saplingHeader.length = 8 := rfl
  by_cases cjs : r.js = []
  · rw [if_pos cjs]
    simp only [cjs, List.length_nil, List.map_nil, List.sum_nil, gt_iff_lt, Nat.lt_irrefl, if_false] at m3 hb64 ⊢
    by_cases cs : r.spends = [] ∧ r.outputs = []
    · rw [if_pos cs, List.length_nil]; omega
    · rw [if_neg cs]
      have : 0 < r.spends.length + r.outputs.length := by
        rcases Classical.not_and_iff_not_or_not.1 cs with c | c <;> have := List.length_pos_of_ne_nil c <;> omega
      simp only [this, if_true, Option.getD_some, Option.some.injEq, forall_eq', slice_length] at hb64 ⊢
      omega
  · have cjl := List.length_pos_of_ne_nil cjs
    rw [if_neg cjs]
    simp only [cjl, gt_iff_lt, if_true, Option.getD_some, Option.some.injEq, exists_eq_left', slice_length] at hk hb64 ⊢
    have hk := hk cjs
    by_cases cs : r.spends = [] ∧ r.outputs = []
    · rw [if_pos cs, List.length_nil]; simp only [List.length_append, slice_length]; omega
    · rw [if_neg cs]
      have : 0 < r.spends.length + r.outputs.length := by
        rcases Classical.not_and_iff_not_or_not.1 cs with c | c <;> have := List.length_pos_of_ne_nil c <;> omega
      simp only [this, if_true, Option.getD_some, Option.some.injEq, forall_eq', slice_length, List.length_append] at hb64 ⊢
      omega


/-- A counted list of objects of a fixed size of which the end is missing: all is there. -/
theorem fixedVec_cut {α : Type} {net : Network} {f : Bytes → Py α} {bytes : α → Bytes} {N : Nat} (hsap : net.isSapling = true) (hN1 : 3 ≤ N)
    (hN : ∀ b x, f b = .ok x → N ≤ b.length) (xs : List α) (hx : ∀ x ∈ xs, (bytes x).length = N ∧ ∀ rest, f (bytes x ++ rest) = .ok x)
    (hl : xs.length < 65536) (hz : LenOK net xs.length) (pre p rest : Bytes) (ys : List α) (fin : Nat) (n : VarInt)
    (hp : p <+: vector (xs.map bytes) ++ rest) (hv : VarInt.fromBytes net ((pre ++ p).drop pre.length) = .ok n)
    (h : parseMany f (fun x => (bytes x).length) (pre ++ p) n.number (pre.length + n.bytes.length) = .ok (ys, fin)) :
    ∃ p', p = vector (xs.map bytes) ++ p' ∧ p' <+: rest ∧ fin = pre.length + (vector (xs.map bytes)).length ∧ ys.length = xs.length := by
  rw [List.drop_left] at hv
  unfold vector at hp ⊢
  rw [List.append_assoc, List.length_map] at hp
  rcases prefix_cases hp with ⟨p1, rfl, hp1⟩ | ⟨hp0, hx0⟩
  · rw [VarInt.fromBytes_len (by omega) hz] at hv
    cases hv
    simp only [] at h
    rw [← List.length_append, ← List.append_assoc] at h
    obtain ⟨p2, rfl, hp2, hfin⟩ := fixedMany_cut hN xs hx _ _ _ _ _ hp1 h
    exact ⟨p2, by simp, hp2, by rw [hfin]; simp only [List.length_append, List.length_map]; omega, (parseMany_ge h).1⟩
  · exfalso
    have c3 := compactSize_le3 hl
    have hne := (VarInt.fromBytes_ok hv).1
    have hpos := List.length_pos_of_ne_nil hne
    have hnum : n.number = 0 := by
      cases hnn : n.number with
      | zero => rfl
      | succ m =>
        rw [hnn] at h
        unfold parseMany at h
        obtain ⟨x, hf, -⟩ := bind_ok_iff.1 h
        have := hN _ _ hf
        simp only [List.length_drop, List.length_append] at this
        omega
    -- the length is one of the three-byte form of which one or two bytes are there
    have h253 : 253 ≤ xs.length := by
      rcases Nat.lt_or_ge xs.length 253 with c | c
      · have := compactSize_one c; omega
      · exact c
    have hcs : ∃ a b, compactSize xs.length = [0xfd, a, b] := by
      have hc : compactSize xs.length = 0xfd :: leBytes 2 xs.length := by
        unfold compactSize
        rw [if_neg (by omega), if_pos (by omega)]
      rw [hc]
      exact ⟨_, _, rfl⟩
    obtain ⟨a, b, hcs⟩ := hcs
    rw [hcs] at hp0 hx0
    obtain ⟨q, hq⟩ := hp0
    match p, hpos, hx0, hq with
    | [c], _, _, hq =>
      simp only [List.cons_append, List.nil_append, List.cons.injEq] at hq
      obtain ⟨rfl, -⟩ := hq
      exact absurd hv (VarInt.fd_short0 n)
    | [c, d], _, _, hq =>
      simp only [List.cons_append, List.nil_append, List.cons.injEq] at hq
      obtain ⟨rfl, rfl, -⟩ := hq
      exact VarInt.fd_short1 hsap hv hnum
    | _ :: _ :: _ :: _, _, hx0, _ => simp at hx0; omega


theorem SaplingTx.cut {E : Env} (hn : E.net.Supported) {t : SaplingTx} (h : t.Facts E) (hs : InsOutsStable E.net t.txIns t.txOuts)
    (hss : LenOK E.net t.txShieldedSpends.length)
    (hc : (t.txJoinsplits = [] ∧ t.txShieldedSpends = [] ∧ t.txShieldedOutputs = []) ∨ t.txOuts.length < 253)
    {p : Bytes} (hp : p <+: t.bytes) (hl : p.length < t.bytes.length) {t' : SaplingTx} (ht : SaplingTx.fromBytes E p = .ok t') : False := by
  obtain ⟨q, r, h1, h2, h3⟩ := SaplingTx.fromBytes_steps ht
  rw [SaplingTx.make_iff] at h3
  obtain ⟨a', -⟩ := h3
  have a := h.args
  have l2 := a'.vb8
  simp only [slice_length] at l2
  have sz := a.size
  rw [h.bytes, saplingBytes_wire] at hp hl
  rw [saplingBytes_wire] at sz
  have f1 := ins_few h.ins
  have f2 := outs_few h.outs
  have hso := h.fewOutputs
  have hsl : 384 * t.txShieldedSpends.length ≤ (vector (t.txShieldedSpends.map (·.bytes))).length := by
    rw [vector_length, List.map_map]
    have h1 : 384 * t.txShieldedSpends.length ≤ (t.txShieldedSpends.map fun x => x.bytes.length).sum :=
      sum_ge (fun x hx => by rw [(h.ss x hx).length]; exact Nat.le_refl _)
    have h2 : (List.map (List.length ∘ fun x : SaplingShieldedSpend => x.bytes) t.txShieldedSpends) =
      t.txShieldedSpends.map fun x => x.bytes.length := rfl
    rw [h2]; omega
  have sz' := sz
  simp only [List.length_append] at sz'
  rcases parseInsOuts_cut (q := p) hn h.ins h.outs hs (by omega) (by omega) hp h1 with ⟨r1, rfl, hr, hcur, hol⟩ | hx
  case inr => omega
  have hr16 : 16 ≤ r1.length := by
    simp only [List.length_append] at l2 hcur
    omega
  rw [← List.append_assoc, ← List.append_assoc] at hr
  rcases prefix_cases hr with ⟨r2, rfl, hr2⟩ | ⟨-, hx⟩
  case inr => simp only [List.length_append, a.lt4, a.ex4, a.vb8] at hx; omega
  have hpre : (saplingHeader ++ (vector (t.txIns.map (·.bytes)) ++ (vector (t.txOuts.map (·.bytes)) ++
      (t.lockTime ++ t.expiryHeight ++ t.valueBalance)))).length = q.current + 16 := by
    rw [hcur]; simp only [List.length_append, a.lt4, a.ex4, a.vb8]; omega
  have hB : saplingHeader ++ (vector (t.txIns.map (·.bytes)) ++ (vector (t.txOuts.map (·.bytes)) ++
      (t.lockTime ++ t.expiryHeight ++ t.valueBalance ++ r2))) = (saplingHeader ++ (vector (t.txIns.map (·.bytes)) ++
      (vector (t.txOuts.map (·.bytes)) ++ (t.lockTime ++ t.expiryHeight ++ t.valueBalance)))) ++ r2 := by simp
  have hl2 : r2.length < (vector (t.txShieldedSpends.map (·.bytes)) ++ (vector (t.txShieldedOutputs.map (·.bytes)) ++
      (compactSize t.txJoinsplits.length ++ ((t.txJoinsplits.map (·.bytes)).flatten ++
        ((if t.txJoinsplits = [] then [] else t.joinsplitPubkey.getD [] ++ t.joinsplitSig.getD []) ++
          (if t.txShieldedSpends = [] ∧ t.txShieldedOutputs = [] then [] else t.bindingSig.getD [])))))).length := by
    simp only [List.length_append] at hl ⊢; omega
  rw [hB, ← hpre] at h2
  generalize saplingHeader ++ (vector (t.txIns.map (·.bytes)) ++ (vector (t.txOuts.map (·.bytes)) ++
      (t.lockTime ++ t.expiryHeight ++ t.valueBalance))) = pre at h2
  obtain ⟨ns, c1, nso, c2, nj, c3, g1, g2, g3, g4, g5, g6, e1, e2, e3⟩ := SaplingTx.parseRest_steps h2
  have hm5 := a.js5
  have cj := compactSize_one (n := t.txJoinsplits.length) (by omega)
  obtain ⟨r3, rfl, hr3, hc1, hsn⟩ := fixedVec_cut (bytes := fun x : SaplingShieldedSpend => x.bytes) (N := 384) a.sp (by omega)
    (fun b x hx => (SaplingShieldedSpend.fromBytes_ok hx).2.1) t.txShieldedSpends
    (fun x hx => ⟨(h.ss x hx).length, fun rest => SaplingShieldedSpend.fromBytes_bytes (h.ss x hx) rest⟩) (by omega) hss
    _ _ _ _ _ _ hr2 g1 g2
  rw [← List.length_append] at hc1
  rw [← List.append_assoc, hc1] at g3 g4
  obtain ⟨r4, rfl, hr4, hc2, hson⟩ := fixedVec_cut (bytes := fun x : SaplingShieldedOutput => x.bytes) (N := 948) a.sp (by omega)
    (fun b x hx => (SaplingShieldedOutput.fromBytes_ok hx).2.1) t.txShieldedOutputs
    (fun x hx => ⟨(h.so x hx).length, fun rest => SaplingShieldedOutput.fromBytes_bytes (h.so x hx) rest⟩) (by omega) (.inr (by omega))
    _ _ _ _ _ _ hr3 g3 g4
  rw [← List.length_append] at hc2
  rw [← List.append_assoc, ← List.append_assoc, hc2] at g5
  rw [List.drop_left] at g5
  have hne := List.length_pos_of_ne_nil (VarInt.fromBytes_ok g5).1
  rcases prefix_cases hr4 with ⟨r5, rfl, hr5⟩ | ⟨-, hx⟩
  case inr => omega
  rw [VarInt.fromBytes_len (by omega) (.inr (by omega))] at g5
  cases g5
  simp only [] at g6
  by_cases hempty : t.txJoinsplits = [] ∧ t.txShieldedSpends = [] ∧ t.txShieldedOutputs = []
  · obtain ⟨z1, z2, z3⟩ := hempty
    rw [z1, z2, z3] at hl2
    simp at hl2
    omega
  have co := hc.resolve_left hempty
  have hB6 : pre ++ (vector (t.txShieldedSpends.map (·.bytes)) ++ (vector (t.txShieldedOutputs.map (·.bytes)) ++
      (compactSize t.txJoinsplits.length ++ r5))) = (pre ++ vector (t.txShieldedSpends.map (·.bytes)) ++
      vector (t.txShieldedOutputs.map (·.bytes)) ++ compactSize t.txJoinsplits.length) ++ r5 := by simp
  rw [hol, compactSize_one co, ← cj, hc2, ← List.length_append, hB6] at g6
  obtain ⟨r6, rfl, hr6, hfin⟩ := fixedMany_cut (bytes := fun x : SaplingJoinsplit => x.bytes) (N := 1698)
    (fun b x hx => (SaplingJoinsplit.fromBytes_ok hx).2.1) t.txJoinsplits
    (fun x hx => ⟨(h.js x hx).length, fun rest => SaplingJoinsplit.fromBytes_bytes (h.js x hx) rest⟩) _ _ _ _ _ hr5 g6
  have hjn := (parseMany_ge g6).1
  have hk := a'.keys
  have hb := a'.bs64
  rw [e1, e2] at hk
  rw [e3, hsn, hson, hjn] at hb
  simp only [List.length_append] at hl2 hfin
  by_cases cjs : t.txJoinsplits = []
  · rw [if_pos cjs] at hl2
    have c0 : t.txJoinsplits.length = 0 := by rw [cjs]; rfl
    have z0 : ((t.txJoinsplits.map (fun x => x.bytes)).flatten).length = 0 := by rw [cjs]; rfl
    have cs : ¬ (t.txShieldedSpends = [] ∧ t.txShieldedOutputs = []) := fun c => hempty ⟨cjs, c⟩
    rw [if_neg cs] at hl2
    have hp : 0 < t.txShieldedSpends.length + t.txShieldedOutputs.length := by
      rcases Classical.not_and_iff_not_or_not.1 cs with c | c <;> have := List.length_pos_of_ne_nil c <;> omega
    have hor : t.txShieldedSpends ≠ [] ∨ t.txShieldedOutputs ≠ [] := Classical.not_and_iff_not_or_not.1 cs
    obtain ⟨s, hs'⟩ := a.binding hor
    have := a.bs64 s hs'
    rw [hs', Option.getD_some, List.length_nil] at hl2
    rw [if_pos hp] at hb
    have hb := hb _ rfl
    rw [c0] at hb cj hl2 hfin
    simp only [slice_length, List.length_append, gt_iff_lt, Nat.lt_irrefl, if_false] at hb
    omega
  · have cjl : t.txJoinsplits.length > 0 := List.length_pos_of_ne_nil cjs
    rw [if_neg cjs] at hl2
    have hrj : r.js ≠ [] := by intro e; rw [e] at hjn; simp at hjn; omega
    obtain ⟨⟨_, x1, k1⟩, ⟨_, x2, k2⟩⟩ := hk hrj
    rw [if_pos (by omega)] at x1 x2
    cases x1
    cases x2
    obtain ⟨⟨pk, x1, k3⟩, ⟨sg, x2, k4⟩⟩ := a.keys cjs
    rw [x1, x2] at hl2
    simp only [slice_length, List.length_append, Option.getD_some, k3, k4] at k1 k2 hl2
    rw [if_pos cjl] at hb
    by_cases cs : t.txShieldedSpends = [] ∧ t.txShieldedOutputs = []
    · rw [if_pos cs, List.length_nil] at hl2
      omega
    · rw [if_neg cs] at hl2
      have hp : 0 < t.txShieldedSpends.length + t.txShieldedOutputs.length := by
        rcases Classical.not_and_iff_not_or_not.1 cs with c | c <;> have := List.length_pos_of_ne_nil c <;> omega
      have hor : t.txShieldedSpends ≠ [] ∨ t.txShieldedOutputs ≠ [] := Classical.not_and_iff_not_or_not.1 cs
      obtain ⟨s, hs'⟩ := a.binding hor
      have := a.bs64 s hs'
      rw [hs', Option.getD_some] at hl2
      rw [if_pos hp] at hb
      have hb := hb _ rfl
      simp only [slice_length, List.length_append] at hb
      omega

/-! ### Sprout -/

theorem SproutTx.fromBytes_steps {E : Env} {b : Bytes} {t : SproutTx} (h : SproutTx.fromBytes E b = .ok t) :
    slice b 0 4 = v2 ∧ ∃ p n js cur, parseInsOuts E.net b 4 = .ok p ∧ VarInt.fromBytes E.net (b.drop (p.current + 4)) = .ok n ∧
      parseMany (SproutJoinsplit.fromBytes E.net) (·.bytes.length) b n.number (p.current + 4 + n.bytes.length) = .ok (js, cur) ∧
      SproutTx.make E v2 p.txIns p.txOuts (slice b p.current (p.current + 4)) (some js) (some (slice b cur (cur + 32)))
        (some (slice b (cur + 32) (cur + 96))) = .ok t := by
  have hv1 : le2i (slice b 0 4) ≠ 1 := fun c => SproutTx.fromBytes_v1 c t h
  unfold SproutTx.fromBytes at h
  obtain ⟨p, h1, h⟩ := bind_ok_iff.1 h
  obtain ⟨⟨js, pk, sig⟩, h2, h⟩ := bind_ok_iff.1 h
  simp only [] at h
  have hm := h
  rw [SproutTx.make_iff] at h
  obtain ⟨a, -⟩ := h
  rcases a.ver with ⟨x, -⟩ | ⟨x, -⟩
  · rw [x] at hv1; exact absurd rfl hv1
  refine ⟨x, p, ?_⟩
  unfold SproutTx.parseJs at h2
  rw [if_pos (by rw [x]; rfl)] at h2
  obtain ⟨n, g1, h2⟩ := bind_ok_iff.1 h2
  obtain ⟨⟨ys, cur⟩, g2, h2⟩ := bind_ok_iff.1 h2
  cases h2
  rw [x] at hm
  exact ⟨n, _, cur, h1, g1, g2, hm⟩

theorem SproutTx.make_none {E : Env} {v : Bytes} {ins : List TxIn} {outs : List TxOut} {lt : Bytes} {e : PyErr} (hv : le2i v ≠ 2)
    (h : SproutTx.make E v ins outs lt none none none = .error e) : e = .valueError ∨ (e = .typeError ∧ v = v1) := by
  by_cases he : e = .typeError
  case neg =>
    left
    unfold SproutTx.make at h
    rcases bind_error_iff.1 h with h | ⟨_, -, h⟩
    · exact OnlyVE.gate _ _ h
    rcases bind_error_iff.1 h with h | ⟨_, -, h⟩
    · exact OnlyVE.check _ _ h
    rcases bind_error_iff.1 h with h | ⟨_, -, h⟩
    · exact OnlyVE.validate _ _ _ h
    rcases bind_error_iff.1 h with h | ⟨_, -, h⟩
    · exact OnlyVE.validate _ _ _ h
    rcases bind_error_iff.1 h with h | ⟨_, -, h⟩
    · unfold SproutTx.checkV1 at h
      split at h
      · rcases bind_error_iff.1 h with h | ⟨_, -, h⟩
        · exact OnlyVE.check _ _ h
        · exact OnlyVE.check _ _ h
      · cases h
    rcases bind_error_iff.1 h with h | ⟨_, -, h⟩
    · unfold SproutTx.checkV2 at h
      rw [if_neg hv] at h
      cases h
    rcases bind_error_iff.1 h with h | ⟨_, -, h⟩
    · exact OnlyVE.check _ _ h
    rcases bind_error_iff.1 h with h | ⟨_, -, h⟩
    · exact OnlyVE.varint _ _ h
    rcases bind_error_iff.1 h with h | ⟨_, -, h⟩
    · exact OnlyVE.varint _ _ h
    rcases bind_error_iff.1 h with h | ⟨_, -, h⟩
    · unfold SproutTx.jsPart at h
      rw [show i2lePadded 2 4 = .ok v2 from rfl, ok_bind] at h
      rw [if_neg (by rintro rfl; exact hv rfl)] at h
      cases h
    rcases bind_error_iff.1 h with h | ⟨_, h', h⟩
    · cases h; exact absurd rfl he
    · cases h'
  case pos =>
    right
    refine ⟨he, ?_⟩
    subst he
    unfold SproutTx.make at h
    rcases bind_error_iff.1 h with h | ⟨_, -, h⟩
    · cases OnlyVE.gate _ _ h
    rcases bind_error_iff.1 h with h | ⟨_, -, h⟩
    · cases OnlyVE.check _ _ h
    rcases bind_error_iff.1 h with h | ⟨_, hl, h⟩
    · cases OnlyVE.validate _ _ _ h
    rcases bind_error_iff.1 h with h | ⟨_, -, h⟩
    · cases OnlyVE.validate _ _ _ h
    rcases bind_error_iff.1 h with h | ⟨_, -, h⟩
    · unfold SproutTx.checkV1 at h
      split at h
      · rcases bind_error_iff.1 h with h | ⟨_, -, h⟩
        · cases OnlyVE.check _ _ h
        · cases OnlyVE.check _ _ h
      · cases h
    rcases bind_error_iff.1 h with h | ⟨_, -, h⟩
    · unfold SproutTx.checkV2 at h
      rw [if_neg hv] at h
      cases h
    rcases bind_error_iff.1 h with h | ⟨_, hc, h⟩
    · cases OnlyVE.check _ _ h
    rw [validateBytes_ok] at hl
    rw [check_eq_ok] at hc
    exact (le2i_eq_one hl).1 (hc.resolve_right hv)

theorem SproutTx.fromBytes_error {E : Env} (hn : E.net.Supported) {b : Bytes} {e : PyErr} (h : SproutTx.fromBytes E b = .error e) :
    ParseErr e ∨ (e = .typeError ∧ b.take 4 = v1) := by
  unfold SproutTx.fromBytes at h
  rcases bind_error_iff.1 h with h | ⟨p, -, h⟩
  · exact .inl (parseInsOuts_error hn h)
  rcases bind_error_iff.1 h with h | ⟨⟨js, pk, sig⟩, hj, h⟩
  · left
    unfold SproutTx.parseJs at h
    split at h
    · rcases bind_error_iff.1 h with h | ⟨n, -, h⟩
      · exact (VarInt.fromBytes_error h).parse
      rcases bind_error_iff.1 h with h | ⟨⟨js, cur⟩, -, h⟩
      · exact (parseMany_ve (SproutJoinsplit.fromBytes_ve _) b _ _).parse h
      · cases h
    · cases h
  · unfold SproutTx.parseJs at hj
    split at hj
    · obtain ⟨n, -, hj⟩ := bind_ok_iff.1 hj
      obtain ⟨⟨ys, cur⟩, -, hj⟩ := bind_ok_iff.1 hj
      cases hj
      exact .inl ((SproutTx.make_ve _ _ _ _ _ _ _ _).parse h)
    · next c =>
      cases hj
      rcases SproutTx.make_none c h with h | ⟨h, hv⟩
      · exact .inl (.inl h)
      · exact .inr ⟨h, by rw [← hv]; simp [slice]⟩

theorem SproutTx.fromBytes_ok {E : Env} (hn : E.net.Supported) {b : Bytes} {t : SproutTx} (h : SproutTx.fromBytes E b = .ok t) :
    t.Built E ∧ t.version = v2 ∧ t.bytes.length ≤ b.length := by
  obtain ⟨hv, p, n, js, cur, h1, g1, g2, hm⟩ := SproutTx.fromBytes_steps h
  obtain ⟨i1, i2, i3, i4, i5⟩ := parseInsOuts_ok hn h1
  have h3 := hm
  rw [SproutTx.make_iff] at h3
  obtain ⟨a, rfl⟩ := h3
  obtain ⟨j1, j2, j3, -⟩ := parseMany_ok (P := fun x : SproutJoinsplit => x.Built E.net) (k := 0) (m := 0)
    (fun b x hx => ⟨(SproutJoinsplit.fromBytes_ok hx).1, by omega, by omega⟩) b _ _ _ _ g2
  refine ⟨⟨v2, _, _, _, some js, _, _, i1, i2, fun x hx => (j2 x hx).1, hm⟩, rfl, ?_⟩
  obtain ⟨-, -, n1, n1'⟩ := VarInt.fromBytes_ok g1
  rw [← j1] at n1
  rcases a.ver with ⟨x, -⟩ | ⟨-, -, ⟨pk, x1, k1⟩, -⟩
  · cases x
  cases x1
  simp only [slice_length] at k1
  have l4 := a.lt4
  simp only [sproutObj, sproutBytes_v2, wireLegacy, List.length_append, l4, Option.getD_some, vector, List.length_map, flatten_length, slice_length]
  simp only [vector, List.length_append, List.length_map, flatten_length] at i4
  have : v2.length = 4 := rfl
  omega

theorem SproutTx.cut {E : Env} (hn : E.net.Supported) {t : SproutTx} (h : t.Facts E) (hs : InsOutsStable E.net t.txIns t.txOuts)
    {p : Bytes} (hp : p <+: t.bytes) (hl : p.length < t.bytes.length) {t' : SproutTx} (ht : SproutTx.fromBytes E p = .ok t') :
    t.version = v2 ∧ p.length + 64 = t.bytes.length ∧ ∃ s, t.joinsplitSig = some s ∧ s.length = 64 := by
  obtain ⟨hv, q, n, js, cur, h1, g1, g2, h3⟩ := SproutTx.fromBytes_steps ht
  rw [SproutTx.make_iff] at h3
  obtain ⟨a', -⟩ := h3
  have a := h.args
  have hv4 := a.v4
  have l2 := a'.lt4
  have hp4 := congrArg List.length hv
  simp only [slice_length] at l2
  have hver : t.version = v2 := by
    have : slice p 0 4 = slice t.bytes 0 4 := by
      obtain ⟨s, rfl'⟩ := hp
      rw [← rfl']
      rw [slice_length] at hp4
      unfold slice
      rw [List.take_append_of_le_length (by simp at hp4; omega)]
    rw [hv, h.bytes] at this
    unfold sproutBytes wireLegacy at this
    simp only [List.append_assoc] at this
    rw [slice_take hv4] at this
    exact this.symm
  have sz := a.size
  rcases a.ver with ⟨x, -⟩ | ⟨-, ⟨l, hjs, hl5⟩, ⟨pk, x1, k1⟩, ⟨sg, x2, k2⟩⟩
  · rw [x] at hver; cases hver
  cases hjs
  rw [hver, sproutBytes_v2 rfl] at sz
  rw [h.bytes, hver, sproutBytes_v2 rfl] at hp hl ⊢
  simp only [wireLegacy, List.append_assoc, Option.getD_some] at hp hl sz
  have f1 := ins_few h.ins
  have f2 := outs_few h.outs
  have sz' := sz
  simp only [List.length_append] at sz'
  rcases parseInsOuts_cut (q := p) hn h.ins h.outs hs (by omega) (by omega) hp h1 with ⟨r1, rfl, hr, hcur, -⟩ | hx
  case inr => omega
  have hr4 : 4 ≤ r1.length := by
    simp only [List.length_append] at l2 hcur
    omega
  rcases prefix_cases hr with ⟨r2, rfl, hr2⟩ | ⟨-, hx⟩
  case inr => rw [a.lt4] at hx; omega
  have hB : v2 ++ (vector (t.txIns.map (·.bytes)) ++ (vector (t.txOuts.map (·.bytes)) ++ (t.lockTime ++ r2))) =
      (v2 ++ (vector (t.txIns.map (·.bytes)) ++ (vector (t.txOuts.map (·.bytes)) ++ t.lockTime))) ++ r2 := by simp
  have hpre : (v2 ++ (vector (t.txIns.map (·.bytes)) ++ (vector (t.txOuts.map (·.bytes)) ++ t.lockTime))).length = q.current + 4 := by
    rw [hcur]; simp only [List.length_append, a.lt4]; omega
  rw [hB, ← hpre] at g1 g2
  rw [hB] at hl ⊢
  have hR := a'.ver
  rw [hB] at hR
  have hl' : r2.length < (vector (t.txJoinsplits.map (·.bytes)) ++ (t.joinsplitPubkey.getD [] ++ t.joinsplitSig.getD [])).length := by
    simp only [List.length_append] at hl ⊢; omega
  have hgoal : (wireLegacy v2 (t.txIns.map (·.bytes)) (t.txOuts.map (·.bytes)) t.lockTime ++ (vector (t.txJoinsplits.map (·.bytes)) ++
      (t.joinsplitPubkey.getD [] ++ t.joinsplitSig.getD []))).length =
      (v2 ++ (vector (t.txIns.map (·.bytes)) ++ (vector (t.txOuts.map (·.bytes)) ++ t.lockTime))).length +
      (vector (t.txJoinsplits.map (·.bytes)) ++ (t.joinsplitPubkey.getD [] ++ t.joinsplitSig.getD [])).length := by
    simp only [wireLegacy, List.length_append]; omega
  rw [hgoal]
  generalize v2 ++ (vector (t.txIns.map (·.bytes)) ++ (vector (t.txOuts.map (·.bytes)) ++ t.lockTime)) = pre at *
  have cj := compactSize_one (n := t.txJoinsplits.length) (by omega)
  rw [List.drop_left] at g1
  have hne := List.length_pos_of_ne_nil (VarInt.fromBytes_ok g1).1
  have hr2' := hr2
  unfold vector at hr2'
  simp only [List.append_assoc, List.length_map] at hr2'
  rcases prefix_cases hr2' with ⟨r3, rfl, hr3⟩ | ⟨-, hx⟩
  case inr => omega
  rw [VarInt.fromBytes_len (by omega) (.inr (by omega))] at g1
  cases g1
  simp only [] at g2
  rw [← List.length_append, ← List.append_assoc] at g2
  obtain ⟨r4, rfl, hr4, hfin⟩ := fixedMany_cut (bytes := fun x : SproutJoinsplit => x.bytes) (N := 1802)
    (fun b x hx => (SproutJoinsplit.fromBytes_ok hx).2.1) t.txJoinsplits
    (fun x hx => ⟨(h.js x hx).length, fun rest => SproutJoinsplit.fromBytes_bytes (h.js x hx) rest⟩) _ _ _ _ _ hr3 g2
  rcases hR with ⟨x, -⟩ | ⟨-, -, ⟨_, y1, m1⟩, ⟨_, y2, m2⟩⟩
  · cases x
  cases y1
  cases y2
  rw [x1, x2] at hl' ⊢
  have hr : 32 ≤ r4.length ∧ (r4.length = 32 ∨ 96 ≤ r4.length) := by
    simp only [slice_length, List.length_append] at m1 hfin
    refine ⟨by omega, ?_⟩
    rcases m2 with m2 | m2
    · replace m2 := congrArg List.length m2
      simp only [slice_length, List.length_append, List.length_nil] at m2
      omega
    · simp only [slice_length, List.length_append] at m2
      omega
  simp only [vector, List.length_append, Option.getD_some, List.length_map, k1] at hl' ⊢
  have hsg : sg.length = 64 := by
    rcases k2 with k2 | k2
    · rw [k2, List.length_nil] at hl'; omega
    · exact k2
  exact ⟨trivial, by omega, sg, rfl, hsg⟩

end Verif
