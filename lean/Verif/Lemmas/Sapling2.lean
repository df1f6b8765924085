import Verif.Lemmas.Sapling

namespace Verif
open Spec Props

attribute [local irreducible] Env.hash256

abbrev saplingHeader : Bytes := [0x04, 0x00, 0x00, 0x80, 0x85, 0x20, 0x2f, 0x89]

/-- The beginning of `from_bytes`, up to the shielded parts. -/
theorem SaplingTx.fromBytes_start {E : Env} (hn : E.net.Supported) {ins : List TxIn} {outs : List TxOut} (hi : ∀ i ∈ ins, i.Built)
    (ho : ∀ o ∈ outs, o.Built) (hs : InsOutsStable E.net ins outs) (li : ins.length < 2 ^ 64) (lo : outs.length < 2 ^ 64)
    {lt ex vb : Bytes} (lt4 : lt.length = 4) (ex4 : ex.length = 4) (vb8 : vb.length = 8) (rest : Bytes) :
    ∃ ins', List.Forall₂ SameIn ins ins' ∧ ins'.map (·.bytes) = ins.map (·.bytes) ∧ ∀ B,
      B = saplingHeader ++ (vector (ins.map (·.bytes)) ++ (vector (outs.map (·.bytes)) ++ (lt ++ (ex ++ (vb ++ rest))))) →
      SaplingTx.fromBytes E B = (do
        let r ← SaplingTx.parseRest E.net B (compactSize outs.length).length
          (saplingHeader ++ (vector (ins.map (·.bytes)) ++ (vector (outs.map (·.bytes)) ++ (lt ++ (ex ++ vb))))).length
        SaplingTx.make E ins' outs lt ex vb r.spends r.outputs r.js r.pk r.sig r.binding) := by
  obtain ⟨ins', p1, p2, p3⟩ := parseInsOuts_bytes hn hi ho hs li lo saplingHeader (lt ++ (ex ++ (vb ++ rest)))
  refine ⟨ins', p2, p3, ?_⟩
  rintro B hB
  rw [← hB] at p1
  have q1 : slice B 0 4 = [0x04, 0x00, 0x00, 0x80] := by rw [hB]; rfl
  have q2 : slice B 4 8 = [0x85, 0x20, 0x2f, 0x89] := by rw [hB]; rfl
  have q3 := slice_at (a := saplingHeader ++ (vector (ins.map (·.bytes)) ++ vector (outs.map (·.bytes)))) (b := lt)
    (c := ex ++ (vb ++ rest)) rfl rfl
  have q4 := slice_at (a := saplingHeader ++ (vector (ins.map (·.bytes)) ++ (vector (outs.map (·.bytes)) ++ lt))) (b := ex)
    (c := vb ++ rest) rfl rfl
  have q5 := slice_at (a := saplingHeader ++ (vector (ins.map (·.bytes)) ++ (vector (outs.map (·.bytes)) ++ (lt ++ ex)))) (b := vb)
    (c := rest) rfl rfl
  simp only [List.append_assoc, List.length_append, lt4, ex4, vb8, ← Nat.add_assoc] at q3 q4 q5 ⊢
  rw [← hB] at q3 q4 q5
  unfold SaplingTx.fromBytes
  rw [check_bind, if_pos (by rw [q1, q2]; simp), show (8 : Nat) = saplingHeader.length from rfl, p1, ok_bind]
  simp only []
  rw [q3, q4]
  rw [show saplingHeader.length = 8 from rfl] at *
  rw [q5]

/-- The end of `from_bytes`: shielded parts, then the joinsplit count. -/
theorem SaplingTx.parseRest_start {net : Network} {ss : List SaplingShieldedSpend} {so : List SaplingShieldedOutput} {nj : Nat}
    (hs : ∀ x ∈ ss, x.Built net) (hso : ∀ x ∈ so, x.Built net) (ls : ss.length < 2 ^ 64) (zs : LenOK net ss.length)
    (lso : so.length < 2 ^ 64) (zso : LenOK net so.length) (hj : nj < 253) (k : Nat) (pre rest B : Bytes)
    (hB : B = pre ++ (vector (ss.map (·.bytes)) ++ (vector (so.map (·.bytes)) ++ (compactSize nj ++ rest)))) :
    SaplingTx.parseRest net B k pre.length = (do
      let (js, current) ← parseMany (SaplingJoinsplit.fromBytes net) (·.bytes.length) B nj
        (pre.length + (vector (ss.map (·.bytes))).length + (vector (so.map (·.bytes))).length + k)
      let pk := if js.length > 0 then some (slice B current (current + 32)) else none
      let sig := if js.length > 0 then some (slice B (current + 32) (current + 32 + 64)) else none
      let current := if js.length > 0 then current + 32 + 64 else current
      let binding := if ss.length + so.length > 0 then some (slice B current (current + 64)) else none
      .ok ⟨ss, so, js, pk, sig, binding⟩) := by
  obtain ⟨r1, r2⟩ := parseVec (net := net) (f := SaplingShieldedSpend.fromBytes net) (bytes := (·.bytes)) ss
      (fun j hj' rest => SaplingShieldedSpend.fromBytes_bytes (hs j hj') rest) ls zs pre (vector (so.map (·.bytes)) ++ (compactSize nj ++ rest))
  obtain ⟨r3, r4⟩ := parseVec (net := net) (f := SaplingShieldedOutput.fromBytes net) (bytes := (·.bytes)) so
      (fun j hj' rest => SaplingShieldedOutput.fromBytes_bytes (hso j hj') rest) lso zso (pre ++ vector (ss.map (·.bytes))) (compactSize nj ++ rest)
  have r5 := List.drop_left' (l₁ := pre ++ (vector (ss.map (·.bytes)) ++ vector (so.map (·.bytes)))) (l₂ := compactSize nj ++ rest) rfl
  simp only [List.append_assoc, List.length_append, ← Nat.add_assoc] at r1 r2 r3 r4 r5
  rw [← hB] at r1 r2 r3 r4 r5
  unfold SaplingTx.parseRest
  rw [r1, ok_bind]
  simp only []
  rw [r2, ok_bind]
  simp only []
  rw [r3, ok_bind]
  simp only []
  rw [r4, ok_bind]
  simp only []
  rw [r5, VarInt.fromBytes_len (by omega) (.inr (by omega)), ok_bind]

theorem compactSize_small {n : Nat} (h : n < 253) : (compactSize n).length = 1 := by
  rw [compactSize_eq]; unfold varintBytes; rw [if_pos (by omega)]; simp

theorem compactSize_large {n : Nat} (h : 253 ≤ n) : 3 ≤ (compactSize n).length := by
  rw [compactSize_eq]
  unfold varintBytes
  rw [if_neg (by omega)]
  split <;> (try split) <;> simp

theorem saplingBytes_wire (ins : List TxIn) (outs : List TxOut) (lt ex vb : Bytes) (ss : List SaplingShieldedSpend)
    (so : List SaplingShieldedOutput) (js : List SaplingJoinsplit) (pk sig bs : Option Bytes) :
    saplingBytes ins outs lt ex vb ss so js pk sig bs = saplingHeader ++ (vector (ins.map (·.bytes)) ++ (vector (outs.map (·.bytes)) ++
      (lt ++ (ex ++ (vb ++ (vector (ss.map (·.bytes)) ++ (vector (so.map (·.bytes)) ++ (compactSize js.length ++ ((js.map (·.bytes)).flatten ++
        ((if js = [] then [] else pk.getD [] ++ sig.getD []) ++ (if ss = [] ∧ so = [] then [] else bs.getD []))))))))))) := by
  simp [saplingBytes, wireSapling, wireJoinsplits, vector]

/-- Shielded outputs are never so many that their count is misread: 253 of them exceed the size limit. -/
theorem SaplingTx.Facts.fewOutputs {E : Env} {t : SaplingTx} (h : t.Facts E) : t.txShieldedOutputs.length < 253 := by
  have h1 := h.args.size
  rw [saplingBytes_wire] at h1
  simp only [vector, List.length_append] at h1
  have h2 := flatten_length_const (l := t.txShieldedOutputs.map (·.bytes)) (N := 948) (by
    intro b hb
    obtain ⟨x, hx, rfl⟩ := List.mem_map.1 hb
    exact (h.so x hx).length)
  rw [List.length_map] at h2
  omega

/-- `from_bytes` of a transaction without joinsplits and shielded parts, or with fewer than 253 outputs. -/
theorem SaplingTx.fromBytes_bytes {E : Env} (hn : E.net.Supported) {t : SaplingTx} (h : t.Facts E)
    (hs : InsOutsStable E.net t.txIns t.txOuts) (hss : LenOK E.net t.txShieldedSpends.length)
    (hc : (t.txJoinsplits = [] ∧ t.txShieldedSpends = [] ∧ t.txShieldedOutputs = []) ∨ t.txOuts.length < 253) (rest : Bytes) :
    ∃ ins', List.Forall₂ SameIn t.txIns ins' ∧ ins'.map (·.bytes) = t.txIns.map (·.bytes) ∧ SaplingTx.fromBytes E (t.bytes ++ rest) =
      .ok (saplingObj E ins' t.txOuts t.lockTime t.expiryHeight t.valueBalance t.txShieldedSpends t.txShieldedOutputs t.txJoinsplits
        t.joinsplitPubkey t.joinsplitSig t.bindingSig) := by
  have hb := h.bytes
  have hfo := h.fewOutputs
  obtain ⟨hi, ho, hsp, hso, hj, args, -⟩ := h
  have args' := args
  obtain ⟨zc, sp, lt4, ex4, vb8, ep, bal, bs64, bind, js5, keys, sm, li, lo, ls, lso, size⟩ := args
  revert hb hfo hi ho hsp hso hj args' zc lt4 ex4 vb8 ep bal bs64 bind js5 keys sm li lo ls lso size hs hss hc
  generalize t.txIns = ins
  generalize t.txOuts = outs
  generalize t.lockTime = lt
  generalize t.expiryHeight = ex
  generalize t.valueBalance = vb
  generalize t.txShieldedSpends = ss
  generalize t.txShieldedOutputs = so
  generalize t.txJoinsplits = js
  generalize t.joinsplitPubkey = pk
  generalize t.joinsplitSig = sig
  generalize t.bindingSig = bs
  intro hs hss hc hb hfo hi ho hsp hso hj args' zc lt4 ex4 vb8 ep bal bs64 bind js5 keys sm li lo ls lso size
  generalize hT : ((js.map (·.bytes)).flatten ++ ((if js = [] then [] else pk.getD [] ++ sig.getD []) ++
    ((if ss = [] ∧ so = [] then [] else bs.getD []) ++ rest))) = T
  obtain ⟨ins', p2, p3, p1⟩ := SaplingTx.fromBytes_start hn hi ho hs li lo lt4 ex4 vb8
    (vector (ss.map (·.bytes)) ++ (vector (so.map (·.bytes)) ++ (compactSize js.length ++ T)))
  refine ⟨ins', p2, p3, ?_⟩
  have hB : t.bytes ++ rest = saplingHeader ++ (vector (ins.map (·.bytes)) ++ (vector (outs.map (·.bytes)) ++ (lt ++ (ex ++ (vb ++
      (vector (ss.map (·.bytes)) ++ (vector (so.map (·.bytes)) ++ (compactSize js.length ++ T)))))))) := by
    rw [hb, saplingBytes_wire, ← hT]; simp only [List.append_assoc]
  rw [p1 _ hB]
  clear p1
  rw [SaplingTx.parseRest_start hsp hso ls hss lso (.inr (by omega)) (by omega : js.length < 253) _ _ T _ (by rw [hB]; simp only [List.append_assoc])]
  have hins' : ins'.length = ins.length := (List.forall₂_length p2).symm
  have hnil : ins' = [] ↔ ins = [] := by rw [← List.length_eq_zero_iff, hins', List.length_eq_zero_iff]
  have hargs2 : SaplingArgs E ins' outs lt ex vb ss so js pk sig bs :=
    ⟨zc, sp, lt4, ex4, vb8, ep, bal, bs64, bind, js5, keys, by rw [hnil]; exact sm, by omega, lo, ls, lso, by
      unfold saplingBytes; rw [p3]; exact size⟩
  rcases hc with ⟨rfl, rfl, rfl⟩ | hc
  · simp only [List.length_nil, parseMany, ok_bind]
    simp only [gt_iff_lt, Nat.lt_irrefl, if_false]
    rw [SaplingTx.make_iff]
    exact ⟨hargs2.norm, (saplingObj_norm ..).symm⟩
  · have hlen : (compactSize outs.length).length = (compactSize js.length).length := by
      rw [compactSize_small hc, compactSize_small (by omega)]
    have m := parseMany_bytes_eq (f := SaplingJoinsplit.fromBytes E.net) (bytes := (·.bytes)) js
      (fun j hj' rest => SaplingJoinsplit.fromBytes_bytes (hj j hj') rest)
      (saplingHeader ++ (vector (ins.map (·.bytes)) ++ (vector (outs.map (·.bytes)) ++ (lt ++ (ex ++ (vb ++ (vector (ss.map (·.bytes)) ++
        (vector (so.map (·.bytes)) ++ compactSize js.length))))))))
      ((if js = [] then [] else pk.getD [] ++ sig.getD []) ++ ((if ss = [] ∧ so = [] then [] else bs.getD []) ++ rest))
    rw [hT] at m
    simp only [List.append_assoc] at m
    rw [← hB] at m
    have hl1 : (saplingHeader ++ (vector (ins.map (·.bytes)) ++ (vector (outs.map (·.bytes)) ++ (lt ++ (ex ++ vb))))).length +
        (vector (ss.map (·.bytes))).length + (vector (so.map (·.bytes))).length + (compactSize outs.length).length =
        (saplingHeader ++ (vector (ins.map (·.bytes)) ++ (vector (outs.map (·.bytes)) ++ (lt ++ (ex ++ (vb ++ (vector (ss.map (·.bytes)) ++
        (vector (so.map (·.bytes)) ++ compactSize js.length)))))))).length := by
      rw [hlen]; simp only [List.length_append]; omega
    rw [hl1, m, ok_bind]
    generalize hP : saplingHeader ++ (vector (ins.map (·.bytes)) ++ (vector (outs.map (·.bytes)) ++ (lt ++ (ex ++ (vb ++ (vector (ss.map (·.bytes)) ++
        (vector (so.map (·.bytes)) ++ (compactSize js.length ++ (js.map (·.bytes)).flatten)))))))) = P
    have hPl : (saplingHeader ++ (vector (ins.map (·.bytes)) ++ (vector (outs.map (·.bytes)) ++ (lt ++ (ex ++ (vb ++ (vector (ss.map (·.bytes)) ++
        (vector (so.map (·.bytes)) ++ compactSize js.length)))))))).length + ((js.map (·.bytes)).flatten).length = P.length := by
      rw [← hP]; simp only [List.length_append]; omega
    have hB2 : t.bytes ++ rest = P ++ ((if js = [] then [] else pk.getD [] ++ sig.getD []) ++ ((if ss = [] ∧ so = [] then [] else bs.getD []) ++ rest)) := by
      rw [hB, ← hP, ← hT]; simp only [List.append_assoc]
    rw [hPl]
    simp only []
    have hpk : (if js.length > 0 then some (slice (t.bytes ++ rest) P.length (P.length + 32)) else none) = if js ≠ [] then pk else none := by
      by_cases c : js = []
      · subst c; rfl
      · obtain ⟨⟨p, rfl, p32⟩, s, rfl, s64⟩ := keys c
        rw [if_pos (List.length_pos_iff.2 c), if_pos c, hB2, if_neg c]
        simp only [Option.getD_some, List.append_assoc]
        rw [slice_at rfl (by rw [p32])]
    have hsig : (if js.length > 0 then some (slice (t.bytes ++ rest) (P.length + 32) (P.length + 32 + 64)) else none) = if js ≠ [] then sig else none := by
      by_cases c : js = []
      · subst c; rfl
      · obtain ⟨⟨p, rfl, p32⟩, s, rfl, s64⟩ := keys c
        rw [if_pos (List.length_pos_iff.2 c), if_pos c, hB2, if_neg c]
        have := slice_at (a := P ++ p) (b := s) (c := (if ss = [] ∧ so = [] then [] else bs.getD []) ++ rest) rfl rfl
        simp only [List.length_append, p32, s64, List.append_assoc] at this
        simp only [Option.getD_some, List.append_assoc]
        rw [this]
    have hbs : (if ss.length + so.length > 0 then some (slice (t.bytes ++ rest) (if js.length > 0 then P.length + 32 + 64 else P.length)
        ((if js.length > 0 then P.length + 32 + 64 else P.length) + 64)) else none) = if ss ≠ [] ∨ so ≠ [] then bs else none := by
      by_cases c : ss = [] ∧ so = []
      · obtain ⟨rfl, rfl⟩ := c; rfl
      · have c1 : ss ≠ [] ∨ so ≠ [] := by
          by_cases c' : ss = []
          · exact .inr fun h' => c ⟨c', h'⟩
          · exact .inl c'
        have c2 : ss.length + so.length > 0 := by
          rcases c1 with c1 | c1
          · have := List.length_pos_iff.2 c1; omega
          · have := List.length_pos_iff.2 c1; omega
        obtain ⟨b, rfl⟩ := bind c1
        have b64 := bs64 b rfl
        rw [if_pos c1, if_pos c2, hB2, if_neg c, Option.getD_some]
        by_cases cj : js = []
        · rw [if_neg (c := js.length > 0) (by rw [cj]; simp), if_pos cj]
          simp only [List.nil_append]
          rw [slice_at rfl (by rw [b64])]
        · obtain ⟨⟨p, rfl, p32⟩, s, rfl, s64⟩ := keys cj
          rw [if_pos (c := js.length > 0) (List.length_pos_iff.2 cj), if_neg cj]
          have := slice_at (a := P ++ (p ++ s)) (b := b) (c := rest) rfl rfl
          simp only [List.length_append, p32, s64, b64, List.append_assoc, ← Nat.add_assoc] at this
          simp only [Option.getD_some, List.append_assoc]
          rw [this]
    rw [hpk, hsig, hbs, ok_bind]
    simp only []
    rw [SaplingTx.make_iff]
    exact ⟨hargs2.norm, (saplingObj_norm ..).symm⟩

/-- With 253 or more outputs and anything after them, `from_bytes` reads past the end. -/
theorem SaplingTx.fromBytes_many {E : Env} (hn : E.net.Supported) {t : SaplingTx} (h : t.Facts E)
    (hs : InsOutsStable E.net t.txIns t.txOuts) (hss : LenOK E.net t.txShieldedSpends.length)
    (hj : t.txJoinsplits ≠ [] ∨ t.txShieldedSpends ≠ [] ∨ t.txShieldedOutputs ≠ []) (hm : 253 ≤ t.txOuts.length) :
    SaplingTx.fromBytes E t.bytes = .error .valueError := by
  have hb := h.bytes
  have hfo := h.fewOutputs
  obtain ⟨hi, ho, hsp, hso, hjb, args, -⟩ := h
  obtain ⟨zc, sp, lt4, ex4, vb8, ep, bal, bs64, bind, js5, keys, sm, li, lo, ls, lso, size⟩ := args
  revert hb hfo hi ho hsp hso hj zc lt4 ex4 vb8 ep bal bs64 bind js5 keys sm li lo ls lso size hs hss hm hjb
  generalize t.txIns = ins
  generalize t.txOuts = outs
  generalize t.lockTime = lt
  generalize t.expiryHeight = ex
  generalize t.valueBalance = vb
  generalize t.txShieldedSpends = ss
  generalize t.txShieldedOutputs = so
  generalize t.txJoinsplits = js
  generalize t.joinsplitPubkey = pk
  generalize t.joinsplitSig = sig
  generalize t.bindingSig = bs
  intro hs hss hj hm hb hfo hi ho hsp hso hjb zc lt4 ex4 vb8 ep bal bs64 bind js5 keys sm li lo ls lso size
  generalize hT : ((js.map (·.bytes)).flatten ++ ((if js = [] then [] else pk.getD [] ++ sig.getD []) ++
    (if ss = [] ∧ so = [] then [] else bs.getD []))) = T
  obtain ⟨ins', p2, p3, p1⟩ := SaplingTx.fromBytes_start hn hi ho hs li lo lt4 ex4 vb8
    (vector (ss.map (·.bytes)) ++ (vector (so.map (·.bytes)) ++ (compactSize js.length ++ T)))
  have hB : t.bytes = saplingHeader ++ (vector (ins.map (·.bytes)) ++ (vector (outs.map (·.bytes)) ++ (lt ++ (ex ++ (vb ++
      (vector (ss.map (·.bytes)) ++ (vector (so.map (·.bytes)) ++ (compactSize js.length ++ T)))))))) := by
    rw [hb, saplingBytes_wire, ← hT]
  rw [p1 _ hB]
  clear p1
  rw [SaplingTx.parseRest_start hsp hso ls hss lso (.inr (by omega)) (by omega : js.length < 253) _ _ T _ (by rw [hB]; simp only [List.append_assoc])]
  have hl := congrArg List.length hB
  have l1 := compactSize_small (show js.length < 253 by omega)
  have l3 := compactSize_large hm
  have hTl : T.length = 1698 * js.length + (if js = [] then 0 else 96) + (if ss = [] ∧ so = [] then 0 else 64) := by
    rw [← hT, List.length_append, List.length_append, flatten_length_const (N := 1698), List.length_map, ← Nat.add_assoc]
    · congr 1
      · congr 1
        split
        · rfl
        · next c =>
          obtain ⟨⟨p, rfl, p32⟩, s, rfl, s64⟩ := keys c
          simp [p32, s64]
      · split
        · rfl
        · next c =>
          have c1 : ss ≠ [] ∨ so ≠ [] := by
            by_cases c' : ss = []
            · exact .inr fun h' => c ⟨c', h'⟩
            · exact .inl c'
          obtain ⟨b, rfl⟩ := bind c1
          simp [bs64 b rfl]
    · intro b hb
      obtain ⟨x, hx, rfl⟩ := List.mem_map.1 hb
      exact (hjb x hx).length
  simp only [List.length_append] at hl ⊢
  generalize t.bytes = B at *
  have hss' : ss ≠ [] ∨ so ≠ [] → ss.length + so.length > 0 := by
    rintro (c1 | c1)
    · have := List.length_pos_iff.2 c1; omega
    · have := List.length_pos_iff.2 c1; omega
  apply OnlyVE.eq_error
  · intro e he
    rcases bind_error_iff.1 he with he | ⟨r, hr, he⟩
    · exact ((parseMany_ve (SaplingJoinsplit.fromBytes_ve E.net) _ _ _).bind fun _ => OnlyVE.ok _) e he
    · obtain ⟨⟨js', c'⟩, h3, h4⟩ := bind_ok_iff.1 hr
      cases h4
      refine SaplingTx.make_ve _ _ _ _ _ _ _ _ _ _ _ _ ?_ e he
      intro c
      exact ⟨_, if_pos (hss' c)⟩
  · intro a ha
    obtain ⟨r, hr, ha⟩ := bind_ok_iff.1 ha
    obtain ⟨⟨js', c'⟩, h3, h4⟩ := bind_ok_iff.1 hr
    cases h4
    obtain ⟨h5, h6⟩ := parseMany_cursor (N := 1698) (fun b x hx => (SaplingJoinsplit.fromBytes_ok hx).1.length) _ _ _ _ _ h3
    obtain ⟨args', -⟩ := SaplingTx.make_iff.1 ha
    by_cases c : ss = [] ∧ so = []
    · have hjs : js ≠ [] := by
        rcases hj with h | h | h
        · exact h
        · exact absurd c.1 h
        · exact absurd c.2 h
      have hjs' : js' ≠ [] := by rw [← List.length_pos_iff, h5]; exact List.length_pos_iff.2 hjs
      obtain ⟨-, s', hs', hs64⟩ := args'.keys hjs'
      simp only [] at hs'
      rw [if_pos (List.length_pos_iff.2 hjs')] at hs'
      cases hs'
      rw [if_neg hjs, if_pos c] at hTl
      simp only [slice_length] at hs64
      omega
    · have c1 : ss ≠ [] ∨ so ≠ [] := by
        by_cases c' : ss = []
        · exact .inr fun h' => c ⟨c', h'⟩
        · exact .inl c'
      have hb64 := args'.bs64 _ (if_pos (hss' c1))
      rw [if_neg c] at hTl
      simp only [slice_length] at hb64
      by_cases cj : js = []
      · have : js'.length = 0 := by rw [h5, cj]; rfl
        rw [if_pos cj] at hTl
        rw [if_neg (by omega)] at hb64
        omega
      · have := List.length_pos_iff.2 cj
        rw [if_neg cj] at hTl
        rw [if_pos (by omega)] at hb64
        omega

end Verif
