import Verif.Props.Bursts
import Verif.Props.Cashaddr2

/-! C98: characters inserted into, or deleted from, Bech32 and cashaddr strings. -/

namespace Verif.Props

open Verif Bech32 LinCode

theorem digits_zeros (w k : Nat) : Digits w (List.replicate k 0) := by
  intro x hx
  rw [List.mem_replicate] at hx
  rw [hx.2]; exact Nat.two_pow_pos w

theorem bitsOf_zeros (w k : Nat) : bitsOf w (List.replicate k 0) = List.replicate (w * k) false := by
  induction k with
  | zero => simp
  | succ k ih =>
    rw [List.replicate_succ, bitsOf_cons, ih, toBits_zero, List.replicate_append_replicate, Nat.mul_succ, Nat.add_comm]

theorem bitsOf_take (w n : Nat) (l : List Nat) : bitsOf w (l.take n) = (bitsOf w l).take (w * n) := by
  conv_rhs => rw [← List.take_append_drop n l]
  rw [bitsOf_append, List.take_append, bitsOf_length, List.length_take]
  by_cases h : n ≤ l.length
  · rw [Nat.min_eq_left h, Nat.sub_self, List.take_zero, List.append_nil,
      List.take_of_length_le (l := bitsOf w (l.take n)) (by rw [bitsOf_length, List.length_take, Nat.min_eq_left h])]
  · rw [List.drop_of_length_le (by omega), List.take_of_length_le (l := bitsOf w _)]
    · simp
    · rw [bitsOf_length, List.length_take]
      exact Nat.mul_le_mul_left _ (Nat.min_le_left _ _)

theorem digits_take {w : Nat} {l : List Nat} (h : Digits w l) (n : Nat) : Digits w (l.take n) := fun x hx => h x (List.mem_of_mem_take hx)

/-- **C98** (checksum): zeros before a final one do not change whether the checksum is right. -/
theorem C98_checksum (hrp : PyStr) (a : List Nat) (k : Nat) :
    verifyChecksum hrp (a ++ List.replicate k 0 ++ [1]) = verifyChecksum hrp (a ++ [1]) := by
  have key : ∀ R : BitVec 30, A R ^^^ 1#30 = 1#30 ↔ R = 0#30 := by
    intro R
    constructor
    · intro h
      have h2 := congrArg (· ^^^ 1#30) h
      simp only [BitVec.xor_assoc, BitVec.xor_self, BitVec.xor_zero] at h2
      exact A_inj R h2
    · rintro rfl
      rw [A_zero A_lin]; rfl
  have e : ∀ b : List Nat, verifyChecksum hrp (b ++ [1]) = true ↔ run A 1#30 ((hrpExpand hrp ++ b).map (BitVec.ofNat 30)) = 0#30 := by
    intro b
    unfold verifyChecksum
    rw [beq_iff_eq, polymod_eq, ← List.append_assoc, List.map_append, run_append]
    exact key _
  rw [Bool.eq_iff_iff, e, e, ← List.append_assoc, List.map_append, run_append]
  have z : (List.replicate k 0).map (BitVec.ofNat 30) = List.replicate k 0#30 := by simp
  rw [z, run_zeros A_lin]
  constructor
  · exact iter_eq_zero A_lin A_inj _ _
  · intro h; rw [h, iter_zero A_lin]

/-- The program spelled by symbols that end in zeros. -/
theorem program_of_symbols {r x : List Nat} {prog : List Nat} {j L : Nat} (hp : Regroups 8 5 prog r) (hx : Digits 5 x)
    (hj : 1 ≤ j) (h1 : 8 * L ≤ 5 * (r.length + x.length + j)) (h2 : 5 * (r.length + x.length + j) < 8 * L + 5) (hL : prog.length ≤ L) :
    ∃ more, Digits 8 more ∧ (prog ++ more).length = L ∧ Regroups 8 5 (prog ++ more) (r ++ x ++ List.replicate j 0) := by
  obtain ⟨hpd, hr, k, hk, hb⟩ := hp
  have hD : Digits 5 (r ++ x ++ List.replicate j 0) := digits_append.2 ⟨digits_append.2 ⟨hr, hx⟩, digits_zeros 5 j⟩
  obtain ⟨conv, _, _, hcd, k', hk', hc⟩ := convertbits_pad (f := 5) (t := 8) (by omega) _ hD
  have hlen := congrArg List.length hc
  simp only [bitsOf_length, List.length_append, List.length_replicate] at hlen
  have hlL : (conv.take L).length = L := by rw [List.length_take]; omega
  -- the program begins as before
  have hpre : (conv.take L).take prog.length = prog := by
    apply bitsOf_inj (w := 8) (by omega) (digits_take (digits_take hcd _) _) hpd
    rw [List.take_take, Nat.min_eq_left hL, bitsOf_take, hc, bitsOf_append, bitsOf_append, hb]
    simp only [List.append_assoc]
    rw [List.take_left' (by simp)]
  refine ⟨(conv.take L).drop prog.length, fun y hy => hcd y (List.mem_of_mem_take (List.mem_of_mem_drop hy)), ?_, ?_⟩
  · rw [List.length_append, List.length_drop, hlL]; omega
  · have e : prog ++ (conv.take L).drop prog.length = conv.take L := by
      conv_rhs => rw [← List.take_append_drop prog.length (conv.take L), hpre]
    rw [e]
    refine ⟨digits_take hcd _, hD, 5 * (r.length + x.length + j) - 8 * L, by omega, ?_⟩
    rw [bitsOf_take, hc]
    have hB : (bitsOf 5 (r ++ x ++ List.replicate j 0)).length = 5 * (r.length + x.length + j) := by simp; omega
    rw [List.take_append_of_le_length (by omega)]
    conv_lhs => rw [← List.take_append_drop (8 * L) (bitsOf 5 (r ++ x ++ List.replicate j 0))]
    congr 1
    have hb2 : (bitsOf 5 (r ++ x)).length = 5 * (r.length + x.length) := by simp; omega
    rw [bitsOf_append 5 (r ++ x), bitsOf_zeros, List.drop_append, List.drop_of_length_le (by rw [hb2]; omega), List.nil_append,
      List.drop_replicate, hb2]
    congr 1
    omega

/-- Inserting `q`s before a final `p`, whenever the length then suits a program. -/
theorem insert_accepted {net : Network} {hrp : PyStr} (hh : net.bech32Hrp = some hrp) {s : PyStr} {v : UInt8} {prog : Bytes}
    (h : decode net (s ++ ['p']) = .ok (v :: UInt8.ofNat prog.length :: prog)) {j L : Nat} (hj : 6 ≤ j)
    (h1 : 8 * L ≤ 5 * ((8 * prog.length + 4) / 5 + j)) (h2 : 5 * ((8 * prog.length + 4) / 5 + j) < 8 * L + 5) (hL : prog.length ≤ L)
    (hleg : LegalProgram v.toNat L) (h90 : s.length + 1 + j ≤ 90) :
    ∃ more, (prog ++ more).length = L ∧ decode net (s ++ List.replicate j 'q' ++ ['p']) = .ok (v :: UInt8.ofNat L :: (prog ++ more)) := by
  rw [decode_iff hh] at h
  obtain ⟨v', prog', r, he, hb, hreg, hleg'⟩ := h
  simp only [List.cons.injEq] at he
  obtain ⟨rfl, _, rfl⟩ := he
  have hv : (UInt8.ofNat v').toNat = v' := by
    rw [UInt8.toNat_ofNat']; exact Nat.mod_eq_of_lt (by have := hleg'.1; omega)
  rw [hv] at hleg
  rw [List.length_map] at h1 h2 hL
  rw [bech32Decode_iff] at hb
  obtain ⟨hw, hn, _, hdd, hs⟩ := hb
  -- the symbols
  have hcl := createChecksum_length hrp (v' :: r)
  have hcd := createChecksum_digits hrp (v' :: r)
  have hver := verify_create hrp (v' :: r)
  obtain ⟨c, y, hcy⟩ : ∃ c y, createChecksum hrp (v' :: r) = c ++ [y] := by
    refine ⟨(createChecksum hrp (v' :: r)).dropLast, (createChecksum hrp (v' :: r)).getLast (by intro h0; rw [h0] at hcl; simp at hcl), ?_⟩
    exact (List.dropLast_append_getLast _).symm
  rw [hcy] at hcl hcd hver hs
  have hc5 : c.length = 5 := by simpa using hcl
  have hlow : lower (s ++ ['p']) = lower s ++ ['p'] := by simp [lower, lowerC]
  have hsplit : lower s ++ ['p'] = (hrp ++ '1' :: ((v' :: r) ++ c).map symC) ++ [symC y] := by
    rw [← hlow, hs]; simp
  obtain ⟨hs1, hs2⟩ := List.append_inj' hsplit rfl
  have hy32 : y < 32 := hcd y (by simp)
  have hy : y = 1 := by
    have e1 : symC y = 'p' := by simpa using hs2.symm
    have := (symC_facts y hy32).2.2.1
    rw [e1] at this
    rw [← this]; decide
  subst hy
  have hcd' : Digits 5 c := (digits_append.1 hcd).1
  have hrl : r.length = (8 * prog'.length + 4) / 5 := regroup_length hreg
  rw [← hrl] at h1 h2
  -- the new program
  obtain ⟨more, hmd, hml, hmr⟩ := program_of_symbols (x := c) (j := j - 5) (L := L) hreg hcd' (by omega) (by omega) (by omega) hL
  refine ⟨more.map UInt8.ofNat, by simpa using hml, ?_⟩
  rw [decode_iff hh]
  refine ⟨v', prog' ++ more, r ++ c ++ List.replicate (j - 5) 0, by simp [hml], ?_, hmr, by rw [hml]; exact hleg⟩
  rw [bech32Decode_iff]
  have hv32 : v' < 32 := hdd v' (by simp)
  have hnew : Digits 5 (v' :: (r ++ c ++ List.replicate (j - 5) 0)) := by
    intro z hz
    rcases List.mem_cons.1 hz with rfl | hz
    · exact hv32
    · exact hmr.2.1 z hz
  -- its checksum
  have hsum : createChecksum hrp (v' :: (r ++ c ++ List.replicate (j - 5) 0)) = List.replicate 5 0 ++ [1] := by
    symm
    apply checksum_unique
    · exact digits_append.2 ⟨digits_zeros 5 5, by intro z hz; simp at hz; rw [hz]; decide⟩
    · simp
    · have e : v' :: (r ++ c ++ List.replicate (j - 5) 0) ++ (List.replicate 5 0 ++ [1]) = ((v' :: r) ++ c) ++ List.replicate j 0 ++ [1] := by
        have : List.replicate j 0 = List.replicate (j - 5) 0 ++ List.replicate 5 0 := by
          rw [List.replicate_append_replicate]; congr 1; omega
        rw [this]; simp
      rw [e, C98_checksum, List.append_assoc]
      exact hver
  have hls : lower s = s := by
    rcases hw.2 with e | e
    · rw [hlow] at e
      exact (List.append_inj' e rfl).1
    · exfalso
      have e' := congrArg List.getLast? e
      simp only [upper, List.map_append, List.map_cons, List.map_nil, List.getLast?_append, List.getLast?_singleton, Option.some_or,
        Option.some.injEq] at e'
      exact absurd e' (by decide)
  have hlow' : lower (s ++ List.replicate j 'q' ++ ['p']) = s ++ List.replicate j 'q' ++ ['p'] := by
    have : lower (s ++ List.replicate j 'q' ++ ['p']) = lower s ++ List.replicate j (lowerC 'q') ++ [lowerC 'p'] := by simp [lower]
    rw [this, hls]; rfl
  refine ⟨⟨?_, .inl hlow'⟩, hn, by simpa using (by omega), hnew, ?_⟩
  · intro z hz
    rw [List.append_assoc, List.mem_append, List.mem_append] at hz
    rcases hz with hz | hz | hz
    · exact hw.1 z (by simp [hz])
    · rw [(List.mem_replicate.1 hz).2]; decide
    · exact hw.1 z (by simp [hz])
  · rw [hlow', hsum]
    rw [hls] at hs1
    rw [hs1]
    have : List.replicate j 'q' = List.replicate (j - 5) 'q' ++ List.replicate 5 'q' := by
      rw [List.replicate_append_replicate]; congr 1; omega
    rw [this]
    have q : symC 0 = 'q' := by decide
    have p : symC 1 = 'p' := by decide
    simp [q, p]

/-- **C98** is false for version 0: an accepted address of a 20-byte program that ends in `p` is still accepted with twenty `q`s put
before the `p`; it is then the address of a 32-byte program which begins with the old one. -/
theorem C98_version0_false (net : Network) (hs : net.Supported) (hrp : PyStr) (hh : net.bech32Hrp = some hrp) (s : PyStr) (prog : Bytes)
    (hp : prog.length = 20) (h : decode net (s ++ ['p']) = .ok (0 :: 20 :: prog)) :
    ∃ more, more.length = 12 ∧ decode net (s ++ List.replicate 20 'q' ++ ['p']) = .ok (0 :: 32 :: (prog ++ more)) := by
  have hlen : s.length + 1 = hrp.length + 40 := by
    rw [decode_iff hh] at h
    obtain ⟨v', prog', r, he, hb, hreg, _⟩ := h
    simp only [List.cons.injEq] at he
    have hl := congrArg List.length he.2.2
    rw [List.length_map, hp] at hl
    rw [bech32Decode_iff] at hb
    have := congrArg List.length hb.2.2.2.2
    simp only [lower, List.length_map, List.length_append, List.length_cons, List.length_nil, createChecksum_length, regroup_length hreg,
      ← hl] at this
    omega
  have h18 := (encode_hrp hs hh).2.1
  obtain ⟨more, h1, h2⟩ := insert_accepted (v := 0) (prog := prog) (j := 20) (L := 32) hh (by rw [hp]; exact h) (by omega)
    (by rw [hp]; decide) (by rw [hp]; decide) (by omega) (by decide) (by omega)
  exact ⟨more, by rw [List.length_append] at h1; omega, h2⟩

/-- A P2WPKH address which becomes a P2WSH address. -/
example : bitcoinMain.Supported ∧ bitcoinMain.bech32Hrp = some (pystr "bc") ∧
    decode bitcoinMain (pystr "bc1qqurswpc8qurswpc8qurswpc8qurswpc9kvcjh" ++ ['p']) = .ok (0 :: 20 :: (List.replicate 19 7 ++ [5])) ∧
    (List.replicate 19 7 ++ [5]).length = 20 := by
  refine ⟨by unfold Network.Supported; decide +kernel, by decide, by decide +kernel, by decide⟩

example : (decode bitcoinMain (pystr "bc1qqurswpc8qurswpc8qurswpc8qurswpc9kvcjhqqqqqqqqqqqqqqqqqqqqp")).map List.length = .ok 34 := by decide +kernel

/-- **C98** is false for the later versions: an accepted address that ends in `p`, of at most 82 characters and with at most 35 bytes of
program, is still accepted with eight `q`s put before the `p`; it then has five bytes more. -/
theorem C98_later_versions_false (net : Network) (hrp : PyStr) (hh : net.bech32Hrp = some hrp) (s : PyStr) (v : UInt8) (prog : Bytes)
    (hv : v ≠ 0) (hp : prog.length ≤ 35) (hl : s.length + 1 ≤ 82) (h : decode net (s ++ ['p']) = .ok (v :: UInt8.ofNat prog.length :: prog)) :
    ∃ more, more.length = 5 ∧
      decode net (s ++ List.replicate 8 'q' ++ ['p']) = .ok (v :: UInt8.ofNat (prog.length + 5) :: (prog ++ more)) := by
  have hleg : LegalProgram v.toNat (prog.length + 5) := by
    have h' := h
    rw [decode_iff hh] at h'
    obtain ⟨v', prog', r, he, _, _, hleg⟩ := h'
    simp only [List.cons.injEq] at he
    have hv' : v.toNat = v' := by
      rw [he.1, UInt8.toNat_ofNat']; exact Nat.mod_eq_of_lt (by have := hleg.1; omega)
    refine ⟨hv' ▸ hleg.1, by omega, by omega, fun h0 => absurd (UInt8.toNat_inj.1 h0) hv⟩
  obtain ⟨more, h1, h2⟩ := insert_accepted (j := 8) (L := prog.length + 5) hh h (by omega) (by omega) (by omega) (by omega) hleg (by omega)
  exact ⟨more, by rw [List.length_append] at h1; omega, h2⟩

/-- A version 1 address which stays one, with 37 bytes of program. -/
example : decode bitcoinMain (pystr "bc1ppc8qurswpc8qurswpc8qurswpc8qurswpc8qurswpc8qurswpc8qfwaq6" ++ ['p']) =
      .ok (1 :: UInt8.ofNat (List.replicate 32 14).length :: List.replicate 32 14) ∧
    (pystr "bc1ppc8qurswpc8qurswpc8qurswpc8qurswpc8qurswpc8qurswpc8qfwaq6").length + 1 ≤ 82 ∧
    (decode bitcoinMain (pystr "bc1ppc8qurswpc8qurswpc8qurswpc8qurswpc8qurswpc8qurswpc8qfwaq6qqqqqqqqp")).map List.length = .ok 39 := by
  refine ⟨by decide +kernel, by decide, by decide +kernel⟩

/-- **C98**, what remains: the length of an accepted address is settled by its program's, and two accepted version 0 addresses of one
network have the same length or lengths that differ by twenty: no fewer insertions or deletions go unnoticed. -/
theorem C98_partial (net : Network) (hrp : PyStr) (hh : net.bech32Hrp = some hrp) (s s' : PyStr) (v v' : UInt8) (prog prog' : Bytes)
    (h : decode net s = .ok (v :: UInt8.ofNat prog.length :: prog)) (h' : decode net s' = .ok (v' :: UInt8.ofNat prog'.length :: prog')) :
    s.length = hrp.length + 8 + (8 * prog.length + 4) / 5 ∧
    (v = 0 → v' = 0 → s.length = s'.length ∨ s.length = s'.length + 20 ∨ s'.length = s.length + 20) := by
  have key : ∀ (s : PyStr) (v : UInt8) (prog : Bytes), decode net s = .ok (v :: UInt8.ofNat prog.length :: prog) →
      s.length = hrp.length + 8 + (8 * prog.length + 4) / 5 ∧ (v = 0 → prog.length = 20 ∨ prog.length = 32) := by
    intro s v prog h
    rw [decode_iff hh] at h
    obtain ⟨v', prog', r, he, hb, hreg, hleg⟩ := h
    simp only [List.cons.injEq] at he
    have hl := congrArg List.length he.2.2
    rw [List.length_map] at hl
    rw [bech32Decode_iff] at hb
    have := congrArg List.length hb.2.2.2.2
    simp only [lower, List.length_map, List.length_append, List.length_cons, createChecksum_length, regroup_length hreg, ← hl] at this
    refine ⟨by omega, fun h0 => ?_⟩
    have hv' : v' = 0 := by
      have := congrArg UInt8.toNat (he.1.symm.trans h0)
      rw [UInt8.toNat_ofNat', Nat.mod_eq_of_lt (by have := hleg.1; omega)] at this
      exact this
    rw [hl]
    exact hleg.2.2.2 hv'
  have k := key s v prog h
  have k' := key s' v' prog' h'
  refine ⟨k.1, fun h0 h0' => ?_⟩
  rcases k.2 h0 with e | e <;> rcases k'.2 h0' with e' | e' <;> rw [e] at k <;> rw [e'] at k' <;> omega

/-- The same for the checksum of cashaddr. -/
theorem C98_cashaddr_checksum (pre : PyStr) (a : List Nat) (k : Nat) :
    Cashaddr.verifyChecksum pre ((a ++ List.replicate k 0 ++ [1]).map Int.ofNat) = Cashaddr.verifyChecksum pre ((a ++ [1]).map Int.ofNat) := by
  have key : ∀ R : BitVec 40, (Cashaddr.A R ^^^ 1#40) ^^^ 1#40 = 0#40 ↔ R = 0#40 := by
    intro R
    rw [BitVec.xor_assoc, BitVec.xor_self, BitVec.xor_zero]
    exact ⟨Cashaddr.A_inj R, fun h => by rw [h, A_zero Cashaddr.A_lin]⟩
  have e : ∀ b : List Nat, Cashaddr.verifyChecksum pre ((b ++ [1]).map Int.ofNat) = true ↔
      run Cashaddr.A (run Cashaddr.A 1#40 ((Cashaddr.prefixExpand pre).map (BitVec.ofInt 40))) (b.map (BitVec.ofNat 40)) = 0#40 := by
    intro b
    rw [Cashaddr.verify_nat, beq_iff_eq, Cashaddr.polymod_eq, List.map_append, run_append, Cashaddr.ofInt_ofNat, List.map_append, run_append]
    exact key _
  rw [Bool.eq_iff_iff, e, e, List.map_append, run_append]
  have z : (List.replicate k 0).map (BitVec.ofNat 40) = List.replicate k 0#40 := by simp
  rw [z, run_zeros Cashaddr.A_lin]
  constructor
  · exact iter_eq_zero Cashaddr.A_lin Cashaddr.A_inj _ _
  · intro h; rw [h, iter_zero Cashaddr.A_lin]

/-- **C98** is false for cashaddr, which has no lengths: with any number of `q`s put before a final `p` the string is accepted, with a
payload that begins with the old one and has about five bytes more for every eight `q`s. -/
theorem C98_cashaddr_false (net : Network) (hs : net.Supported) (a q : PyStr) (ha : ':' ∉ a) (d : Bytes)
    (h : Cashaddr.decode net (a ++ ':' :: (q ++ ['p'])) = .ok d) (k : Nat) :
    ∃ more, Cashaddr.decode net (a ++ ':' :: (q ++ List.replicate k 'q' ++ ['p'])) = .ok (d ++ more) ∧
      (d ≠ [] → 5 * k ≤ 8 * more.length + 7 ∧ 8 * more.length ≤ 5 * k + 7) := by
  obtain ⟨pre, more, q1, hp, e, hn, hc⟩ := C26_partial net hs _ d h
  obtain ⟨rfl, rfl⟩ := split_unique ha hn e
  have hcq : ∀ c ∈ q, c ∈ CHARSET := fun c hc' => hc c (by simp [hc'])
  obtain ⟨i1, i2⟩ := idxOf_map_inv hcq
  generalize q.map (fun c => CHARSET.idxOf c) = x at i1 i2
  subst i1
  have q0 : symC 0 = 'q' := by decide
  have p1 : symC 1 = 'p' := by decide
  have w1 : x.map symC ++ ['p'] = (x ++ [1]).map symC := by simp [p1]
  have w2 : x.map symC ++ List.replicate k 'q' ++ ['p'] = (x ++ List.replicate k 0 ++ [1]).map symC := by simp [p1, q0]
  have one : Digits 5 [1] := by intro y hy; simp at hy; rw [hy]; decide
  have D1 : Digits 5 (x ++ [1]) := digits_append.2 ⟨i2, one⟩
  have D2 : Digits 5 (x ++ List.replicate k 0 ++ [1]) := digits_append.2 ⟨digits_append.2 ⟨i2, digits_zeros 5 k⟩, one⟩
  obtain ⟨c1, g1, e1⟩ := decode_eq hp hn (List.prefix_append pre more) D1
  obtain ⟨c2, g2, e2⟩ := decode_eq hp hn (List.prefix_append pre more) D2
  rw [w1, e1] at h
  rw [w2, e2, C98_cashaddr_checksum]
  split at h
  · next hv =>
    rw [if_pos hv]
    have h := Except.ok.inj h
    subst h
    obtain ⟨_, d1, k1, hk1, b1⟩ := g1
    obtain ⟨_, d2, k2, hk2, b2⟩ := g2
    have l1 := congrArg List.length b1
    have l2 := congrArg List.length b2
    simp only [bitsOf_length, List.length_append, List.length_replicate, List.length_cons, List.length_nil] at l1 l2
    have same : c1.take (c1.length - 6) = c2.take (c1.length - 6) := by
      apply bitsOf_inj (w := 8) (by omega) (digits_take d1 _) (digits_take d2 _)
      have hx : 8 * (c1.length - 6) ≤ (bitsOf 5 x).length := by rw [bitsOf_length]; omega
      rw [bitsOf_take, bitsOf_take, b1, b2]
      simp only [bitsOf_append, List.append_assoc]
      rw [List.take_append_of_le_length hx, List.take_append_of_le_length hx]
    have hle : c1.length - 6 ≤ c2.length - 6 := by omega
    refine ⟨((c2.take (c2.length - 6)).drop (c1.length - 6)).map UInt8.ofNat, ?_, fun hne => ?_⟩
    · rw [← List.map_append, same]
      congr 2
      conv_lhs => rw [← List.take_append_drop (c1.length - 6) (c2.take (c2.length - 6)), List.take_take, Nat.min_eq_left hle]
    · have : c1.length - 6 ≠ 0 := by
        intro h0; apply hne; rw [h0]; rfl
      simp only [List.length_map, List.length_drop, List.length_take]
      omega
  · cases h

/-- A P2PKH address that becomes that of a 33-byte payload. -/
example : bitcoinCashMain.Supported ∧ ':' ∉ pystr "bitcoincash" ∧
    Cashaddr.decode bitcoinCashMain (pystr "bitcoincash" ++ ':' :: (pystr "qqqszqgpqyqszqgpqyqszqgpqyqszqgpqyrygcdp8" ++ ['p'])) =
      .ok (0 :: List.replicate 20 1) ∧
    (Cashaddr.decode bitcoinCashMain (pystr "bitcoincash:qqqszqgpqyqszqgpqyqszqgpqyqszqgpqyrygcdp8qqqqqqqqqqqqqqqqqqqqp")).map List.length = .ok 33 := by
  refine ⟨by unfold Network.Supported; decide +kernel, by decide, by decide +kernel, by decide +kernel⟩

end Verif.Props
