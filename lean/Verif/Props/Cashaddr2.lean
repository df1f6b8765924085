import Verif.Props.Cashaddr

/-! Property C74, exactly: which strings a cashaddr payload is read from. -/

namespace Verif.Props
open Cashaddr LinCode
open Bech32 (symC symC_facts bytes_digits ofNat_map_toNat toNat_map_ofNat)

theorem map_ofNat_inj {a b : List Nat} (ha : Digits 5 a) (hb : Digits 5 b)
    (h : a.map (BitVec.ofNat 40) = b.map (BitVec.ofNat 40)) : a = b := by
  have key : ∀ l : List Nat, Digits 5 l → (l.map (BitVec.ofNat 40)).map BitVec.toNat = l := by
    intro l hl
    rw [List.map_map]
    conv_rhs => rw [← List.map_id l]
    apply List.map_congr_left
    intro x hx
    have := hl x hx
    simp only [Function.comp_apply, BitVec.toNat_ofNat, id]
    rw [Nat.mod_eq_of_lt (by omega)]
  rw [← key a ha, ← key b hb, h]

/-- C74: the eight checksum characters are determined by what precedes them. -/
theorem C74_checksum_unique (a : PyStr) (r c : List Nat) (hc : Digits 5 c) (hl : c.length = 8) :
    verifyChecksum a ((r ++ c).map Int.ofNat) = true ↔ c.map Int.ofNat = calculateChecksum a (r.map Int.ofNat) := by
  constructor
  · intro h
    have h' := C25_create_verifies a r
    rw [calculateChecksum_eq, ← List.map_append, verify_nat, List.map_append, ← List.append_assoc, beq_iff_eq, polymod_eq,
      List.map_append, run_append, ofInt_ofNat] at h'
    rw [verify_nat, List.map_append, ← List.append_assoc, beq_iff_eq, polymod_eq, List.map_append, run_append, ofInt_ofNat] at h
    rw [calculateChecksum_eq]
    congr 1
    apply map_ofNat_inj hc (checksumNat_digits _ _)
    apply suffix_unique A_lin (k := 8) rfl A_shift _ _ _ (digits_sym hc) (digits_sym (checksumNat_digits _ _)) (by simpa)
      (by simp [checksumNat_length]) (by
        have := h.trans h'.symm
        rwa [BitVec.xor_left_inj] at this)
  · intro h
    rw [List.map_append, h]
    exact C25_create_verifies a r

theorem decode_eq {net : Network} {pre a : PyStr} (hp : net.cashaddrPrefix = some pre) (ha : ':' ∉ a) (hpa : pre <+: a)
    {ds : List Nat} (hD : Digits 5 ds) : ∃ conv, Regroups 5 8 ds conv ∧
    decode net (a ++ ':' :: ds.map symC) =
      (if verifyChecksum a (ds.map Int.ofNat) = true then .ok ((conv.take (conv.length - 6)).map UInt8.ofNat) else .error .valueError) := by
  have hq : ':' ∉ ds.map symC := by
    intro hm
    rw [List.mem_map] at hm
    obtain ⟨x, hx, he⟩ := hm
    have h1 := (symC_facts x (hD x hx)).2.1
    rw [he] at h1
    exact absurd h1 (by decide)
  obtain ⟨conv, hc, hreg2⟩ := convertbits_pad (f := 5) (t := 8) (by omega) _ hD
  refine ⟨conv, hreg2, ?_⟩
  unfold decode
  rw [hp]
  simp only []
  rw [if_neg, splitColon_two ha hq]
  · simp only []
    rw [b32decode_symC hD, cash_convertbits, hc]
    by_cases hv : verifyChecksum a (ds.map Int.ofNat) = true
    · rw [if_neg (by simpa using hv), if_pos hv]; rfl
    · rw [if_pos hv, if_neg hv]
  · rw [Classical.not_not]
    unfold startsWith
    rw [List.isPrefixOf_iff_prefix]
    exact hpa.trans ⟨_, rfl⟩

/-- C74, exactly: the strings read as the payload `d`. The text before the colon starts with the network's prefix; then come five-bit
values carrying the bits of `d` and between one and eight further bits, whatever these are; then the eight checksum values for them. -/
theorem C74_exact (net : Network) (pre : PyStr) (hp : net.cashaddrPrefix = some pre) (hs : net.Supported) (s : PyStr) (d : Bytes)
    (hd : d ≠ []) :
    decode net s = .ok d ↔ ∃ more r c pad, ':' ∉ more ∧ Digits 5 r ∧ bitsOf 5 r = bitsOf 8 (d.map UInt8.toNat) ++ pad ∧
      1 ≤ pad.length ∧ pad.length ≤ 8 ∧ Digits 5 c ∧ c.length = 8 ∧ verifyChecksum (pre ++ more) ((r ++ c).map Int.ofNat) = true ∧
      s = pre ++ more ++ ':' :: (r ++ c).map symC := by
  have hpre := cash_prefix hs hp
  constructor
  · intro h
    obtain ⟨pre', more, q, hp', rfl, hn, hq⟩ := C26_partial net hs s d h
    rw [hp] at hp'; cases hp'
    obtain ⟨hq1, hD⟩ := Bech32.idxOf_map_inv hq
    generalize q.map (fun c => Bech32.CHARSET.idxOf c) = ds at hq1 hD
    subst hq1
    obtain ⟨conv, ⟨-, hdc, k, hk, hbits⟩, hdec⟩ := decode_eq hp hn ⟨more, rfl⟩ hD
    rw [hdec] at h
    by_cases hv : verifyChecksum (pre ++ more) (ds.map Int.ofNat) = true
    · rw [if_pos hv] at h
      have hd' := Except.ok.inj h
      have hlen := congrArg List.length hd'
      have hpos := List.length_pos_iff.2 hd
      have hl := congrArg List.length hbits
      simp only [bitsOf_length, List.length_append, List.length_replicate, List.length_map, List.length_take] at hl hlen
      have hds : ds = ds.take (ds.length - 8) ++ ds.drop (ds.length - 8) := (List.take_append_drop _ _).symm
      have hr : (ds.take (ds.length - 8)).length = ds.length - 8 := by rw [List.length_take]; omega
      have hc : (ds.drop (ds.length - 8)).length = 8 := by rw [List.length_drop]; omega
      generalize ds.take (ds.length - 8) = r at hds hr
      generalize ds.drop (ds.length - 8) = c at hds hc
      have hdn : d.map UInt8.toNat = conv.take (conv.length - 6) := by
        rw [← hd']; exact toNat_map_ofNat fun x hx => hdc x (List.mem_of_mem_take hx)
      refine ⟨more, r, c, (bitsOf 5 r).drop (8 * d.length), fun hm => hn (by simp [hm]), ?_, ?_, ?_, ?_, ?_, hc, ?_, ?_⟩
      · intro x hx; exact hD x (by rw [hds]; simp [hx])
      · have h1 : (bitsOf 5 r).take (8 * d.length) = bitsOf 8 (d.map UInt8.toNat) := by
          rw [hdn]
          have h2 : bitsOf 8 conv = bitsOf 8 (conv.take (conv.length - 6)) ++ bitsOf 8 (conv.drop (conv.length - 6)) := by
            rw [← bitsOf_append, List.take_append_drop]
          rw [h2, hds, bitsOf_append, List.append_assoc] at hbits
          have h3 := congrArg (List.take (8 * d.length)) hbits
          rw [List.take_append_of_le_length, List.take_of_length_le, List.take_append_of_le_length] at h3
          · exact h3.symm
          all_goals simp only [bitsOf_length, List.length_take]; omega
        rw [← h1, List.take_append_drop]
      · rw [List.length_drop, bitsOf_length]; omega
      · rw [List.length_drop, bitsOf_length]; omega
      · intro x hx; exact hD x (by rw [hds]; simp [hx])
      · rw [← hds]; exact hv
      · rw [← hds]
    · rw [if_neg hv] at h; cases h
  · rintro ⟨more, r, c, pad, hm, hr, hbits, h1, h8, hc, hc8, hv, rfl⟩
    have hD : Digits 5 (r ++ c) := by
      intro x hx; rw [List.mem_append] at hx; exact hx.elim (hr x) (hc x)
    obtain ⟨conv, ⟨-, hdc, k, hk, hb⟩, hdec⟩ := decode_eq hp (a := pre ++ more) (by simp [hpre, hm]) ⟨more, rfl⟩ hD
    rw [hdec, if_pos hv]
    congr 1
    have hl := congrArg List.length hb
    have hl' := congrArg List.length hbits
    simp only [bitsOf_length, List.length_append, List.length_replicate, List.length_map] at hl hl'
    have : conv.length - 6 = d.length := by omega
    rw [this]
    rw [bitsOf_append, hbits, List.append_assoc, List.append_assoc, ← List.take_append_drop d.length conv, bitsOf_append] at hb
    have h3 := (List.append_inj hb (by simp only [bitsOf_length, List.length_take, List.length_map]; congr 1; omega)).1
    have h4 := bitsOf_inj (by omega) (fun x hx => hdc x (List.mem_of_mem_take hx)) (bytes_digits d) h3
    rw [h4, ofNat_map_toNat]

theorem five_bits : ∀ a b c d e : Bool, ∃ v < 32, toBits 5 v = [a, b, c, d, e] := by
  decide +kernel

theorem bitsOf_surj (n : Nat) : ∀ l : List Bool, l.length = 5 * n → ∃ r, Digits 5 r ∧ bitsOf 5 r = l := by
  induction n with
  | zero => intro l hl; rw [List.length_eq_zero_iff.1 (by omega : l.length = 0)]; exact ⟨[], by simp [Digits], rfl⟩
  | succ n ih =>
    intro l hl
    match l with
    | a :: b :: c :: d :: e :: l' =>
      obtain ⟨r, h1, h2⟩ := ih l' (by simp only [List.length_cons] at hl; omega)
      obtain ⟨v, hv, hb⟩ := five_bits a b c d e
      refine ⟨v :: r, ?_, ?_⟩
      · intro x hx; rcases List.mem_cons.1 hx with rfl | hx
        · exact hv
        · exact h1 x hx
      · rw [bitsOf_cons, hb, h2]; rfl
    | [] => simp only [List.length_nil] at hl; omega
    | [_] => simp only [List.length_cons, List.length_nil] at hl; omega
    | [_, _] => simp only [List.length_cons, List.length_nil] at hl; omega
    | [_, _, _] => simp only [List.length_cons, List.length_nil] at hl; omega
    | [_, _, _, _] => simp only [List.length_cons, List.length_nil] at hl; omega

theorem symC_inj {a b : List Nat} (ha : Digits 5 a) (hb : Digits 5 b) (h : a.map symC = b.map symC) : a = b := by
  have key : ∀ l : List Nat, Digits 5 l → (l.map symC).map (fun c => Bech32.CHARSET.idxOf c) = l := by
    intro l hl
    rw [List.map_map]
    conv_rhs => rw [← List.map_id l]
    apply List.map_congr_left
    intro x hx
    exact (symC_facts x (hl x hx)).2.2.1
  rw [← key a ha, ← key b hb, h]

/-- C74 for the address payloads (a version byte and twenty bytes of hash), exactly: the accepted strings with the network's prefix are
given one to one by the strings of two or of seven padding bits, 132 in all. The encoder's own string is the one with two zero bits. -/
theorem C74_address_strings (net : Network) (pre : PyStr) (hp : net.cashaddrPrefix = some pre) (hs : net.Supported) (d : Bytes)
    (hd : d.length = 21) :
    ∃ f : List Bool → PyStr,
      (∀ q, decode net (pre ++ ':' :: q) = .ok d ↔ ∃ pad, (pad.length = 2 ∨ pad.length = 7) ∧ pre ++ ':' :: q = f pad) ∧
      (∀ p p', (p.length = 2 ∨ p.length = 7) → (p'.length = 2 ∨ p'.length = 7) → f p = f p' → p = p') ∧
      encode net d = .ok (f [false, false]) := by
  have hpre := cash_prefix hs hp
  have hch : ∀ pad : List Bool, ∃ r, (pad.length = 2 ∨ pad.length = 7) →
      Digits 5 r ∧ bitsOf 5 r = bitsOf 8 (d.map UInt8.toNat) ++ pad := by
    intro pad
    by_cases h : pad.length = 2 ∨ pad.length = 7
    · obtain ⟨r, h1⟩ := bitsOf_surj (if pad.length = 2 then 34 else 35) (bitsOf 8 (d.map UInt8.toNat) ++ pad) (by
        simp only [List.length_append, bitsOf_length, List.length_map, hd]
        rcases h with h | h <;> simp [h])
      exact ⟨r, fun _ => h1⟩
    · exact ⟨[], fun h' => absurd h' h⟩
  choose g hg using hch
  have hcs : ∀ pad : List Bool, (pad.length = 2 ∨ pad.length = 7) → Digits 5 (g pad ++ checksumNat pre ((g pad).map Int.ofNat)) := by
    intro pad h x hx
    rw [List.mem_append] at hx; exact hx.elim ((hg pad h).1 x) (checksumNat_digits _ _ x)
  refine ⟨fun pad => addrStr pre (g pad), ?_, ?_, ?_⟩
  · intro q
    rw [C74_exact net pre hp hs _ d (by intro h; rw [h] at hd; cases hd)]
    constructor
    · rintro ⟨more, r, c, pad, hm, hr, hbits, h1, h8, hc, hc8, hv, hq⟩
      have hsp := split_unique hpre (by simp [hpre, hm] : ':' ∉ pre ++ more) hq
      have hmore : more = [] := by
        have := congrArg List.length hsp.1
        rw [List.length_append] at this
        exact List.length_eq_zero_iff.1 (by omega)
      subst hmore
      have hl' := congrArg List.length hbits
      simp only [bitsOf_length, List.length_append, List.length_map, hd] at hl'
      have hpad : pad.length = 2 ∨ pad.length = 7 := by omega
      have hrg : r = g pad := bitsOf_inj (by omega) hr (hg pad hpad).1 (hbits.trans (hg pad hpad).2.symm)
      subst hrg
      refine ⟨pad, hpad, ?_⟩
      rw [C74_checksum_unique _ _ _ hc hc8, List.append_nil, calculateChecksum_eq] at hv
      have hcc : c = checksumNat pre ((g pad).map Int.ofNat) := List.map_injective_iff.2 (fun a b h => Int.ofNat.inj h) hv
      show _ = addrStr pre (g pad)
      rw [addrStr, ← hcc, ← hsp.2]
    · rintro ⟨pad, hpad, hq⟩
      refine ⟨[], g pad, checksumNat pre ((g pad).map Int.ofNat), pad, by simp, (hg pad hpad).1, (hg pad hpad).2, by omega, by omega,
        checksumNat_digits _ _, checksumNat_length _ _, ?_, ?_⟩
      · rw [C74_checksum_unique _ _ _ (checksumNat_digits _ _) (checksumNat_length _ _), List.append_nil, calculateChecksum_eq]
      · rw [hq, List.append_nil]; rfl
  · intro p p' h h' he
    have h1 := (split_unique hpre hpre he).2
    have h2 := symC_inj (hcs p h) (hcs p' h') h1
    have h3 := (List.append_inj' h2 (by rw [checksumNat_length, checksumNat_length])).1
    have h4 := (hg p h).2
    rw [h3, (hg p' h').2] at h4
    exact (List.append_cancel_left h4).symm
  · obtain ⟨r, hreg, he⟩ := encode_eq hp d
    rw [he]
    obtain ⟨_, hr, k, hk, hbits⟩ := hreg
    have hl' := congrArg List.length hbits
    simp only [bitsOf_length, List.length_append, List.length_map, hd, List.length_replicate] at hl'
    have hk2 : k = 2 := by omega
    subst hk2
    have : r = g [false, false] := bitsOf_inj (by omega) hr (hg [false, false] (.inl rfl)).1 (hbits.trans (hg [false, false] (.inl rfl)).2.symm)
    rw [this]

/-- With seven padding bits 1010101: a string one character longer than the encoder's. -/
example : decode bitcoinCashMain (pystr "bitcoincash:qqrswpc8qurswpc8qurswpc8qurswpc8q74m2eektas") = .ok (0 :: List.replicate 20 7) := by decide +kernel

example : bitcoinCashMain.Supported ∧ bitcoinCashMain.cashaddrPrefix = some (pystr "bitcoincash") ∧
    (0 :: List.replicate 20 (7 : UInt8)).length = 21 := by
  refine ⟨by unfold Network.Supported; decide +kernel, by decide, by decide⟩

end Verif.Props
