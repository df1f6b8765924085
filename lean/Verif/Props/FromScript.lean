import Verif.Props.Addresses2

/-! Property C85, continued: what `from_output_script` makes of every script, and which scripts get an address that pays to them. -/

namespace Verif.Props

open Verif Spec Addresses

theorem noSegwit_table {net : Network} (hs : net.Supported) (h : net.segwit = false) : net.bech32Hrp = none ∧ net.segwitEncoder = .bech32 := by
  have tbl : ∀ net : Network, net.Supported → net.segwit = false → net.bech32Hrp = none ∧ net.segwitEncoder = .bech32 := by
    unfold Network.Supported; decide +kernel
  exact tbl net hs h

theorem segwitEncode_none {E : Env} (hs : E.net.Supported) (h : E.net.segwit = false) (d : Bytes) : segwitEncode E d = .error .valueError := by
  obtain ⟨t1, t2⟩ := noSegwit_table hs h
  unfold segwitEncode Bech32.encode
  rw [t2, t1]

theorem from_p2wpkh_eq {E : Env} (F : NetFacts E.net) {h : Bytes} (hl : h.length = 20) (c : Bool) (e : PyErr) (he : e ≠ .typeError)
    (hm : makePkhAddress' E h true c = .error e) : fromOutputScript E (p2wpkhScript h) c = .error e := by
  have hlen : (p2wpkhScript h).length = 22 := by simp [p2wpkhScript, hl]
  unfold fromOutputScript
  rw [F.wsh, F.wpkh]
  simp only []
  rw [if_neg (by rw [hlen]; simp), if_pos ⟨hlen, by simp [p2wpkhScript, startsWith]⟩]
  have : lastN (p2wpkhScript h) 20 = h := by
    unfold lastN; rw [hlen]; rfl
  rw [this, hm]
  simp [tryCatchPy, he]

theorem from_p2wsh_eq {E : Env} (F : NetFacts E.net) {h : Bytes} (hl : h.length = 32) (c : Bool) (e : PyErr) (he : e ≠ .typeError)
    (hm : hashToShAddress E h true c = .error e) : fromOutputScript E (p2wshScript h) c = .error e := by
  have hlen : (p2wshScript h).length = 34 := by simp [p2wshScript, hl]
  unfold fromOutputScript
  rw [F.wsh, F.wpkh]
  simp only []
  rw [if_pos ⟨hlen, by simp [p2wshScript, startsWith]⟩]
  have : lastN (p2wshScript h) 32 = h := by
    unfold lastN; rw [hlen]; rfl
  rw [this, hm]
  simp [tryCatchPy, he]

/-- The string is an address by coincidence in another format: it is read as Base58Check first, and pays to nothing. -/
def Coincidence (E : Env) (a : PyStr) : Prop :=
  E.net.segwitEncoder = .bech32 ∧ (∃ d, Base58.decode E a = .ok d) ∧ toOutputScript E a = .error .valueError

/-- **C85**, exactly: what `from_output_script` makes of a script of any bytes, and what the address pays to. Witness scripts: on networks with witness addresses the address
pays to the script (unless it also is a Base58Check string); where there is cashaddr and it is asked for, the address of a key hash pays to the key hash without witness, and
that of a script hash to nothing; otherwise ValueError. `76a914`, 20 bytes and any two bytes are given the address of the key hash; `a914`, 20 bytes and any byte that of the
script hash. For all other scripts: ValueError. -/
theorem C85_exact (E : Env) (hs : E.net.Supported) (hH : E.H.LengthOK) (s : Bytes) (c : Bool) :
    (∀ x, x.length = 32 → s = p2wshScript x →
      (E.net.segwit = true → ∃ a, fromOutputScript E s c = .ok (some a) ∧ (toOutputScript E a = .ok s ∨ Coincidence E a)) ∧
      (E.net.cashaddrPrefix.isSome → c = true → ∃ a, fromOutputScript E s c = .ok (some a) ∧ toOutputScript E a = .error .valueError) ∧
      (E.net.segwit = false → E.net.cashaddrPrefix = none ∨ c = false → fromOutputScript E s c = .error .valueError)) ∧
    (∀ x, x.length = 20 → s = p2wpkhScript x →
      (E.net.segwit = true → ∃ a, fromOutputScript E s c = .ok (some a) ∧ (toOutputScript E a = .ok s ∨ Coincidence E a)) ∧
      (E.net.cashaddrPrefix.isSome → c = true → ∃ a, fromOutputScript E s c = .ok (some a) ∧ toOutputScript E a = .ok (p2pkhScript x)) ∧
      (E.net.segwit = false → E.net.cashaddrPrefix = none ∨ c = false → fromOutputScript E s c = .error .valueError)) ∧
    (∀ x y, x.length = 20 → y.length = 2 → s = [0x76, 0xa9, 0x14] ++ x ++ y →
      ∃ a, fromOutputScript E s c = .ok (some a) ∧ toOutputScript E a = .ok (p2pkhScript x)) ∧
    (∀ x y, x.length = 20 → y.length = 1 → s = [0xa9, 0x14] ++ x ++ y →
      ∃ a, fromOutputScript E s c = .ok (some a) ∧ toOutputScript E a = .ok (p2shScript x)) ∧
    ((¬ ∃ x, x.length = 32 ∧ s = p2wshScript x) → (¬ ∃ x, x.length = 20 ∧ s = p2wpkhScript x) →
      (¬ ∃ x y, x.length = 20 ∧ y.length = 2 ∧ s = [0x76, 0xa9, 0x14] ++ x ++ y) → (¬ ∃ x y, x.length = 20 ∧ y.length = 1 ∧ s = [0xa9, 0x14] ++ x ++ y) →
      fromOutputScript E s c = .error .valueError) := by
  have F := netFacts hs
  have cashOf : E.net.cashaddrPrefix.isSome → CashNet E.net := by
    intro h
    rcases F.cash with C | C
    · rw [C.noPrefix] at h; cases h
    · exact C
  have plainOf : E.net.cashaddrPrefix = none → PlainNet E.net := by
    intro h
    rcases F.cash with C | C
    · exact C
    · have := C.pre; rw [h] at this; cases this
  refine ⟨?_, ?_, ?_, ?_, ?_⟩
  · rintro x hx rfl
    refine ⟨fun hsw => C28_p2wsh E hs hH hsw x hx c, fun hc hct => ?_, fun hsw hc => ?_⟩
    · subst hct
      have C := cashOf hc
      obtain ⟨a, h1, h2, -⟩ := cash_make E hs C ([8] ++ x) (by simp [hx])
      refine ⟨a, from_p2wsh F hx _ _ ?_, ?_⟩
      · unfold hashToShAddress; rw [C.p2sh]; simp only [h1, Except.map]
      · rw [toOutputScript_eq, h2]
        exact outScript_long F (by simp [hx]) (by simp)
    · refine from_p2wsh_eq F hx c _ (by decide) ?_
      unfold hashToShAddress
      rcases hc with hc | rfl
      · rw [(plainOf hc).noP2sh]; exact segwitEncode_none hs hsw _
      · cases E.net.cashaddrP2sh <;> exact segwitEncode_none hs hsw _
  · rintro x hx rfl
    refine ⟨fun hsw => C28_p2wpkh E hs hH hsw x hx c, fun hc hct => ?_, fun hsw hc => ?_⟩
    · subst hct
      exact C28_cashaddr_p2wpkh E hs hc x hx
    · refine from_p2wpkh_eq F hx c _ (by decide) ?_
      unfold makePkhAddress'
      rcases hc with hc | rfl
      · rw [(plainOf hc).noP2pkh]; exact segwitEncode_none hs hsw _
      · cases E.net.cashaddrP2pkh <;> exact segwitEncode_none hs hsw _
  · rintro x y hx hy rfl
    obtain ⟨a, h1, h2⟩ := pkh_script E hs hH x hx c
    exact ⟨a, by rw [from_p2pkh_like F hx hy]; exact h1, h2⟩
  · rintro x y hx hy rfl
    obtain ⟨a, h1, h2⟩ := sh_script E hs hH x hx c
    exact ⟨a, by rw [from_p2sh_like F hx hy]; exact h1, h2⟩
  · intro n1 n2 n3 n4
    unfold fromOutputScript
    rw [F.wsh, F.wpkh]
    simp only []
    rw [if_neg, if_neg, if_neg, if_neg]
    · rintro ⟨hl, h⟩
      obtain ⟨r, rfl⟩ := (startsWith_iff _ _).1 h
      have : r.length = 21 := by simpa using hl
      exact n4 ⟨r.take 20, r.drop 20, by simp [this], by simp [this], by rw [List.append_assoc, List.take_append_drop]⟩
    · rintro ⟨hl, h⟩
      obtain ⟨r, rfl⟩ := (startsWith_iff _ _).1 h
      have : r.length = 22 := by simpa using hl
      exact n3 ⟨r.take 20, r.drop 20, by simp [this], by simp [this], by rw [List.append_assoc, List.take_append_drop]⟩
    · rintro ⟨hl, h⟩
      obtain ⟨r, rfl⟩ := (startsWith_iff _ _).1 h
      exact n2 ⟨r, by simpa using hl, rfl⟩
    · rintro ⟨hl, h⟩
      obtain ⟨r, rfl⟩ := (startsWith_iff _ _).1 h
      exact n1 ⟨r, by simpa using hl, rfl⟩

/-- **C85** as an equivalence: if a script has an address, the address pays to the script exactly if the script is one of the four templates, is not a witness script on a
cashaddr network, and the address is not a Base58Check string by coincidence. -/
theorem C85_iff (E : Env) (hs : E.net.Supported) (hH : E.H.LengthOK) (s : Bytes) (c : Bool) (a : PyStr) (h : fromOutputScript E s c = .ok (some a)) :
    toOutputScript E a = .ok s ↔
      (∃ x, x.length = 20 ∧ (s = p2pkhScript x ∨ s = p2shScript x)) ∨
      (((∃ x, x.length = 20 ∧ s = p2wpkhScript x) ∨ ∃ x, x.length = 32 ∧ s = p2wshScript x) ∧ E.net.cashaddrPrefix = none ∧ ¬ Coincidence E a) := by
  obtain ⟨k1, k2, k3, k4, k5⟩ := C85_exact E hs hH s c
  have noCash : E.net.segwit = true → E.net.cashaddrPrefix = none := fun hsw => (plain_of_segwit hs hsw).noPrefix
  have nc : toOutputScript E a = .ok s → ¬ Coincidence E a := by
    rintro h1 ⟨-, -, h2⟩; rw [h1] at h2; cases h2
  constructor
  · intro hto
    by_cases n1 : ∃ x, x.length = 32 ∧ s = p2wshScript x
    · obtain ⟨x, hx, hsx⟩ := n1
      refine .inr ⟨.inr ⟨x, hx, hsx⟩, ?_, nc hto⟩
      by_cases hcp : E.net.cashaddrPrefix = none
      · exact hcp
      exfalso
      have hcp : E.net.cashaddrPrefix.isSome := Option.isSome_iff_ne_none.2 hcp
      obtain ⟨-, h2, h3⟩ := k1 x hx hsx
      cases c with
      | true => obtain ⟨a', h4, h5⟩ := h2 hcp rfl; rw [h] at h4; cases h4; rw [hto] at h5; cases h5
      | false =>
        cases hsw : E.net.segwit with
        | true => rw [noCash hsw] at hcp; cases hcp
        | false => rw [h3 hsw (.inr rfl)] at h; cases h
    by_cases n2 : ∃ x, x.length = 20 ∧ s = p2wpkhScript x
    · obtain ⟨x, hx, hsx⟩ := n2
      refine .inr ⟨.inl ⟨x, hx, hsx⟩, ?_, nc hto⟩
      by_cases hcp : E.net.cashaddrPrefix = none
      · exact hcp
      exfalso
      have hcp : E.net.cashaddrPrefix.isSome := Option.isSome_iff_ne_none.2 hcp
      obtain ⟨-, h2, h3⟩ := k2 x hx hsx
      cases c with
      | true =>
        obtain ⟨a', h4, h5⟩ := h2 hcp rfl; rw [h] at h4; cases h4; rw [hto] at h5
        have := congrArg List.length (Except.ok.inj h5)
        rw [hsx] at this; simp [p2wpkhScript, p2pkhScript, hx] at this
      | false =>
        cases hsw : E.net.segwit with
        | true => rw [noCash hsw] at hcp; cases hcp
        | false => rw [h3 hsw (.inr rfl)] at h; cases h
    by_cases n3 : ∃ x y, x.length = 20 ∧ y.length = 2 ∧ s = [0x76, 0xa9, 0x14] ++ x ++ y
    · obtain ⟨x, y, hx, hy, hsx⟩ := n3
      obtain ⟨a', h4, h5⟩ := k3 x y hx hy hsx
      rw [h] at h4; cases h4; rw [hto] at h5
      exact .inl ⟨x, hx, .inl (Except.ok.inj h5)⟩
    by_cases n4 : ∃ x y, x.length = 20 ∧ y.length = 1 ∧ s = [0xa9, 0x14] ++ x ++ y
    · obtain ⟨x, y, hx, hy, hsx⟩ := n4
      obtain ⟨a', h4, h5⟩ := k4 x y hx hy hsx
      rw [h] at h4; cases h4; rw [hto] at h5
      exact .inl ⟨x, hx, .inr (Except.ok.inj h5)⟩
    · rw [k5 n1 n2 n3 n4] at h; cases h
  · rintro (⟨x, hx, rfl | rfl⟩ | ⟨hw, hcp, hnc⟩)
    · obtain ⟨a', h4, h5⟩ := C27_p2pkh E hs hH x hx c; rw [h] at h4; cases h4; exact h5
    · obtain ⟨a', h4, h5⟩ := C27_p2sh E hs hH x hx c; rw [h] at h4; cases h4; exact h5
    · cases hsw : E.net.segwit with
      | true =>
        rcases hw with ⟨x, hx, hsx⟩ | ⟨x, hx, hsx⟩
        · obtain ⟨a', h4, h5⟩ := (k2 x hx hsx).1 hsw; rw [h] at h4; cases h4; exact h5.resolve_right hnc
        · obtain ⟨a', h4, h5⟩ := (k1 x hx hsx).1 hsw; rw [h] at h4; cases h4; exact h5.resolve_right hnc
      | false =>
        rcases hw with ⟨x, hx, hsx⟩ | ⟨x, hx, hsx⟩
        · rw [(k2 x hx hsx).2.2 hsw (.inl hcp)] at h; cases h
        · rw [(k1 x hx hsx).2.2 hsw (.inl hcp)] at h; cases h

example : bitcoinCashMain.Supported ∧ bitcoinCashMain.segwit = false ∧ bitcoinCashMain.cashaddrPrefix.isSome ∧ bitcoinMain.segwit = true ∧
    (∃ a, fromOutputScript ⟨bitcoinCashMain, toyHashes⟩ (p2wshScript (List.replicate 32 7)) true = .ok (some a) ∧
      toOutputScript ⟨bitcoinCashMain, toyHashes⟩ a = .error .valueError) ∧
    fromOutputScript ⟨bitcoinCashMain, toyHashes⟩ (p2wshScript (List.replicate 32 7)) false = .error .valueError :=
  have h1 : bitcoinCashMain.Supported := by unfold Network.Supported; decide +kernel
  have h2 := (C85_exact ⟨bitcoinCashMain, toyHashes⟩ h1 toyHashes_ok (p2wshScript (List.replicate 32 7)) true).1 _ rfl rfl
  ⟨h1, rfl, rfl, rfl, h2.2.1 rfl rfl, by decide +kernel⟩

end Verif.Props
