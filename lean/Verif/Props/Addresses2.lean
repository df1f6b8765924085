import Verif.Props.Addresses

/-! C85–C87: the addresses of arbitrary scripts, addresses on foreign networks, and the exceptions of the address functions. -/

namespace Verif.Props

open Verif Spec Addresses

/-! ### C87 -/

theorem segwitEncode_cases (E : Env) (hs : E.net.Supported) (hH : E.H.LengthOK) (l : UInt8) (h : Bytes) (hl : h.length = l.toNat)
    (hl2 : l = 20 ∨ l = 32) :
    (∃ a, segwitEncode E ([0, l] ++ h) = .ok (some a)) ∨ segwitEncode E ([0, l] ++ h) = .error .valueError := by
  unfold segwitEncode
  cases E.net.segwitEncoder with
  | base58 =>
    obtain ⟨a, h1, -⟩ := base58_make E hH ([0, l] ++ h)
    exact .inl ⟨a, by simp only [h1]; rfl⟩
  | bech32 =>
    simp only []
    cases hh : E.net.bech32Hrp with
    | none => right; simp only [Bech32.encode, hh]
    | some hrp =>
      left
      have hleg : LegalProgram (0 : UInt8).toNat h.length := by rw [hl]; rcases hl2 with rfl | rfl <;> decide
      obtain ⟨a, h1, -, -⟩ := C21_roundtrip E.net hs hrp hh 0 h hleg
      have hlb : UInt8.ofNat h.length = l := by rw [hl]; exact UInt8.ofNat_toNat
      rw [hlb] at h1
      exact ⟨a, h1⟩

theorem cash_cases (E : Env) (hs : E.net.Supported) (C : CashNet E.net) (d : Bytes) : ∃ a, Cashaddr.encode E.net d = .ok a := by
  obtain ⟨pre, hp⟩ := Option.isSome_iff_exists.1 C.pre
  obtain ⟨a, h1, -, -⟩ := C24_behaviour E.net hs pre hp d
  exact ⟨a, h1⟩

theorem pkh_cases (E : Env) (hs : E.net.Supported) (hH : E.H.LengthOK) (h : Bytes) (hl : h.length = 20) (w c : Bool) :
    (∃ a, makePkhAddress' E h w c = .ok (some a)) ∨ makePkhAddress' E h w c = .error .valueError := by
  cases w with
  | false => obtain ⟨a, h1, -⟩ := pkh_script E hs hH h hl c; exact .inl ⟨a, h1⟩
  | true =>
    unfold makePkhAddress'
    rcases (netFacts hs).cash with C | C
    · rw [C.noP2pkh, (netFacts hs).wpkh]
      exact segwitEncode_cases E hs hH 20 h hl (.inl rfl)
    · rw [C.p2pkh]
      cases c with
      | true =>
        obtain ⟨a, ha⟩ := cash_cases E hs C ([0] ++ h)
        exact .inl ⟨a, by simp only [ha]; rfl⟩
      | false =>
        rw [(netFacts hs).wpkh]
        exact segwitEncode_cases E hs hH 20 h hl (.inl rfl)

theorem sh_cases (E : Env) (hs : E.net.Supported) (hH : E.H.LengthOK) (h : Bytes) (w c : Bool)
    (hl : h.length = if w then 32 else 20) :
    (∃ a, hashToShAddress E h w c = .ok (some a)) ∨ hashToShAddress E h w c = .error .valueError := by
  cases w with
  | false => obtain ⟨a, h1, -⟩ := sh_script E hs hH h hl c; exact .inl ⟨a, h1⟩
  | true =>
    unfold hashToShAddress
    rcases (netFacts hs).cash with C | C
    · rw [C.noP2sh, (netFacts hs).wsh]
      exact segwitEncode_cases E hs hH 32 h hl (.inr rfl)
    · rw [C.p2sh]
      cases c with
      | true =>
        obtain ⟨a, ha⟩ := cash_cases E hs C ([8] ++ h)
        exact .inl ⟨a, by simp only [ha]; rfl⟩
      | false =>
        rw [(netFacts hs).wsh]
        exact segwitEncode_cases E hs hH 32 h hl (.inr rfl)

/-- **C87**: making the address of a key or of a serialisable script gives a string, never `None`, or is refused with ValueError; without
witness it is never refused. -/
theorem C87_make (E : Env) (hs : E.net.Supported) (hH : E.H.LengthOK) (pubkey : Bytes) (script : PyStr) (b : Bytes)
    (hser : serialize E.net script = .ok b) (w c : Bool) :
    ((∃ a, makePkhAddress E pubkey w c = .ok (some a)) ∨ (w = true ∧ makePkhAddress E pubkey w c = .error .valueError)) ∧
    ((∃ a, makeShAddress E script w c = .ok (some a)) ∨ (w = true ∧ makeShAddress E script w c = .error .valueError)) := by
  constructor
  · unfold makePkhAddress
    rcases pkh_cases E hs hH (E.hash160 pubkey) (E.hash160_length hH pubkey) w c with h | h
    · exact .inl h
    · cases w with
      | true => exact .inr ⟨rfl, h⟩
      | false =>
        obtain ⟨a, h1, -⟩ := pkh_script E hs hH (E.hash160 pubkey) (E.hash160_length hH pubkey) c
        exact .inl ⟨a, h1⟩
  · unfold makeShAddress serScriptToShAddress
    rw [hser, ok_bind]
    cases w with
    | true =>
      rcases sh_cases E hs hH (E.H.sha256 b) true c (hH.1 b) with h | h
      · exact .inl h
      · exact .inr ⟨rfl, h⟩
    | false =>
      obtain ⟨a, h1, -⟩ := sh_script E hs hH (E.hash160 b) (E.hash160_length hH b) c
      exact .inl ⟨a, h1⟩

/-- **C87**: `from_output_script` on arbitrary bytes gives a string, never `None`, or raises ValueError. -/
theorem C87_from (E : Env) (hs : E.net.Supported) (hH : E.H.LengthOK) (s : Bytes) (c : Bool) :
    (∃ a, fromOutputScript E s c = .ok (some a)) ∨ fromOutputScript E s c = .error .valueError := by
  have tc : ∀ (x y : Py (Option PyStr)), ((∃ a, x = .ok (some a)) ∨ x = .error .valueError) →
      (∃ a, tryCatchPy x (· = .typeError) y = .ok (some a)) ∨ tryCatchPy x (· = .typeError) y = .error .valueError := by
    rintro x y (⟨a, rfl⟩ | rfl)
    · exact .inl ⟨a, rfl⟩
    · exact .inr rfl
  unfold fromOutputScript
  rw [(netFacts hs).wsh, (netFacts hs).wpkh]
  simp only []
  split
  · next h => exact tc _ _ (sh_cases E hs hH _ true c (by unfold lastN; rw [List.length_drop, h.1]; rfl))
  · split
    · next h => exact tc _ _ (pkh_cases E hs hH _ (by unfold lastN; rw [List.length_drop, h.1]; rfl) true c)
    · split
      · next h => exact pkh_cases E hs hH _ (by rw [slice_length]; have := h.1; omega) false c
      · split
        · next h => exact sh_cases E hs hH _ false c (by rw [slice_length]; have := h.1; simp only [Bool.false_eq_true, if_false]; omega)
        · exact .inr rfl

/-- **C87**: reading an arbitrary string as an address gives bytes or raises ValueError, in `parse`, `parse_hash` and
`to_output_script`. -/
theorem C87_read (E : Env) (hs : E.net.Supported) (a : PyStr) (e : PyErr) :
    (parse E a = .error e → e = .valueError) ∧ (parseHash E a = .error e → e = .valueError) ∧
    (toOutputScript E a = .error e → e = .valueError) := by
  refine ⟨parse_error, fun h => ?_, fun h => ?_⟩
  · unfold parseHash at h
    cases hp : parse E a with
    | error e' => rw [hp] at h; cases h; exact parse_error hp
    | ok raw =>
      rw [hp, ok_bind] at h
      simp only [] at h
      repeat' split at h
      all_goals cases h
      all_goals rfl
  · rcases C31_to E hs a with ⟨s, x, h1, -⟩ | h1
    · rw [h1] at h; cases h
    · rw [h1] at h; cases h; rfl

example : (⟨bitcoinCashMain, toyHashes⟩ : Env).net.Supported ∧ toyHashes.LengthOK ∧
    serialize bitcoinCashMain (pystr "OP_DUP OP_HASH160") = .ok [0x76, 0xa9] ∧
    makePkhAddress ⟨bitcoinCashMain, toyHashes⟩ [1, 2, 3] true false = .error .valueError ∧
    fromOutputScript ⟨bitcoinCashMain, toyHashes⟩ [0x51] = .error .valueError ∧
    parseHash ⟨bitcoinCashMain, toyHashes⟩ (pystr "hello") = .error .valueError :=
  ⟨by unfold Network.Supported; decide +kernel, toyHashes_ok, by decide +kernel, by decide +kernel, by decide +kernel, by decide +kernel⟩

/-! ### C85 -/

theorem from_p2pkh_like {E : Env} (F : NetFacts E.net) {x y : Bytes} (hx : x.length = 20) (hy : y.length = 2) (c : Bool) :
    fromOutputScript E ([0x76, 0xa9, 0x14] ++ x ++ y) c = makePkhAddress' E x false c := by
  have hlen : ([0x76, 0xa9, 0x14] ++ x ++ y).length = 25 := by simp [hx, hy]
  unfold fromOutputScript
  rw [F.wsh, F.wpkh]
  simp only []
  rw [if_neg (by rw [hlen]; simp), if_neg (by rw [hlen]; simp), if_pos ⟨hlen, by simp [startsWith]⟩]
  congr 1
  simp [slice, hx]

theorem from_p2sh_like {E : Env} (F : NetFacts E.net) {x y : Bytes} (hx : x.length = 20) (hy : y.length = 1) (c : Bool) :
    fromOutputScript E ([0xa9, 0x14] ++ x ++ y) c = hashToShAddress E x false c := by
  have hlen : ([0xa9, 0x14] ++ x ++ y).length = 23 := by simp [hx, hy]
  unfold fromOutputScript
  rw [F.wsh, F.wpkh]
  simp only []
  rw [if_neg (by rw [hlen]; simp), if_neg (by rw [hlen]; simp), if_neg (by rw [hlen]; simp), if_pos ⟨hlen, by simp [startsWith]⟩]
  congr 1
  simp [slice, hx]

/-- **C85**, as far as it holds: on networks without cashaddr, the address of one of the four templates pays to that very script, or, being
a Base58Check string by coincidence, to nothing. Missing: scripts that only resemble a template (C85_false) and witness scripts on
cashaddr networks (C28_cashaddr_p2wpkh). -/
theorem C85_partial (E : Env) (hs : E.net.Supported) (hH : E.H.LengthOK) (s : Bytes) (c : Bool) (a : PyStr)
    (hc : E.net.cashaddrPrefix = none) (h : fromOutputScript E s c = .ok (some a))
    (ht : (∃ x, x.length = 20 ∧ (s = p2pkhScript x ∨ s = p2shScript x ∨ s = p2wpkhScript x)) ∨ ∃ x, x.length = 32 ∧ s = p2wshScript x) :
    toOutputScript E a = .ok s ∨ (E.net.segwitEncoder = .bech32 ∧ (∃ d, Base58.decode E a = .ok d) ∧
      toOutputScript E a = .error .valueError) := by
  have tbl : ∀ net : Network, net.Supported → net.segwit = false → net.bech32Hrp = none ∧ net.segwitEncoder = .bech32 := by
    unfold Network.Supported; decide +kernel
  have P : PlainNet E.net := by
    rcases (netFacts hs).cash with C | C
    · exact C
    · have := C.pre; rw [hc] at this; cases this
  rcases ht with ⟨x, hx, rfl | rfl | rfl⟩ | ⟨x, hx, rfl⟩
  · obtain ⟨a', h1, h2⟩ := C27_p2pkh E hs hH x hx c
    rw [h] at h1; cases h1; exact .inl h2
  · obtain ⟨a', h1, h2⟩ := C27_p2sh E hs hH x hx c
    rw [h] at h1; cases h1; exact .inl h2
  · cases hsw : E.net.segwit with
    | true =>
      obtain ⟨a', h1, h2⟩ := C28_p2wpkh E hs hH hsw x hx c
      rw [h] at h1; cases h1; exact h2
    | false =>
      exfalso
      obtain ⟨t1, t2⟩ := tbl _ hs hsw
      have hm : makePkhAddress' E x true c = .error .valueError := by
        unfold makePkhAddress' segwitEncode Bech32.encode; rw [P.noP2pkh, t2, t1]; rfl
      have hlen : (p2wpkhScript x).length = 22 := by simp [p2wpkhScript, hx]
      unfold fromOutputScript at h
      rw [(netFacts hs).wsh, (netFacts hs).wpkh] at h
      simp only [] at h
      rw [if_neg (by rw [hlen]; simp), if_pos ⟨hlen, by simp [p2wpkhScript, startsWith]⟩] at h
      have : lastN (p2wpkhScript x) 20 = x := by unfold lastN; rw [hlen]; rfl
      rw [this, hm] at h
      cases h
  · cases hsw : E.net.segwit with
    | true =>
      obtain ⟨a', h1, h2⟩ := C28_p2wsh E hs hH hsw x hx c
      rw [h] at h1; cases h1; exact h2
    | false =>
      exfalso
      obtain ⟨t1, t2⟩ := tbl _ hs hsw
      have hm : hashToShAddress E x true c = .error .valueError := by
        unfold hashToShAddress segwitEncode Bech32.encode; rw [P.noP2sh, t2, t1]; rfl
      have hlen : (p2wshScript x).length = 34 := by simp [p2wshScript, hx]
      unfold fromOutputScript at h
      rw [(netFacts hs).wsh, (netFacts hs).wpkh] at h
      simp only [] at h
      rw [if_pos ⟨hlen, by simp [p2wshScript, startsWith]⟩] at h
      have : lastN (p2wshScript x) 32 = x := by unfold lastN; rw [hlen]; rfl
      rw [this, hm] at h
      cases h

/-- **C85** fails: the two bytes after a key hash, or the byte after a script hash, are not looked at. Every such script that is not the
template is given the address of another script. -/
theorem C85_false (E : Env) (hs : E.net.Supported) (hH : E.H.LengthOK) (x y : Bytes) (c : Bool) (hx : x.length = 20) :
    (y.length = 2 → y ≠ [0x88, 0xac] → ∃ a, fromOutputScript E ([0x76, 0xa9, 0x14] ++ x ++ y) c = .ok (some a) ∧
      toOutputScript E a = .ok (p2pkhScript x) ∧ p2pkhScript x ≠ [0x76, 0xa9, 0x14] ++ x ++ y) ∧
    (y.length = 1 → y ≠ [0x87] → ∃ a, fromOutputScript E ([0xa9, 0x14] ++ x ++ y) c = .ok (some a) ∧
      toOutputScript E a = .ok (p2shScript x) ∧ p2shScript x ≠ [0xa9, 0x14] ++ x ++ y) := by
  constructor
  · intro hy hne
    obtain ⟨a, h1, h2⟩ := pkh_script E hs hH x hx c
    refine ⟨a, by rw [from_p2pkh_like (netFacts hs) hx hy]; exact h1, h2, fun he => hne ?_⟩
    exact ((List.append_inj he (by simp)).2).symm
  · intro hy hne
    obtain ⟨a, h1, h2⟩ := sh_script E hs hH x hx c
    refine ⟨a, by rw [from_p2sh_like (netFacts hs) hx hy]; exact h1, h2, fun he => hne ?_⟩
    exact ((List.append_inj he (by simp)).2).symm

/-! ### C86 -/

/-- **C86** for Base58Check addresses: what the address of a hash means on another network is decided by the version bytes alone. -/
theorem C86_base58 (A B : Network) (hA : A.Supported) (hB : B.Supported) (H : Hashes) (hH : H.LengthOK)
    (hd : A.isDecred = B.isDecred) (h : Bytes) (hl : h.length = 20) :
    (∃ a, makePkhAddress' ⟨A, H⟩ h false false = .ok (some a) ∧
      toOutputScript ⟨B, H⟩ a = if A.p2pkhPrefix = B.p2pkhPrefix ∨ B.cashaddrP2pkh = some A.p2pkhPrefix then .ok (p2pkhScript h)
        else if A.p2pkhPrefix = B.p2shPrefix then .ok (p2shScript h) else .error .valueError) ∧
    (∃ a, hashToShAddress ⟨A, H⟩ h false false = .ok (some a) ∧
      toOutputScript ⟨B, H⟩ a = if A.p2shPrefix = B.p2shPrefix then .ok (p2shScript h)
        else if A.p2shPrefix = B.p2pkhPrefix then .ok (p2pkhScript h) else .error .valueError) := by
  have tbl : ∀ net : Network, net.Supported → net.p2pkhPrefix ≠ [8] ∧ net.p2shPrefix ≠ [8] ∧ net.p2shPrefix ≠ [0] := by
    unfold Network.Supported; decide +kernel
  obtain ⟨t1, t2, t3⟩ := tbl A hA
  have FA := netFacts hA
  have F := netFacts hB
  have hdec : ∀ a d, Base58.decode ⟨A, H⟩ a = .ok d → Base58.decode ⟨B, H⟩ a = .ok d := by
    intro a d ha
    have hh : ∀ m, (⟨B, H⟩ : Env).hash256 m = (⟨A, H⟩ : Env).hash256 m := fun m => by simp only [Env.hash256, hd]
    rw [decode_check_eq] at ha ⊢
    rw [hh]; exact ha
  have out : ∀ p : Bytes, p.length = 1 ∨ p.length = 2 → p ≠ [0, 20] → p ≠ [8] → outScript B (p ++ h) =
      if p = B.p2pkhPrefix ∨ B.cashaddrP2pkh = some p then .ok (p2pkhScript h)
        else if p = B.p2shPrefix then .ok (p2shScript h) else .error .valueError := by
    intro p hp hp20 hp8
    split
    · next hc =>
      rcases hc with rfl | hc
      · exact outScript_p2pkh F hl
      · rcases F.cash with C | C
        · rw [C.noP2pkh] at hc; cases hc
        · rw [C.p2pkh] at hc; cases hc; exact outScript_cash_p2pkh F C hl
    · next hc =>
      split
      · next hc2 => rw [hc2]; exact outScript_p2sh F hl
      · next hc2 =>
        cases ho : outScript B (p ++ h) with
        | error e => rw [outScript_error ho]
        | ok s =>
          exfalso
          rcases outScript_ok F ho with ⟨e, x, ⟨hx, h'⟩ | ⟨hx, h'⟩⟩ | ⟨q, x, hx, e, ⟨h', hq⟩ | ⟨h', hq⟩⟩
          · exact hp20 (List.append_inj' (e.trans h') (by rw [hl, hx])).1
          · have := congrArg List.length (e.trans h')
            simp [p2wshScript, hl, hx] at this
            omega
          · obtain ⟨rfl, -⟩ := List.append_inj' e (by rw [hl, hx])
            exact hc hq
          · obtain ⟨rfl, -⟩ := List.append_inj' e (by rw [hl, hx])
            rcases hq with hq | hq
            · exact hc2 hq
            · rcases F.cash with C | C
              · rw [C.noP2sh] at hq; cases hq
              · rw [C.p2sh] at hq; cases hq; exact hp8 rfl
  constructor
  · obtain ⟨a, h1, h2, -⟩ := C16_roundtrip ⟨A, H⟩ hH (A.p2pkhPrefix ++ h) true
    refine ⟨a, ?_, ?_⟩
    · unfold makePkhAddress'
      cases A.cashaddrP2pkh <;> simp only [Bool.false_eq_true, if_false, h1] <;> rfl
    · rw [toOutputScript_eq, parse_base58 (hdec _ _ h2), ok_bind]
      exact out _ FA.len12 FA.ne1 t1
  · obtain ⟨a, h1, h2, -⟩ := C16_roundtrip ⟨A, H⟩ hH (A.p2shPrefix ++ h) true
    refine ⟨a, ?_, ?_⟩
    · unfold hashToShAddress
      cases A.cashaddrP2sh <;> simp only [Bool.false_eq_true, if_false, h1] <;> rfl
    · rw [toOutputScript_eq, parse_base58 (hdec _ _ h2), ok_bind]
      refine (out _ (by rw [FA.len]; exact FA.len12) FA.ne2 t2).trans ?_
      have hc : B.cashaddrP2pkh ≠ some A.p2shPrefix := by
        intro hc
        rcases F.cash with C | C
        · rw [C.noP2pkh] at hc; cases hc
        · rw [C.p2pkh] at hc; exact t3 (Option.some.inj hc).symm
      have hne := F.ne
      by_cases c1 : A.p2shPrefix = B.p2shPrefix
      · rw [if_pos c1, if_neg (by rintro (h | h); exacts [hne (h.symm.trans c1), hc h]), if_pos c1]
      · by_cases c2 : A.p2shPrefix = B.p2pkhPrefix
        · rw [if_pos (.inl c2), if_neg c1, if_pos c2]
        · rw [if_neg c1, if_neg c2, if_neg (by tauto), if_neg c1]

/-- **C86** for Bech32 addresses: on another network they pay to the same script if the human-readable part is the same, or to nothing. -/
theorem C86_bech32 (A B : Network) (hA : A.Supported) (hB : B.Supported) (H : Hashes) (hH : H.LengthOK) (hsw : A.segwit = true)
    (henc : A.segwitEncoder = .bech32) (l : UInt8) (h : Bytes) (hl : h.length = l.toNat) (hl2 : l = 20 ∨ l = 32) :
    ∃ a, segwitEncode ⟨A, H⟩ ([0, l] ++ h) = .ok (some a) ∧
      ((toOutputScript ⟨B, H⟩ a = .ok ([0, l] ++ h) ∧ B.segwitEncoder = .bech32 ∧ B.bech32Hrp = A.bech32Hrp) ∨
        (toOutputScript ⟨B, H⟩ a = .error .valueError ∧
          ((∃ d, Base58.decode ⟨B, H⟩ a = .ok d) ∨ B.segwitEncoder ≠ .bech32 ∨ B.bech32Hrp ≠ A.bech32Hrp))) := by
  obtain ⟨hrp, hh, hlen, hne⟩ := segwit_hrp hA hsw henc
  have tblc : ∀ net : Network, net.Supported → ∀ x, net.bech32Hrp = some x → ':' ∉ x := by
    have : ∀ net : Network, net.Supported → ':' ∉ net.bech32Hrp.getD [] := by unfold Network.Supported; decide +kernel
    intro net hs x hx
    have := this net hs
    rw [hx] at this; exact this
  have hleg : LegalProgram (0 : UInt8).toNat h.length := by rw [hl]; rcases hl2 with rfl | rfl <;> decide
  obtain ⟨a, h1, h2, h3⟩ := C21_roundtrip A hA hrp hh 0 h hleg
  have hlb : UInt8.ofNat h.length = l := by rw [hl]; exact UInt8.ofNat_toNat
  rw [hlb] at h1 h2
  refine ⟨a, by unfold segwitEncode; simp only [henc]; exact h1, ?_⟩
  have ha : 42 ≤ a.length ∧ ':' ∉ a := by
    have h1' := h1
    rw [Bech32.encode_iff hA hh] at h1'
    obtain ⟨v, rest, r, he, hreg, hleg, rfl⟩ := h1'
    have hr := Bech32.regroup_length hreg
    simp only [List.cons.injEq] at he
    obtain ⟨rfl, rfl⟩ := he
    simp only [List.drop_succ_cons, List.drop_zero, List.length_map] at hr
    constructor
    · unfold Bech32.addrStr
      simp only [List.length_append, List.length_cons, List.length_map, Bech32.createChecksum_length, hr]
      rcases hl2 with rfl | rfl
      · simp at hl; omega
      · simp at hl; omega
    · have hsym : ∀ d, Bech32.symC d ≠ ':' := by
        intro d
        by_cases hd : d < 32
        · have : ∀ d < 32, Bech32.symC d ≠ ':' := by decide +kernel
          exact this d hd
        · unfold Bech32.symC
          have hn : Bech32.CHARSET[d]? = none := List.getElem?_eq_none (by
            have : Bech32.CHARSET.length = 32 := by decide
            omega)
          rw [List.getD_eq_getElem?_getD, hn]
          decide
      unfold Bech32.addrStr
      simp only [List.mem_append, List.mem_cons, List.mem_map, not_or]
      refine ⟨tblc A hA _ hh, by decide, ?_⟩
      rintro ⟨d, -, hd⟩
      exact hsym d hd
  have hhead : a.head? ≠ some '1' := by
    obtain ⟨t, rfl⟩ := h3
    cases hrp with
    | nil => simp at hlen
    | cons c cs => simpa using hne
  rcases b58_cases ⟨B, H⟩ a with ⟨d, hd⟩ | hd
  · right
    refine ⟨?_, .inl ⟨d, hd⟩⟩
    have hb := (C18_accepts_iff ⟨B, H⟩ hH a d).1 hd
    have := base58_long hb ha.1 hhead
    have h4 : (((⟨B, H⟩ : Env).hash256 d).take 4).length = 4 := by simp [Env.hash256_length ⟨B, H⟩ hH]
    rw [toOutputScript_eq, parse_base58 hd, ok_bind]
    apply outScript_long (netFacts hB)
    · have := this.1; rw [List.length_append] at this; omega
    · have h5 := this.2
      cases d with
      | nil => simp
      | cons x xs => simpa using h5
  · have hcash : ∃ e, Cashaddr.decode B a = .error e := by
      cases hc : Cashaddr.decode B a with
      | error e => exact ⟨e, rfl⟩
      | ok d =>
        obtain ⟨pre, more, q, -, hq, -⟩ := C26_partial B hB a d hc
        exact absurd (by rw [hq]; simp) ha.2
    obtain ⟨e, he⟩ := hcash
    have none : ∀ e', segwitDecode ⟨B, H⟩ a = .error e' → toOutputScript ⟨B, H⟩ a = .error .valueError := by
      intro e' he'
      rw [toOutputScript_eq, parse_not_base58 hd, he']
      simp only [tryCatchPy, he]
      rfl
    cases hB2 : B.segwitEncoder with
    | base58 =>
      right
      exact ⟨none .valueError (by unfold segwitDecode; simp only [hB2]; exact hd), .inr (.inl (by simp))⟩
    | bech32 =>
      by_cases hBA : B.bech32Hrp = A.bech32Hrp
      · left
        have h2' : segwitDecode ⟨B, H⟩ a = .ok ([0, l] ++ h) := by
          unfold segwitDecode; simp only [hB2]
          unfold Bech32.decode at h2 ⊢
          rw [hBA]; exact h2
        refine ⟨?_, rfl, hBA⟩
        rw [toOutputScript_eq, parse_segwit hd h2', ok_bind]
        rcases hl2 with rfl | rfl
        · exact outScript_wpkh (netFacts hB) hl
        · exact outScript_wsh (netFacts hB) hl
      · right
        refine ⟨?_, .inr (.inr hBA)⟩
        cases hdec : segwitDecode ⟨B, H⟩ a with
        | error e' => exact none e' hdec
        | ok d =>
          exfalso
          unfold segwitDecode at hdec
          simp only [hB2] at hdec
          cases hBh : B.bech32Hrp with
          | none => simp [Bech32.decode, hBh] at hdec
          | some hrp' =>
            obtain ⟨v, prog, r, -, e1, -⟩ := (Bech32.decode_iff hBh a d).1 hdec
            obtain ⟨v', prog', r', -, e2, -⟩ := (Bech32.decode_iff hh a _).1 h2
            rw [e1] at e2
            cases e2
            exact hBA (hBh.trans hh.symm)

/-- **C86** for cashaddr addresses: on another network they pay to the same script if the prefix is the same, and to nothing otherwise. -/
theorem C86_cashaddr (A B : Network) (hA : A.Supported) (hB : B.Supported) (H : Hashes) (hc : A.cashaddrPrefix.isSome) (h : Bytes)
    (hl : h.length = 20) :
    (∃ a, makePkhAddress' ⟨A, H⟩ h false true = .ok (some a) ∧
      toOutputScript ⟨B, H⟩ a = if B.cashaddrPrefix = A.cashaddrPrefix then .ok (p2pkhScript h) else .error .valueError) ∧
    (∃ a, hashToShAddress ⟨A, H⟩ h false true = .ok (some a) ∧
      toOutputScript ⟨B, H⟩ a = if B.cashaddrPrefix = A.cashaddrPrefix then .ok (p2shScript h) else .error .valueError) := by
  have FA := netFacts hA
  have FB := netFacts hB
  obtain ⟨pre, hp⟩ := Option.isSome_iff_exists.1 hc
  have CA : CashNet A := by
    rcases FA.cash with C | C
    · rw [C.noPrefix] at hc; cases hc
    · exact C
  have tbl : ∀ net : Network, net.Supported → ∀ x, net.cashaddrPrefix = some x →
      7 ≤ x.length ∧ '1' ∉ x ∧ ':' ∉ x ∧ lowerCased x = x ∧ (x = pystr "bitcoincash" ∨ x = pystr "bchtest") := by
    have key : ∀ net : Network, net.Supported → net.cashaddrPrefix = none ∨ net.cashaddrPrefix = some (pystr "bitcoincash") ∨
        net.cashaddrPrefix = some (pystr "bchtest") := by unfold Network.Supported; decide +kernel
    intro net hs x hx
    rcases key net hs with h | h | h <;> rw [hx] at h <;> cases h <;> decide
  obtain ⟨k1, k2, k3, k4, k5⟩ := tbl A hA pre hp
  have main : ∀ (v : UInt8) (s : Bytes), (∀ C : CashNet B, outScript B ([v] ++ h) = .ok s) →
      ∃ a, Cashaddr.encode A ([v] ++ h) = .ok a ∧
        toOutputScript ⟨B, H⟩ a = if B.cashaddrPrefix = A.cashaddrPrefix then .ok s else .error .valueError := by
    intro v s hout
    obtain ⟨a, h1, h2, h3⟩ := C24_behaviour A hA pre hp ([v] ++ h)
    rw [if_neg (by simp [hl])] at h3
    refine ⟨a, h1, ?_⟩
    have hcol : ':' ∈ a := by obtain ⟨t, rfl⟩ := h2; simp
    have hseg : ∃ e, segwitDecode ⟨B, H⟩ a = .error e := by
      cases hd : segwitDecode ⟨B, H⟩ a with
      | error e => exact ⟨e, rfl⟩
      | ok d =>
        exfalso
        unfold segwitDecode at hd
        cases hB2 : B.segwitEncoder with
        | base58 =>
          simp only [hB2] at hd
          rw [base58_no_colon hcol] at hd; cases hd
        | bech32 =>
          simp only [hB2] at hd
          obtain ⟨-, -, hrp, hh, hpre⟩ := C22_canonical B hB a d hd
          have h2' : (pre ++ [':']) <+: lowerCased a := by
            obtain ⟨t, rfl⟩ := h2
            refine ⟨lowerCased t, ?_⟩
            have k4' := k4
            simp only [lowerCased, List.map_append] at k4' ⊢
            rw [k4']
            rfl
          have hlen : hrp.length ≤ 5 := by
            have key : ∀ net : Network, net.Supported → ∀ hrp ∈ net.bech32Hrp, hrp.length ≤ 5 := by
              unfold Network.Supported; decide +kernel
            exact key B hB hrp hh
          rcases List.prefix_or_prefix_of_prefix hpre h2' with hx | hx
          · obtain ⟨t, ht⟩ := hx
            have : '1' ∈ pre ++ [':'] := by rw [← ht]; simp
            simp [k2] at this
          · have := hx.length_le
            simp at this
            omega
    obtain ⟨e, he⟩ := hseg
    have hparse : parse ⟨B, H⟩ a = tryCatchPy (Cashaddr.decode B a) (fun _ => true) (.error .valueError) := by
      rw [parse_not_base58 (base58_no_colon hcol), he]; rfl
    rw [toOutputScript_eq, hparse]
    split
    · next hBA =>
      have hdec : Cashaddr.decode B a = .ok ([v] ++ h) := by
        unfold Cashaddr.decode at h3 ⊢
        rw [hBA]; exact h3
      have CB : CashNet B := by
        rcases FB.cash with C | C
        · rw [← hBA, C.noPrefix] at hc; cases hc
        · exact C
      rw [hdec]
      exact hout CB
    · next hBA =>
      cases hdec : Cashaddr.decode B a with
      | error e => rfl
      | ok d =>
        exfalso
        obtain ⟨pre', more, q, hp', hq, hno, -⟩ := C26_partial B hB a d hdec
        obtain ⟨t, rfl⟩ := h2
        have e1 : pre ++ ':' :: t = (pre' ++ more) ++ ':' :: q := by rw [← hq]; simp
        obtain ⟨e2, -⟩ := split_unique k3 hno e1
        obtain ⟨-, -, -, -, k6⟩ := tbl B hB pre' hp'
        apply hBA
        rw [hp', hp]
        congr 1
        rcases k5 with rfl | rfl <;> rcases k6 with rfl | rfl
        · rfl
        · exact absurd (congrArg (List.take 2) e2) (by simp)
        · exact absurd (congrArg (List.take 2) e2) (by simp)
        · rfl
  constructor
  · obtain ⟨a, h1, h2⟩ := main 0 (p2pkhScript h) (fun C => outScript_cash_p2pkh FB C hl)
    exact ⟨a, by unfold makePkhAddress'; simp only [CA.p2pkh, h1]; rfl, h2⟩
  · obtain ⟨a, h1, h2⟩ := main 8 (p2shScript h) (fun C => outScript_cash_p2sh FB C hl)
    exact ⟨a, by unfold hashToShAddress; simp only [CA.p2sh, h1]; rfl, h2⟩

/-- **C86** for witness addresses in Base58Check (Groestlcoin and others): every network but Decred's takes them for witness outputs,
whether it has any or not. -/
theorem C86_base58_witness_false (A B : Network) (hA : A.Supported) (hB : B.Supported) (H : Hashes) (hH : H.LengthOK)
    (henc : A.segwitEncoder = .base58) (hd : B.isDecred = false) (h : Bytes) (hl : h.length = 20) :
    ∃ a, makePkhAddress' ⟨A, H⟩ h true true = .ok (some a) ∧ toOutputScript ⟨B, H⟩ a = .ok (p2wpkhScript h) := by
  have tbl : ∀ net : Network, net.Supported → net.segwitEncoder = .base58 → net.isDecred = false ∧ net.segwit = true := by
    unfold Network.Supported; decide +kernel
  obtain ⟨a, h1, h2, -⟩ := C16_roundtrip ⟨A, H⟩ hH ([0, 20] ++ h) true
  refine ⟨a, ?_, ?_⟩
  · rw [wpkh_make ⟨A, H⟩ hA (tbl A hA henc).2]; unfold segwitEncode; simp only [henc]; rw [h1]; rfl
  · have h2' : Base58.decode ⟨B, H⟩ a = .ok ([0, 20] ++ h) := by
      have hh : ∀ m, (⟨B, H⟩ : Env).hash256 m = (⟨A, H⟩ : Env).hash256 m := fun m => by simp only [Env.hash256, hd, (tbl A hA henc).1]
      rw [decode_check_eq] at h2 ⊢
      rw [hh]; exact h2
    rw [toOutputScript_eq, parse_base58 h2', ok_bind]
    exact outScript_wpkh (netFacts hB) hl

/-- **C86** fails: a Monacoin key address pays to a script hash on Litecoin, for every hash. -/
theorem C86_kind_false (H : Hashes) (hH : H.LengthOK) (h : Bytes) (hl : h.length = 20) :
    ∃ a, makePkhAddress' ⟨monacoinMain, H⟩ h false false = .ok (some a) ∧ toOutputScript ⟨litecoinMain, H⟩ a = .ok (p2shScript h) := by
  obtain ⟨a, h1, h2⟩ := (C86_base58 monacoinMain litecoinMain (by unfold Network.Supported; decide +kernel)
    (by unfold Network.Supported; decide +kernel) H hH (by decide) h hl).1
  refine ⟨a, h1, h2.trans ?_⟩
  rw [if_neg (by decide), if_pos (by decide)]

/-- **C86**, as far as it holds: where no version byte has two meanings, a Base58Check address of a key or script pays on another network to
the same kind of script of the same hash, or to nothing. -/
theorem C86_kind_partial (A B : Network) (hA : A.Supported) (hB : B.Supported) (H : Hashes) (hH : H.LengthOK)
    (hd : A.isDecred = B.isDecred) (h1 : A.p2pkhPrefix ≠ B.p2shPrefix) (h2 : A.p2shPrefix ≠ B.p2pkhPrefix) (h : Bytes)
    (hl : h.length = 20) :
    (∃ a, makePkhAddress' ⟨A, H⟩ h false false = .ok (some a) ∧
      (toOutputScript ⟨B, H⟩ a = .ok (p2pkhScript h) ∨ toOutputScript ⟨B, H⟩ a = .error .valueError)) ∧
    (∃ a, hashToShAddress ⟨A, H⟩ h false false = .ok (some a) ∧
      (toOutputScript ⟨B, H⟩ a = .ok (p2shScript h) ∨ toOutputScript ⟨B, H⟩ a = .error .valueError)) := by
  obtain ⟨⟨a, a1, a2⟩, ⟨b, b1, b2⟩⟩ := C86_base58 A B hA hB H hH hd h hl
  rw [if_neg h1] at a2
  rw [if_neg h2] at b2
  refine ⟨⟨a, a1, ?_⟩, ⟨b, b1, ?_⟩⟩
  · rw [a2]; split <;> simp
  · rw [b2]; split <;> simp

example : bitcoinMain.Supported ∧ bitcoinTest.Supported ∧ bitcoinMain.isDecred = bitcoinTest.isDecred ∧
    bitcoinMain.p2pkhPrefix ≠ bitcoinTest.p2shPrefix ∧ bitcoinMain.p2shPrefix ≠ bitcoinTest.p2pkhPrefix ∧
    bitcoinMain.segwitEncoder = .bech32 ∧ bitcoinMain.segwit = true ∧ bitcoinCashTest.cashaddrPrefix.isSome ∧
    groestlcoinMain.segwitEncoder = .base58 ∧ bitcoinMain.cashaddrPrefix = none ∧
    fromOutputScript ⟨bitcoinMain, toyHashes⟩ (p2wpkhScript (List.replicate 20 7)) true =
      .ok (some (pystr "bc1qqurswpc8qurswpc8qurswpc8qurswpc89fe3yv")) :=
  ⟨by unfold Network.Supported; decide +kernel, by unfold Network.Supported; decide +kernel, by decide, by decide, by decide, rfl, rfl,
    rfl, rfl, rfl, by decide +kernel⟩

end Verif.Props
