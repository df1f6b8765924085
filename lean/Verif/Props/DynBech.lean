import Verif.Model.DynBech
import Verif.Props.DynUtils
import Verif.Props.Bch

/-! # C136: Bech32 and cashaddr functions with arguments of any type -/

namespace Verif.Props
open Verif Spec Dyn

/-- The elements of a sequence: those of bytes are numbers, those of text are characters. -/
def Elements (v : Val) (l : List Val) : Prop :=
  (∃ b, Byteslike v b ∧ l = b.map fun x => .int x.toNat) ∨ (∃ s, v = .str s ∧ l = s.map fun c => .str [c]) ∨ v = .list l ∨ v = .tuple l

theorem iter_iff {v : Val} {l : List Val} : v.iter = .ok l ↔ Elements v l := by
  unfold Elements Byteslike
  cases v <;> simp [Val.iter, Val.content, eq_comm]

theorem iter_error {v : Val} {e : PyErr} : v.iter = .error e ↔ e = .typeError ∧ (v = .none ∨ ∃ n, v = .int n) := by
  cases v <;> simp [Val.iter, eq_comm]

theorem digits8_some {l : List Val} {ds : List Nat} : Val.digits8 l = .ok (some ds) ↔ ∃ b : Bytes, l = b.map (fun x : UInt8 => Val.int x.toNat) ∧ ds = b.map UInt8.toNat := by
  induction l generalizing ds with
  | nil =>
    constructor
    · intro h; cases h; exact ⟨[], rfl, rfl⟩
    · rintro ⟨b, h, rfl⟩
      cases b with
      | nil => rfl
      | cons => cases h
  | cons v l ih =>
    constructor
    · intro h
      cases v with
      | int n =>
        unfold Val.digits8 at h
        split at h
        · cases h
        · next hn =>
          rw [not_or, not_not, Int.not_lt, Nat.shiftRight_eq_div_pow] at hn
          cases e : Val.digits8 l with
          | error e' => rw [e] at h; cases h
          | ok r =>
            rw [e, ok_bind] at h
            cases r with
            | none => cases h
            | some ds' =>
              obtain ⟨b, rfl, rfl⟩ := ih.1 e
              cases h
              have : n.toNat < 256 := by omega
              refine ⟨UInt8.ofNat n.toNat :: b, ?_, ?_⟩
              · simp [Nat.mod_eq_of_lt this]; omega
              · simp [Nat.mod_eq_of_lt this]
      | _ => cases h
    · rintro ⟨b, h, rfl⟩
      cases b with
      | nil => cases h
      | cons x b =>
        rw [List.map_cons, List.cons.injEq] at h
        obtain ⟨rfl, rfl⟩ := h
        have hx := UInt8.toNat_lt x
        rw [Val.digits8, if_neg (by rw [not_or, not_not, Int.toNat_natCast, Nat.shiftRight_eq_div_pow]; omega), (ih (ds := b.map UInt8.toNat)).2 ⟨b, rfl, rfl⟩]
        rfl

theorem digits8_error {l : List Val} {e : PyErr} (h : Val.digits8 l = .error e) : e = .typeError := by
  induction l with
  | nil => cases h
  | cons v l ih =>
    cases v with
    | int n =>
      unfold Val.digits8 at h
      split at h
      · cases h
      · cases e' : Val.digits8 l with
        | error e'' => rw [e'] at h; cases h; exact ih e'
        | ok r => rw [e'] at h; cases h
    | _ => cases h; rfl

/-- The checksum of a negative version does not fit the character it is given. -/
theorem negative_version {hrp : PyStr} (h1 : Bech32.lower hrp = hrp) {m : Nat} (hm : m < 32) {d : List Nat} (hd : Digits 5 d) {N : Nat} (hN : BitVec.ofNat 30 m ≠ BitVec.ofNat 30 N) :
    Bech32.segwitDecode hrp (hrp ++ pystr "1" ++ Bech32.symC m :: (d ++ Bech32.createChecksum hrp (N :: d)).map Bech32.symC) = none := by
  have hdc := Bech32.createChecksum_digits hrp (N :: d)
  have hv := Bech32.verify_create hrp (N :: d)
  generalize Bech32.createChecksum hrp (N :: d) = q at hdc hv ⊢
  have hda : Digits 5 (m :: d ++ q) := by
    intro x hx
    rcases List.mem_append.1 hx with h | h
    · rcases List.mem_cons.1 h with rfl | h
      · exact hm
      · exact hd x h
    · exact hdc x h
  have hs : hrp ++ pystr "1" ++ Bech32.symC m :: (d ++ q).map Bech32.symC = hrp ++ '1' :: (m :: d ++ q).map Bech32.symC := by simp
  rw [hs]
  have hlow : Bech32.lower (hrp ++ '1' :: (m :: d ++ q).map Bech32.symC) = hrp ++ '1' :: (m :: d ++ q).map Bech32.symC := by
    have h1' : hrp.map Bech32.lowerC = hrp := h1
    unfold Bech32.lower
    rw [List.map_append, h1', List.map_cons, List.map_map]
    congr 2
    exact List.map_congr_left fun x hx => (Bech32.symC_facts x (hda x hx)).2.2.2.1
  cases hp : Bech32.segwitDecode hrp (hrp ++ '1' :: (m :: d ++ q).map Bech32.symC) with
  | none => rfl
  | some r =>
    exfalso
    obtain ⟨v', prog⟩ := r
    rw [Bech32.segwitDecode_iff] at hp
    obtain ⟨d', hb, -, -⟩ := hp
    rw [Bech32.bech32Decode_iff] at hb
    obtain ⟨-, -, -, hd', hb⟩ := hb
    rw [hlow] at hb
    have hb' := (List.cons.inj (List.append_cancel_left hb)).2
    have hb2 := congrArg (List.map fun x => Bech32.CHARSET.idxOf x) hb'
    rw [Bech32.symC_map_inv hda, Bech32.symC_map_inv] at hb2
    · have hv' := Bech32.verify_create hrp (v' :: d')
      rw [← hb2] at hv'
      have := Bech32.run_verify_diff hrp _ _ (by simp) hv' hv
      refine LinCode.single_error Bech32.A_lin Bech32.A_inj _ ?_ this
      simp only [List.cons_append, List.map_cons, List.zipWith_cons_cons, LinCode.weight]
      rw [List.countP_cons, List.countP_eq_zero.2]
      · simp [hN]
      · intro x hx
        have hz : ∀ l : List (BitVec 30), ∀ x ∈ List.zipWith (· ^^^ ·) l l, x = 0#30 := by
          intro l
          induction l with
          | nil => simp
          | cons a l ih => simp only [List.zipWith_cons_cons, List.mem_cons, BitVec.xor_self]; rintro x (rfl | h)
                           · rfl
                           · exact ih x h
        simp [hz _ x hx]
    · intro x hx
      rcases List.mem_append.1 hx with h | h
      · exact hd' x h
      · exact Bech32.createChecksum_digits _ _ x h

/-- What `bech32.encode` does with a sequence, in terms of what it does with bytes. -/
theorem bech32Encode_cases {net : Network} (hs : net.Supported) {hrp : PyStr} (hh : net.bech32Hrp = some hrp) {v : Val} {l : List Val} (hl : Elements v l) :
    (l = [] → Val.bech32Encode net v = .error .indexError) ∧
    (∀ n (p : Bytes), l.head? = some (.int n) → l.drop 2 = p.map (fun x : UInt8 => Val.int x.toNat) →
      (n < -32 ∨ 32 ≤ n → Val.bech32Encode net v = .error .indexError) ∧ (-32 ≤ n → n < 0 → Val.bech32Encode net v = .ok none) ∧
      (0 ≤ n → n < 32 → Val.bech32Encode net v = Bech32.encode net (UInt8.ofNat n.toNat :: 0 :: p))) ∧
    (l ≠ [] → (¬ ∃ n, ∃ p : Bytes, l.head? = some (.int n) ∧ l.drop 2 = p.map (fun x : UInt8 => Val.int x.toNat)) → Val.bech32Encode net v = .error .typeError) := by
  have hi := iter_iff.2 hl
  have hcl : Bech32.CHARSET.length = 32 := by decide
  refine ⟨?_, ?_, ?_⟩
  · rintro rfl
    unfold Val.bech32Encode
    rw [hh]
    simp only [hi, ok_bind]
    rfl
  · intro n p h0 h2
    cases l with
    | nil => cases h0
    | cons w rest =>
    cases h0
    obtain ⟨d, hd, hreg⟩ := convertbits_pad (f := 8) (t := 5) (by omega) (p.map UInt8.toNat) (Bech32.bytes_digits _)
    have e : Val.bech32Encode net v = (Val.bech32EncodeFrom hrp n d).bind fun ret =>
        match Bech32.segwitDecode hrp ret with | none => .ok none | some _ => .ok (some ret) := by
      unfold Val.bech32Encode
      rw [hh]
      simp only [hi, ok_bind, h2, digits8_some.2 ⟨p, rfl, rfl⟩, hd, getNat, List.getElem?_cons_zero]
      rfl
    have hdc := Bech32.createChecksum_digits hrp ((n % 2 ^ 30).toNat :: d)
    have hda : Digits 5 (d ++ Bech32.createChecksum hrp ((n % 2 ^ 30).toNat :: d)) := by
      intro x hx
      rcases List.mem_append.1 hx with h | h
      · exact hreg.2.1 x h
      · exact hdc x h
    have hj := Bech32.charsetJoin_eq hda
    have hget : ∀ m : Nat, m < 32 → (n = m ∨ n = (m : Int) - 32) → getItem Bech32.CHARSET n = .ok (Bech32.symC m) := by
      intro m hm hn
      have hp : pyIndex n Bech32.CHARSET.length = some m := by
        rw [hcl]; unfold pyIndex; rcases hn with rfl | rfl
        · simp; omega
        · simp; omega
      unfold getItem
      rw [hp]
      simp only [(Bech32.symC_facts m hm).1]
    refine ⟨?_, ?_, ?_⟩
    · intro hn
      have hp : pyIndex n Bech32.CHARSET.length = none := by
        rw [hcl]; unfold pyIndex
        rcases hn with h | h
        · rw [if_neg (by omega), if_neg (by omega)]
        · rw [if_pos (by omega), if_neg (by omega)]
      rw [e]
      unfold Val.bech32EncodeFrom getItem
      rw [hp]
      rfl
    · intro h1 h3
      obtain ⟨m, rfl⟩ : ∃ m : Nat, n = (m : Int) - 32 := ⟨(n + 32).toNat, by omega⟩
      have hm : m < 32 := by omega
      rw [e]
      unfold Val.bech32EncodeFrom
      rw [hget m hm (.inr rfl), ok_bind, hj, ok_bind]
      simp only [Except.bind]
      rw [negative_version (Bech32.encode_hrp hs hh).2.2.2 hm hreg.2.1]
      intro hc
      have := congrArg BitVec.toNat hc
      rw [BitVec.toNat_ofNat, BitVec.toNat_ofNat] at this
      omega
    · intro h1 h3
      obtain ⟨m, rfl⟩ : ∃ m : Nat, n = m := ⟨n.toNat, by omega⟩
      have hm : m < 32 := by omega
      rw [e]
      unfold Val.bech32EncodeFrom
      rw [hget m hm (.inl rfl), ok_bind, hj, ok_bind]
      unfold Bech32.encode
      rw [hh]
      simp only [getNat, List.getElem?_cons_zero, ok_bind, List.drop_succ_cons, List.drop_zero, Bech32.segwitEncode, hd]
      have e1 : (UInt8.ofNat (m : Int).toNat).toNat = m := by simp; omega
      have e2 : ((m : Int) % 2 ^ 30).toNat = m := by omega
      rw [e1, e2, List.singleton_append, Bech32.bech32Encode_eq]
      · simp [Bech32.addrStr]; rfl
      · intro x hx
        rcases List.mem_cons.1 hx with rfl | h
        · exact hm
        · exact hreg.2.1 x h
  · intro hne hno
    cases l with
    | nil => exact absurd rfl hne
    | cons w rest =>
    unfold Val.bech32Encode
    rw [hh]
    simp only [hi, ok_bind, getNat, List.getElem?_cons_zero]
    cases e : Val.digits8 ((w :: rest).drop 2) with
    | error e' => rw [digits8_error e]; rfl
    | ok r =>
      rw [ok_bind]
      cases r with
      | none => rfl
      | some ds =>
        obtain ⟨p, hp, rfl⟩ := digits8_some.1 e
        obtain ⟨d, hd, -⟩ := convertbits_pad (f := 8) (t := 5) (by omega) (p.map UInt8.toNat) (Bech32.bytes_digits _)
        simp only [hd]
        cases w with
        | int n => exact absurd ⟨n, p, rfl, hp⟩ hno
        | _ => rfl

/-- The sequence begins with the number `n` and, after one element that is not looked at, continues with the octets `p`. -/
def Versioned (v : Val) (n : Int) (p : Bytes) : Prop :=
  ∃ l, Elements v l ∧ l.head? = some (.int n) ∧ l.drop 2 = p.map fun x => .int x.toNat

theorem elements_unique {v : Val} {l l' : List Val} (h : Elements v l) (h' : Elements v l') : l = l' := by
  have h := iter_iff.2 h
  rw [iter_iff.2 h'] at h
  exact (Except.ok.inj h).symm

/-- Every value falls under one of these cases. -/
theorem bech32Encode_split {net : Network} (hs : net.Supported) {hrp : PyStr} (hh : net.bech32Hrp = some hrp) (v : Val) :
    (Elements v [] ∧ Val.bech32Encode net v = .error .indexError) ∨
    (∃ n p, Versioned v n p ∧ (∀ n' p', Versioned v n' p' → n' = n ∧ p' = p) ∧ ¬ Elements v [] ∧ ((n < -32 ∨ 32 ≤ n) ∧ Val.bech32Encode net v = .error .indexError ∨
      -32 ≤ n ∧ n < 0 ∧ Val.bech32Encode net v = .ok none ∨
      0 ≤ n ∧ n < 32 ∧ Val.bech32Encode net v = Bech32.encode net (UInt8.ofNat n.toNat :: 0 :: p))) ∨
    (¬ Elements v [] ∧ (¬ ∃ n p, Versioned v n p) ∧ Val.bech32Encode net v = .error .typeError) := by
  cases hi : v.iter with
  | error e =>
    have he := (iter_error.1 hi).1
    subst he
    have hno : ∀ l, ¬ Elements v l := by
      intro l h
      have h := iter_iff.2 h
      rw [hi] at h; cases h
    refine .inr (.inr ⟨hno _, ?_, ?_⟩)
    · rintro ⟨n, p, l, h, -⟩
      exact hno l h
    · unfold Val.bech32Encode
      rw [hh]
      simp only [hi]
      rfl
  | ok l =>
    have hl := iter_iff.1 hi
    obtain ⟨h1, h2, h3⟩ := bech32Encode_cases hs hh hl
    by_cases hne : l = []
    · subst hne; exact .inl ⟨hl, h1 rfl⟩
    have hne' : ¬ Elements v [] := fun h => hne (elements_unique hl h)
    by_cases hv : ∃ n, ∃ p : Bytes, l.head? = some (.int n) ∧ l.drop 2 = p.map (fun x : UInt8 => Val.int x.toNat)
    · obtain ⟨n, p, ha, hb⟩ := hv
      refine .inr (.inl ⟨n, p, ⟨l, hl, ha, hb⟩, ?_, hne', ?_⟩)
      · rintro n' p' ⟨l', hl', ha', hb'⟩
        obtain rfl := elements_unique hl hl'
        rw [ha] at ha'
        rw [hb] at hb'
        refine ⟨by cases ha'; rfl, ?_⟩
        refine (List.map_injective_iff.2 ?_ hb').symm
        intro x y hxy
        simp only [Val.int.injEq, Int.natCast_inj] at hxy
        exact UInt8.toNat_inj.1 hxy
      · obtain ⟨a, b, c⟩ := h2 n p ha hb
        rcases lt_or_ge n (-32) with h | h
        · exact .inl ⟨.inl h, a (.inl h)⟩
        rcases lt_or_ge n 0 with h' | h'
        · exact .inr (.inl ⟨h, h', b h h'⟩)
        rcases lt_or_ge n 32 with h'' | h''
        · exact .inr (.inr ⟨h', h'', c h' h''⟩)
        · exact .inl ⟨.inr h'', a (.inr h'')⟩
    · refine .inr (.inr ⟨hne', ?_, h3 hne hv⟩)
      rintro ⟨n, p, l', hl', ha, hb⟩
      obtain rfl := elements_unique hl hl'
      exact hv ⟨n, p, ha, hb⟩

theorem second_byte {net : Network} (hs : net.Supported) {hrp : PyStr} (hh : net.bech32Hrp = some hrp) (w x y : UInt8) (p : Bytes) (s : PyStr)
    (h : Bech32.encode net (w :: x :: p) = .ok (some s)) : Bech32.encode net (w :: y :: p) = .ok (some s) := by
  obtain ⟨v, rest, r, e, h1, h2, h3⟩ := (Bech32.encode_iff hs hh _ _).1 h
  cases e
  exact (Bech32.encode_iff hs hh _ _).2 ⟨w, y :: p, r, rfl, h1, h2, h3⟩

theorem encode_address {net : Network} (hs : net.Supported) {hrp : PyStr} (hh : net.bech32Hrp = some hrp) (w : Nat) (hw : w < 32) (p : Bytes) (s : PyStr) :
    Bech32.encode net (UInt8.ofNat w :: 0 :: p) = .ok (some s) ↔ IsSegwitAddress hrp w p s ∧ lowerCased s = s := by
  have e1 : (UInt8.ofNat w).toNat = w := by simp; omega
  constructor
  · intro h
    obtain ⟨v, prog, hv, hp, hleg, hd⟩ := C21_only_legal net hs _ _ h
    cases hv; cases hp
    obtain ⟨v', prog', ha, he⟩ := (C110_decode net hs hrp hh _ _).1 hd
    simp only [List.drop_succ_cons, List.drop_zero, List.cons.injEq] at he
    obtain ⟨e, -, rfl⟩ := he
    have : v' = w := by
      have h16 := ha.2.2.1.1
      have := congrArg UInt8.toNat e
      rw [e1] at this
      simp at this
      omega
    subst this
    refine ⟨ha, ?_⟩
    have hc := (C22_canonical net hs s _ hd).2.1
    rw [show (UInt8.ofNat v' :: 0 :: p).drop 2 = p from rfl, second_byte hs hh _ _ _ _ _ h] at hc
    simpa using hc.symm
  · rintro ⟨ha, hl⟩
    have hd := (C110_decode net hs hrp hh s _).2 ⟨w, p, ha, rfl⟩
    have hc := (C22_canonical net hs s _ hd).2.1
    rw [hl] at hc
    exact second_byte hs hh _ _ _ _ _ hc

theorem encode_total {net : Network} (hs : net.Supported) {hrp : PyStr} (hh : net.bech32Hrp = some hrp) (w : Nat) (hw : w < 32) (p : Bytes) :
    (∃ s, Bech32.encode net (UInt8.ofNat w :: 0 :: p) = .ok (some s)) ∧ LegalProgram w p.length ∨
    Bech32.encode net (UInt8.ofNat w :: 0 :: p) = .ok none ∧ ¬ LegalProgram w p.length := by
  have e1 : (UInt8.ofNat w).toNat = w := by simp; omega
  by_cases hl : LegalProgram w p.length
  · obtain ⟨s, h, -⟩ := C21_roundtrip net hs hrp hh (UInt8.ofNat w) p (by rwa [e1])
    exact .inl ⟨⟨s, second_byte hs hh _ _ _ _ _ h⟩, hl⟩
  · refine .inr ⟨(((C21_refusals net hs hrp hh).2 _ _).2).2 ⟨by omega, by rw [e1]; exact hl⟩, hl⟩

/-- C136: `bech32.encode` gives exactly the lower-case BIP 173 addresses: of a bytes-like value, a list or a tuple that begins with the version and has the program from the third
element on (the second element is never looked at). -/
theorem C136_bech32_encode (net : Network) (hs : net.Supported) (hrp : PyStr) (hh : net.bech32Hrp = some hrp) (v : Val) (s : PyStr) :
    Val.bech32Encode net v = .ok (some s) ↔ ∃ w p, Versioned v (w : Nat) p ∧ IsSegwitAddress hrp w p s ∧ lowerCased s = s := by
  rcases bech32Encode_split hs hh v with ⟨h, e⟩ | ⟨n, p, h, hu, h0, ⟨hn, e⟩ | ⟨h1, h2, e⟩ | ⟨h1, h2, e⟩⟩ | ⟨h, h', e⟩
  · rw [e]
    refine ⟨(fun h => nomatch h), ?_⟩
    rintro ⟨w, p, ⟨l, hl, hd, -⟩, -⟩
    obtain rfl := elements_unique h hl
    cases hd
  · rw [e]
    refine ⟨(fun h => nomatch h), ?_⟩
    rintro ⟨w, p', hv, ha, -⟩
    have := (hu _ _ hv).1
    have := ha.2.2.1.1
    omega
  · rw [e]
    refine ⟨(fun h => nomatch h), ?_⟩
    rintro ⟨w, p', hv, ha, -⟩
    have := (hu _ _ hv).1
    omega
  · obtain ⟨w, rfl⟩ : ∃ w : Nat, n = w := ⟨n.toNat, by omega⟩
    rw [e, Int.toNat_natCast, encode_address hs hh w (by omega)]
    constructor
    · intro ha
      exact ⟨w, p, h, ha⟩
    · rintro ⟨w', p', hv, ha⟩
      obtain ⟨e1, rfl⟩ := hu _ _ hv
      obtain rfl : w' = w := by omega
      exact ha
  · rw [e]
    refine ⟨(fun h => nomatch h), ?_⟩
    rintro ⟨w, p, hv, -⟩
    exact absurd ⟨_, _, hv⟩ h'

/-- C136: otherwise `bech32.encode` returns None (versions from -32 to 31 that are not legal, or have a program of illegal length), or raises IndexError (nothing, or other versions), or
TypeError (a version that is no integer, a program with an element that is none or not from 0 to 255, or no sequence at all). -/
theorem C136_bech32_refused (net : Network) (hs : net.Supported) (hrp : PyStr) (hh : net.bech32Hrp = some hrp) (v : Val) :
    (Val.bech32Encode net v = .ok none ↔ ∃ n p, Versioned v n p ∧ -32 ≤ n ∧ n < 32 ∧ ∀ w : Nat, n = w → ¬ LegalProgram w p.length) ∧
    (Val.bech32Encode net v = .error .indexError ↔ Elements v [] ∨ ∃ n p, Versioned v n p ∧ (n < -32 ∨ 32 ≤ n)) ∧
    (Val.bech32Encode net v = .error .typeError ↔ ¬ Elements v [] ∧ ¬ ∃ n p, Versioned v n p) ∧
    (∀ e, Val.bech32Encode net v = .error e → e = .indexError ∨ e = .typeError) := by
  have hno : Elements v [] → ¬ ∃ n p, Versioned v n p := by
    rintro h ⟨n, p, l, hl, hd, -⟩
    obtain rfl := elements_unique h hl
    cases hd
  rcases bech32Encode_split hs hh v with ⟨h, e⟩ | ⟨n, p, h, hu, h0, ⟨hn, e⟩ | ⟨h1, h2, e⟩ | ⟨h1, h2, e⟩⟩ | ⟨h, h', e⟩
  · rw [e]
    refine ⟨⟨(fun h => nomatch h), fun ⟨n, p, hv, _⟩ => absurd ⟨n, p, hv⟩ (hno h)⟩, ⟨fun _ => .inl h, fun _ => rfl⟩, ⟨(fun h => nomatch h), fun h' => absurd h h'.1⟩, ?_⟩
    intro e' he; cases he; exact .inl rfl
  · rw [e]
    refine ⟨⟨(fun h => nomatch h), ?_⟩, ⟨fun _ => .inr ⟨n, p, h, hn⟩, fun _ => rfl⟩, ⟨(fun h => nomatch h), fun h' => absurd ⟨n, p, h⟩ h'.2⟩, ?_⟩
    · rintro ⟨n', p', hv, h1, h2, -⟩
      have := (hu _ _ hv).1
      omega
    · intro e' he; cases he; exact .inl rfl
  · rw [e]
    refine ⟨⟨fun _ => ⟨n, p, h, h1, by omega, fun w hw => by omega⟩, fun _ => rfl⟩, ⟨(fun h => nomatch h), ?_⟩, ⟨(fun h => nomatch h), fun h' => absurd ⟨n, p, h⟩ h'.2⟩,
      (fun _ h => nomatch h)⟩
    rintro (h' | ⟨n', p', hv, hn⟩)
    · exact absurd h' h0
    · have := (hu _ _ hv).1
      omega
  · obtain ⟨w, rfl⟩ : ∃ w : Nat, n = w := ⟨n.toNat, by omega⟩
    rw [Int.toNat_natCast] at e
    have hi : ¬ (Elements v [] ∨ ∃ n p, Versioned v n p ∧ (n < -32 ∨ 32 ≤ n)) := by
      rintro (h' | ⟨n', p', hv, hn⟩)
      · exact absurd h' h0
      · have := (hu _ _ hv).1
        omega
    rcases encode_total hs hh w (by omega) p with ⟨⟨s, hs'⟩, hl⟩ | ⟨hn, hl⟩
    · rw [e, hs']
      refine ⟨⟨(fun h => nomatch h), ?_⟩, ⟨(fun h => nomatch h), fun h => absurd h hi⟩, ⟨(fun h => nomatch h), fun h' => absurd ⟨_, p, h⟩ h'.2⟩, (fun _ h => nomatch h)⟩
      rintro ⟨n', p', hv, -, -, hx⟩
      obtain ⟨rfl, rfl⟩ := hu _ _ hv
      exact absurd hl (hx w rfl)
    · rw [e, hn]
      refine ⟨⟨fun _ => ⟨w, p, h, by omega, h2, fun w' hw => ?_⟩, fun _ => rfl⟩, ⟨(fun h => nomatch h), fun h => absurd h hi⟩, ⟨(fun h => nomatch h), fun h' => absurd ⟨_, p, h⟩ h'.2⟩,
        (fun _ h => nomatch h)⟩
      obtain rfl : w' = w := by omega
      exact hl
  · rw [e]
    refine ⟨⟨(fun h => nomatch h), fun ⟨n, p, hv, _⟩ => absurd ⟨n, p, hv⟩ h'⟩, ⟨(fun h => nomatch h), ?_⟩, ⟨fun _ => ⟨h, h'⟩, fun _ => rfl⟩, ?_⟩
    · rintro (h'' | ⟨n', p', hv, hn⟩)
      · exact absurd h'' h
      · exact absurd ⟨n', p', hv⟩ h'
    · intro e' he; cases he; exact .inr rfl

/-- The second element is not looked at, a negative version is None, 32 an IndexError, text and programs with None a TypeError. -/
example : Val.bech32Encode bitcoinMain (.list (.int 0 :: .none :: List.replicate 20 (.int 7))) = .ok (some (pystr "bc1qqurswpc8qurswpc8qurswpc8qurswpc89fe3yv")) ∧
    Val.bech32Encode bitcoinMain (.tuple (.int (-1) :: .int 20 :: List.replicate 20 (.int 7))) = .ok none ∧
    Val.bech32Encode bitcoinMain (.list [.int 32]) = .error .indexError ∧ Val.bech32Encode bitcoinMain (.bytearray []) = .error .indexError ∧
    Val.bech32Encode bitcoinMain (.str (pystr "0")) = .error .typeError ∧ Val.bech32Encode bitcoinMain (.list [.int 0, .int 2, .int 1, .none]) = .error .typeError := by decide +kernel

example : bitcoinMain.Supported ∧ Versioned (.list (.int 0 :: .none :: List.replicate 20 (.int 7))) 0 (List.replicate 20 7) :=
  ⟨by unfold Network.Supported; decide +kernel, _, .inr (.inr (.inl rfl)), rfl, rfl⟩

/-- An element with a code that `bech32_decode` takes for a printable character. -/
def Printable (x : Val) : Prop := (∃ c : Char, x = .str [c] ∧ 33 ≤ c.toNat ∧ c.toNat ≤ 126) ∨ ∃ b : UInt8, (x = .bytes [b] ∨ x = .bytearray [b]) ∧ 33 ≤ b.toNat ∧ b.toNat ≤ 126

theorem ord_printable {x : Val} : (∃ n, x.ord = .ok n ∧ 33 ≤ n ∧ n ≤ 126) ↔ Printable x := by
  have key : ∀ (x : Val) (n : Nat), x.ord = .ok n ↔ (∃ c : Char, x = .str [c] ∧ n = c.toNat) ∨ ∃ b : UInt8, (x = .bytes [b] ∨ x = .bytearray [b]) ∧ n = b.toNat := by
    intro x n
    unfold Val.ord
    split <;> simp_all [eq_comm]
  unfold Printable
  constructor
  · rintro ⟨n, h, h1, h2⟩
    rcases (key x n).1 h with ⟨c, rfl, rfl⟩ | ⟨b, hb, rfl⟩
    · exact .inl ⟨c, rfl, h1, h2⟩
    · exact .inr ⟨b, hb, h1, h2⟩
  · rintro (⟨c, rfl, h1, h2⟩ | ⟨b, hb, h1, h2⟩)
    · exact ⟨_, (key _ _).2 (.inl ⟨c, rfl, rfl⟩), h1, h2⟩
    · exact ⟨_, (key _ _).2 (.inr ⟨b, hb, rfl⟩), h1, h2⟩

theorem ord_error {x : Val} {e : PyErr} (h : x.ord = .error e) : e = .typeError := by
  unfold Val.ord at h
  split at h <;> cases h
  rfl

theorem decodeList_cases (l : List Val) : (∀ x ∈ l, Printable x) ∧ Val.bech32DecodeList l = .error .attributeError ∨
    (¬ ∀ x ∈ l, Printable x) ∧ Val.bech32DecodeList l = .error .typeError := by
  induction l with
  | nil => exact .inl ⟨by simp, rfl⟩
  | cons x l ih =>
    unfold Val.bech32DecodeList
    cases h : x.ord with
    | error e =>
      refine .inr ⟨fun hp => ?_, by rw [ord_error h]; rfl⟩
      obtain ⟨n, hn, -⟩ := ord_printable.2 (hp x (by simp))
      rw [h] at hn; cases hn
    | ok n =>
      rw [ok_bind]
      by_cases hn : n < 33 ∨ 126 < n
      · rw [if_pos hn]
        refine .inr ⟨fun hp => ?_, rfl⟩
        obtain ⟨n', hn', h1, h2⟩ := ord_printable.2 (hp x (by simp))
        rw [h] at hn'; cases hn'
        omega
      · rw [if_neg hn]
        have hx : Printable x := ord_printable.1 ⟨n, h, by omega, by omega⟩
        rcases ih with ⟨h1, h2⟩ | ⟨h1, h2⟩
        · exact .inl ⟨by simpa [hx] using h1, h2⟩
        · exact .inr ⟨by simpa [hx] using h1, h2⟩

/-- C136: `bech32.decode` takes strings only, and accepts those that BIP 173 calls addresses. -/
theorem C136_bech32_decode (net : Network) (hs : net.Supported) (hrp : PyStr) (hh : net.bech32Hrp = some hrp) (v : Val) (d : Bytes) :
    Val.bech32Decode net v = .ok d ↔ ∃ s w p, v = .str s ∧ IsSegwitAddress hrp w p s ∧ d = UInt8.ofNat w :: UInt8.ofNat p.length :: p := by
  unfold Val.bech32Decode
  rw [hh]
  have hl : ∀ l, Val.bech32DecodeList l ≠ .ok d := by
    intro l h
    rcases decodeList_cases l with ⟨-, h'⟩ | ⟨-, h'⟩ <;> rw [h'] at h <;> cases h
  have no : ∀ {P : Prop}, ((∃ s w p, v = .str s ∧ IsSegwitAddress hrp w p s ∧ d = UInt8.ofNat w :: UInt8.ofNat p.length :: p) → False) → ¬ P →
      (P ↔ ∃ s w p, v = .str s ∧ IsSegwitAddress hrp w p s ∧ d = UInt8.ofNat w :: UInt8.ofNat p.length :: p) := fun h1 h2 => ⟨fun h => absurd h h2, fun h => (h1 h).elim⟩
  cases v with
  | str s =>
    refine (C110_decode net hs hrp hh s d).trans ?_
    constructor
    · rintro ⟨w, p, h⟩; exact ⟨s, w, p, rfl, h⟩
    · rintro ⟨s', w, p, e, h⟩; cases e; exact ⟨w, p, h⟩
  | list l => exact no (by rintro ⟨_, _, _, e, _⟩; cases e) (hl l)
  | tuple l => exact no (by rintro ⟨_, _, _, e, _⟩; cases e) (hl l)
  | obj c a b => exact no (by rintro ⟨_, _, _, e, _⟩; cases e) (by cases b <;> exact (fun h => nomatch h))
  | _ => exact no (by rintro ⟨_, _, _, e, _⟩; cases e) (fun h => nomatch h)

/-- C136: what else `bech32.decode` is given raises TypeError; except `ByteData` objects without bytes, and lists and tuples of printable characters (the empty ones too), which raise
AttributeError. -/
theorem C136_bech32_decode_refused (net : Network) (hrp : PyStr) (hh : net.bech32Hrp = some hrp) (v : Val) (e : PyErr) (h : Val.bech32Decode net v = .error e) :
    ((∃ c a, v = .obj c a []) ∨ (∃ l, (v = .list l ∨ v = .tuple l) ∧ ∀ x ∈ l, Printable x) → e = .attributeError) ∧
    (¬ ((∃ c a, v = .obj c a []) ∨ (∃ l, (v = .list l ∨ v = .tuple l) ∧ ∀ x ∈ l, Printable x)) → e = .typeError) := by
  unfold Val.bech32Decode at h
  rw [hh] at h
  have hl : ∀ l, Val.bech32DecodeList l = .error e → ((∀ x ∈ l, Printable x) → e = .attributeError) ∧ (¬ (∀ x ∈ l, Printable x) → e = .typeError) := by
    intro l h
    rcases decodeList_cases l with ⟨h1, h'⟩ | ⟨h1, h'⟩ <;> rw [h'] at h <;> cases h
    · exact ⟨fun _ => rfl, fun h => absurd h1 h⟩
    · exact ⟨fun h => absurd h h1, fun _ => rfl⟩
  cases v with
  | str s =>
    refine ⟨by simp, fun _ => ?_⟩
    simp only [Bech32.decode, hh] at h
    split at h <;> cases h
    rfl
  | list l => simpa using hl l h
  | tuple l => simpa using hl l h
  | obj c a b =>
    cases b with
    | nil => cases h; exact ⟨fun _ => rfl, fun h => absurd (.inl ⟨c, a, rfl⟩) h⟩
    | cons x b => cases h; simp
  | _ => cases h; simp

example : Val.bech32Decode bitcoinMain (.str (pystr "bc1qqurswpc8qurswpc8qurswpc8qurswpc89fe3yv")) = .ok (0 :: 20 :: List.replicate 20 7) ∧
    Val.bech32Decode bitcoinMain (.list [.str (pystr "b"), .bytes [99]]) = .error .attributeError ∧ Val.bech32Decode bitcoinMain (.list [.str (pystr "bc")]) = .error .typeError ∧
    Val.bech32Decode bitcoinMain (.bytes [98, 99]) = .error .typeError := by decide +kernel

/-- `s` is the cashaddr string of the payload: prefix, colon, and the symbols of the payload (padded with fewer than five zero bits) and of the checksum. -/
def IsCashEncoding (pre : PyStr) (p : Bytes) (s : PyStr) : Prop :=
  ∃ r c, Regroups 8 5 (p.map UInt8.toNat) r ∧ Digits 5 c ∧ c.length = 8 ∧ IsCashCode pre (r ++ c) ∧ s = pre ++ ':' :: (r ++ c).map bechChar

theorem cash_encode_iff {net : Network} {pre : PyStr} (hp : net.cashaddrPrefix = some pre) (p : Bytes) (s : PyStr) :
    Cashaddr.encode net p = .ok s ↔ IsCashEncoding pre p s := by
  have app : ∀ {r c : List Nat}, Digits 5 r → Digits 5 c → Digits 5 (r ++ c) := by
    intro r c h h' x hx
    rcases List.mem_append.1 hx with e | e
    · exact h x e
    · exact h' x e
  obtain ⟨r, hreg, he⟩ := Cashaddr.encode_eq hp p
  have hc := Cashaddr.checksumNat_digits pre (r.map Int.ofNat)
  have hl := Cashaddr.checksumNat_length pre (r.map Int.ofNat)
  have heq := Cashaddr.calculateChecksum_eq pre (r.map Int.ofNat)
  rw [he]
  constructor
  · intro h
    cases h
    refine ⟨r, _, hreg, hc, hl, ?_, ?_⟩
    · rw [← C110_cash _ _ (app hreg.2.1 hc), C74_checksum_unique pre r _ hc hl]
      exact heq.symm
    · rw [← symC_bechChar (app hreg.2.1 hc)]
      rfl
  · rintro ⟨r', c, hreg', hc', hl', hcode, rfl⟩
    obtain rfl := Regroups.unique (by omega) hreg' hreg
    rw [← C110_cash _ _ (app hreg.2.1 hc'), C74_checksum_unique pre r' c hc' hl', heq] at hcode
    have : c = Cashaddr.checksumNat pre (r'.map Int.ofNat) := List.map_injective_iff.2 (fun a b h => Int.ofNat.inj h) hcode
    subst this
    rw [← symC_bechChar (app hreg.2.1 hc)]
    rfl

/-- C136: `cashaddr.encode` gives exactly the cashaddr strings of sequences of octets. -/
theorem C136_cash_encode (net : Network) (pre : PyStr) (hp : net.cashaddrPrefix = some pre) (v : Val) (s : PyStr) :
    Val.cashaddrEncode net v = .ok s ↔ ∃ p : Bytes, Elements v (p.map fun x => .int x.toNat) ∧ IsCashEncoding pre p s := by
  unfold Val.cashaddrEncode
  rw [hp]
  constructor
  · intro h
    simp only [bind_ok_iff] at h
    obtain ⟨l, hl, ds, hd, h⟩ := h
    cases ds with
    | none => cases h
    | some ds =>
      obtain ⟨p, rfl, rfl⟩ := digits8_some.1 hd
      refine ⟨p, iter_iff.1 hl, (cash_encode_iff hp p s).1 ?_⟩
      rw [← h]
      simp only [Bech32.ofNat_map_toNat]
  · rintro ⟨p, hl, h⟩
    simp only [iter_iff.2 hl, ok_bind, digits8_some.2 ⟨p, rfl, rfl⟩, Bech32.ofNat_map_toNat]
    exact (cash_encode_iff hp p s).2 h

/-- C136: whatever else is given to `cashaddr.encode` raises TypeError; text that is not empty too. -/
theorem C136_cash_refused (net : Network) (pre : PyStr) (hp : net.cashaddrPrefix = some pre) (v : Val) (e : PyErr) :
    Val.cashaddrEncode net v = .error e ↔ e = .typeError ∧ ¬ ∃ p : Bytes, Elements v (p.map fun x => .int x.toNat) := by
  have hall : (∃ p : Bytes, Elements v (p.map fun x => .int x.toNat)) ↔ ∃ s, Val.cashaddrEncode net v = .ok s := by
    simp only [C136_cash_encode net pre hp]
    constructor
    · rintro ⟨p, h⟩
      obtain ⟨r, -, he⟩ := Cashaddr.encode_eq hp p
      exact ⟨_, p, h, (cash_encode_iff hp p _).1 he⟩
    · rintro ⟨s, p, h, -⟩
      exact ⟨p, h⟩
  have hte : ∀ e, Val.cashaddrEncode net v = .error e → e = .typeError := by
    intro e h
    unfold Val.cashaddrEncode at h
    rw [hp] at h
    cases hi : v.iter with
    | error e' => simp only [hi] at h; cases h; exact (iter_error.1 hi).1
    | ok l =>
      simp only [hi, ok_bind] at h
      cases hd : Val.digits8 l with
      | error e' => rw [hd] at h; cases h; exact digits8_error hd
      | ok r =>
        rw [hd, ok_bind] at h
        cases r with
        | none => cases h; rfl
        | some ds =>
          obtain ⟨r, -, he⟩ := Cashaddr.encode_eq hp (ds.map UInt8.ofNat)
          simp only [he] at h
          cases h
  constructor
  · intro h
    refine ⟨hte e h, fun hx => ?_⟩
    obtain ⟨s, hs⟩ := hall.1 hx
    rw [hs] at h; cases h
  · rintro ⟨rfl, hx⟩
    cases h : Val.cashaddrEncode net v with
    | error e => rw [hte e h]
    | ok s => exact absurd (hall.2 ⟨s, h⟩) hx

/-- C136: `cashaddr.decode` takes strings only; bytes-like values raise TypeError, all other values AttributeError. -/
theorem C136_cash_decode (net : Network) (pre : PyStr) (hp : net.cashaddrPrefix = some pre) (hs : net.Supported) (v : Val) (d : Bytes) (hd : d ≠ []) :
    (Val.cashaddrDecode net v = .ok d ↔ ∃ more r c pad, ':' ∉ more ∧ Digits 5 r ∧ bitsOf 5 r = bitsOf 8 (d.map UInt8.toNat) ++ pad ∧
      1 ≤ pad.length ∧ pad.length ≤ 8 ∧ Digits 5 c ∧ c.length = 8 ∧ IsCashCode (pre ++ more) (r ++ c) ∧ v = .str (pre ++ more ++ ':' :: (r ++ c).map bechChar)) ∧
    ((∃ b, Byteslike v b) → Val.cashaddrDecode net v = .error .typeError) ∧
    ((¬ ∃ b, Byteslike v b) → (∀ s, v ≠ .str s) → Val.cashaddrDecode net v = .error .attributeError) := by
  unfold Val.cashaddrDecode Byteslike
  rw [hp]
  cases v with
  | str s => exact ⟨by simpa using C110_cash_decode net pre hp hs s d hd, by simp [Val.content], by simp⟩
  | _ => simp [Val.content]

/-- C136: on networks without the address kind all four raise ValueError, whatever they are given. -/
theorem C136_networks (net : Network) (v : Val) :
    (net.bech32Hrp = none → Val.bech32Encode net v = .error .valueError ∧ Val.bech32Decode net v = .error .valueError) ∧
    (net.cashaddrPrefix = none → Val.cashaddrEncode net v = .error .valueError ∧ Val.cashaddrDecode net v = .error .valueError) := by
  constructor
  · intro h
    unfold Val.bech32Encode Val.bech32Decode
    rw [h]; exact ⟨rfl, rfl⟩
  · intro h
    unfold Val.cashaddrEncode Val.cashaddrDecode
    rw [h]; exact ⟨rfl, rfl⟩

example : bitcoinCashMain.cashaddrPrefix = some (pystr "bitcoincash") ∧
    Val.cashaddrEncode bitcoinCashMain (.tuple (.int 0 :: List.replicate 20 (.int 7))) = .ok (pystr "bitcoincash:qqrswpc8qurswpc8qurswpc8qurswpc8qutdt3aw7w") ∧
    Val.cashaddrEncode bitcoinCashMain (.list [.int 256]) = .error .typeError ∧
    Val.cashaddrDecode bitcoinCashMain (.bytes [0]) = .error .typeError ∧ Val.cashaddrDecode bitcoinCashMain .none = .error .attributeError ∧
    Val.cashaddrEncode bitcoinMain .none = .error .valueError := by decide +kernel

end Verif.Props
