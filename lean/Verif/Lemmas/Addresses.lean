import Verif.Props.Base58
import Verif.Props.Bech32
import Verif.Props.Cashaddr
import Verif.Model.Addresses
import Verif.Spec.Address

namespace Verif.Addresses
open Spec

/-! ### facts about the table -/

/-- What the address functions use of a network without cashaddr. -/
structure PlainNet (net : Network) : Prop where
  noP2sh : net.cashaddrP2sh = none
  noP2pkh : net.cashaddrP2pkh = none
  noPrefix : net.cashaddrPrefix = none

/-- What they use of one with cashaddr. -/
structure CashNet (net : Network) : Prop where
  p2sh : net.cashaddrP2sh = some [8]
  p2pkh : net.cashaddrP2pkh = some [0]
  pre : net.cashaddrPrefix.isSome
  hrp : net.bech32Hrp = none
  enc : net.segwitEncoder = .bech32
  l1 : net.p2pkhPrefix.length = 1
  n1 : net.p2pkhPrefix ≠ [8]
  n2 : net.p2shPrefix ≠ [8]
  n3 : net.p2shPrefix ≠ [0]
  noSegwit : net.segwit = false

structure NetFacts (net : Network) : Prop where
  wsh : net.p2wshPrefix = [0, 32]
  wpkh : net.p2wpkhPrefix = [0, 20]
  len : net.p2shPrefix.length = net.p2pkhPrefix.length
  len12 : net.p2pkhPrefix.length = 1 ∨ net.p2pkhPrefix.length = 2
  ne : net.p2pkhPrefix ≠ net.p2shPrefix
  ne1 : net.p2pkhPrefix ≠ [0, 20]
  ne2 : net.p2shPrefix ≠ [0, 20]
  cash : PlainNet net ∨ CashNet net

instance (net : Network) : Decidable (PlainNet net) :=
  decidable_of_iff (net.cashaddrP2sh = none ∧ net.cashaddrP2pkh = none ∧ net.cashaddrPrefix = none)
    ⟨fun ⟨a, b, c⟩ => ⟨a, b, c⟩, fun ⟨a, b, c⟩ => ⟨a, b, c⟩⟩

instance (net : Network) : Decidable (CashNet net) :=
  decidable_of_iff (net.cashaddrP2sh = some [8] ∧ net.cashaddrP2pkh = some [0] ∧ net.cashaddrPrefix.isSome ∧ net.bech32Hrp = none ∧
      net.segwitEncoder = .bech32 ∧ net.p2pkhPrefix.length = 1 ∧ net.p2pkhPrefix ≠ [8] ∧ net.p2shPrefix ≠ [8] ∧
      net.p2shPrefix ≠ [0] ∧ net.segwit = false)
    ⟨fun ⟨a, b, c, d, e, f, g, h, i, j⟩ => ⟨a, b, c, d, e, f, g, h, i, j⟩,
     fun ⟨a, b, c, d, e, f, g, h, i, j⟩ => ⟨a, b, c, d, e, f, g, h, i, j⟩⟩

instance (net : Network) : Decidable (NetFacts net) :=
  decidable_of_iff (net.p2wshPrefix = [0, 32] ∧ net.p2wpkhPrefix = [0, 20] ∧ net.p2shPrefix.length = net.p2pkhPrefix.length ∧
      (net.p2pkhPrefix.length = 1 ∨ net.p2pkhPrefix.length = 2) ∧ net.p2pkhPrefix ≠ net.p2shPrefix ∧ net.p2pkhPrefix ≠ [0, 20] ∧
      net.p2shPrefix ≠ [0, 20] ∧ (PlainNet net ∨ CashNet net))
    ⟨fun ⟨a, b, c, d, e, f, g, h⟩ => ⟨a, b, c, d, e, f, g, h⟩, fun ⟨a, b, c, d, e, f, g, h⟩ => ⟨a, b, c, d, e, f, g, h⟩⟩

theorem netFacts {net : Network} (hs : net.Supported) : NetFacts net := by
  have key : ∀ net : Network, net.Supported → NetFacts net := by unfold Network.Supported; decide +kernel
  exact key net hs

/-- A network with bech32 witness addresses: SegWit flag set and encoder bech32. -/
theorem segwit_hrp {net : Network} (hs : net.Supported) (h1 : net.segwit = true) (h2 : net.segwitEncoder = .bech32) :
    ∃ hrp, net.bech32Hrp = some hrp ∧ 2 ≤ hrp.length ∧ hrp.head? ≠ some '1' := by
  have key : ∀ net : Network, net.Supported → net.segwit = true → net.segwitEncoder = .bech32 → net.bech32Hrp.isSome ∧
      ∀ hrp ∈ net.bech32Hrp, 2 ≤ hrp.length ∧ hrp.head? ≠ some '1' := by
    unfold Network.Supported; decide +kernel
  obtain ⟨h3, h4⟩ := key net hs h1 h2
  obtain ⟨hrp, hh⟩ := Option.isSome_iff_exists.1 h3
  exact ⟨hrp, hh, h4 hrp hh⟩

theorem hrp_len {net : Network} (hs : net.Supported) {hrp : PyStr} (h : net.bech32Hrp = some hrp) :
    2 ≤ hrp.length ∧ hrp.head? ≠ some '1' := by
  have key : ∀ net : Network, net.Supported → ∀ hrp ∈ net.bech32Hrp, 2 ≤ hrp.length ∧ hrp.head? ≠ some '1' := by
    unfold Network.Supported; decide +kernel
  exact key net hs hrp h

/-! ### prefixes -/

theorem startsWith_append (p h : Bytes) : startsWith (p ++ h) p = true := by
  unfold startsWith; rw [List.isPrefixOf_iff_prefix]; exact ⟨h, rfl⟩

theorem startsWith_iff (b p : Bytes) : startsWith b p = true ↔ ∃ h, b = p ++ h := by
  unfold startsWith; rw [List.isPrefixOf_iff_prefix]
  exact ⟨fun ⟨h, e⟩ => ⟨h, e.symm⟩, fun ⟨h, e⟩ => ⟨h, e.symm⟩⟩

theorem startsWith_ne {p q h : Bytes} (hl : p.length = q.length) (hne : p ≠ q) : startsWith (p ++ h) q = false := by
  rw [← Bool.not_eq_true, startsWith_iff]
  rintro ⟨r, e⟩
  exact hne (List.append_inj e hl).1

/-! ### the output script of raw bytes -/

/-- encoding/addresses.py:256-306 on the parsed bytes. -/
def outScript (net : Network) (parsed : Bytes) : Py Bytes :=
  if startsWith parsed net.p2wpkhPrefix ∧ parsed.length = 22 then .ok parsed
  else if startsWith parsed net.p2wshPrefix ∧ parsed.length = 34 then .ok parsed
  else
    let r : Bytes × Bytes × Bytes := ([], [], [])
    let r := match net.cashaddrP2sh with
      | none => r
      | some p => if startsWith parsed p ∧ parsed.length = p.length + 20 then
          (([0xa9, 0x14] : Bytes), parsed.drop net.p2shPrefix.length, ([0x87] : Bytes)) else r
    let r := match net.cashaddrP2pkh with
      | none => r
      | some p => if startsWith parsed p ∧ parsed.length = p.length + 20 then
          (([0x76, 0xa9, 0x14] : Bytes), parsed.drop net.p2pkhPrefix.length, ([0x88, 0xac] : Bytes)) else r
    let r := if startsWith parsed net.p2pkhPrefix ∧ parsed.length = net.p2pkhPrefix.length + 20
      then (([0x76, 0xa9, 0x14] : Bytes), parsed.drop net.p2pkhPrefix.length, ([0x88, 0xac] : Bytes)) else r
    let r := if startsWith parsed net.p2shPrefix ∧ parsed.length = net.p2shPrefix.length + 20
      then (([0xa9, 0x14] : Bytes), parsed.drop net.p2shPrefix.length, ([0x87] : Bytes)) else r
    if r.2.1 = [] then .error .valueError
    else .ok (r.1 ++ r.2.1 ++ r.2.2)

theorem toOutputScript_eq (E : Env) (a : PyStr) : toOutputScript E a = (parse E a >>= outScript E.net) := rfl

theorem not_witness {net : Network} (F : NetFacts net) {parsed : Bytes} (h22 : parsed.length = 22 → startsWith parsed [0, 20] = false)
    (h34 : parsed.length = 34 → startsWith parsed [0, 32] = false) :
    ¬ (startsWith parsed net.p2wpkhPrefix = true ∧ parsed.length = 22) ∧
    ¬ (startsWith parsed net.p2wshPrefix = true ∧ parsed.length = 34) := by
  rw [F.wpkh, F.wsh]
  exact ⟨fun h => by rw [h22 h.2] at h; exact absurd h.1 (by simp), fun h => by rw [h34 h.2] at h; exact absurd h.1 (by simp)⟩

theorem ne_nil_of_length {h : Bytes} (hl : h.length = 20) : h ≠ [] := by rintro rfl; simp at hl

theorem outScript_p2pkh {net : Network} (F : NetFacts net) {h : Bytes} (hl : h.length = 20) :
    outScript net (net.p2pkhPrefix ++ h) = .ok (p2pkhScript h) := by
  have hlen : (net.p2pkhPrefix ++ h).length = net.p2pkhPrefix.length + 20 := by simp [hl]
  obtain ⟨w1, w2⟩ := not_witness F (parsed := net.p2pkhPrefix ++ h)
    (fun h22 => startsWith_ne (by simp; omega) F.ne1) (fun h34 => by have := F.len12; omega)
  unfold outScript
  rw [if_neg w1, if_neg w2]
  simp only []
  rw [if_neg (c := startsWith (net.p2pkhPrefix ++ h) net.p2shPrefix = true ∧ _)
    (by rw [startsWith_ne F.len.symm F.ne]; simp),
    if_pos (c := startsWith (net.p2pkhPrefix ++ h) net.p2pkhPrefix = true ∧ _) ⟨startsWith_append _ _, hlen⟩]
  rw [List.drop_left, if_neg (ne_nil_of_length hl)]
  rfl

theorem outScript_p2sh {net : Network} (F : NetFacts net) {h : Bytes} (hl : h.length = 20) :
    outScript net (net.p2shPrefix ++ h) = .ok (p2shScript h) := by
  have hlen : (net.p2shPrefix ++ h).length = net.p2shPrefix.length + 20 := by simp [hl]
  have := F.len
  obtain ⟨w1, w2⟩ := not_witness F (parsed := net.p2shPrefix ++ h)
    (fun h22 => startsWith_ne (by simp; omega) F.ne2) (fun h34 => by have := F.len12; omega)
  unfold outScript
  rw [if_neg w1, if_neg w2]
  simp only []
  rw [if_pos (c := startsWith (net.p2shPrefix ++ h) net.p2shPrefix = true ∧ _) ⟨startsWith_append _ _, hlen⟩]
  rw [List.drop_left, if_neg (ne_nil_of_length hl)]
  rfl

theorem outScript_cash_p2pkh {net : Network} (F : NetFacts net) (C : CashNet net) {h : Bytes} (hl : h.length = 20) :
    outScript net ([0] ++ h) = .ok (p2pkhScript h) := by
  have l1 := C.l1
  have l2 := F.len
  have hlen : ([0] ++ h).length = 21 := by simp [hl]
  have hdrop : ([0] ++ h).drop net.p2pkhPrefix.length = h := by rw [l1]; rfl
  obtain ⟨w1, w2⟩ := not_witness F (parsed := [0] ++ h) (fun h22 => by omega) (fun h34 => by omega)
  unfold outScript
  rw [if_neg w1, if_neg w2, C.p2sh, C.p2pkh]
  simp only []
  rw [if_neg (c := startsWith ([0] ++ h) net.p2shPrefix = true ∧ _)
    (by rw [startsWith_ne (by simp; omega) (Ne.symm C.n3)]; simp),
    if_pos (c := startsWith ([0] ++ h) [0] = true ∧ _) ⟨startsWith_append _ _, by simp [hl]⟩]
  rw [hdrop]
  split <;> rw [if_neg (ne_nil_of_length hl)] <;> rfl

theorem outScript_cash_p2sh {net : Network} (F : NetFacts net) (C : CashNet net) {h : Bytes} (hl : h.length = 20) :
    outScript net ([8] ++ h) = .ok (p2shScript h) := by
  have l1 := C.l1
  have l2 := F.len
  have hlen : ([8] ++ h).length = 21 := by simp [hl]
  have hdrop : ([8] ++ h).drop net.p2shPrefix.length = h := by rw [l2, l1]; rfl
  obtain ⟨w1, w2⟩ := not_witness F (parsed := [8] ++ h) (fun h22 => by omega) (fun h34 => by omega)
  unfold outScript
  rw [if_neg w1, if_neg w2, C.p2sh, C.p2pkh]
  simp only []
  rw [if_neg (c := startsWith ([8] ++ h) net.p2shPrefix = true ∧ _)
    (by rw [startsWith_ne (by simp; omega) (Ne.symm C.n2)]; simp),
    if_neg (c := startsWith ([8] ++ h) net.p2pkhPrefix = true ∧ _)
    (by rw [startsWith_ne (by simp; omega) (Ne.symm C.n1)]; simp),
    if_neg (c := startsWith ([8] ++ h) [0] = true ∧ _) (by rw [startsWith_ne (p := [8]) (q := [0]) rfl (by decide)]; simp),
    if_pos (c := startsWith ([8] ++ h) [8] = true ∧ _) ⟨startsWith_append _ _, by simp [hl]⟩]
  rw [hdrop, if_neg (ne_nil_of_length hl)]
  rfl

theorem outScript_wpkh {net : Network} (F : NetFacts net) {h : Bytes} (hl : h.length = 20) :
    outScript net ([0, 20] ++ h) = .ok ([0, 20] ++ h) := by
  unfold outScript
  rw [if_pos]
  rw [F.wpkh]
  exact ⟨startsWith_append _ _, by simp [hl]⟩

theorem outScript_wsh {net : Network} (F : NetFacts net) {h : Bytes} (hl : h.length = 32) :
    outScript net ([0, 32] ++ h) = .ok ([0, 32] ++ h) := by
  unfold outScript
  rw [if_neg (by simp [hl]), if_pos]
  rw [F.wsh]
  exact ⟨startsWith_append _ _, by simp [hl]⟩

/-- Long payloads without a leading zero byte are rejected. -/
theorem outScript_long {net : Network} (F : NetFacts net) {d : Bytes} (hl : 23 ≤ d.length) (h0 : d.head? ≠ some 0) :
    outScript net d = .error .valueError := by
  have hns : ∀ q, startsWith d (0 :: q) = false := by
    intro q
    rw [← Bool.not_eq_true, startsWith_iff]
    rintro ⟨r, rfl⟩; simp at h0
  obtain ⟨w1, w2⟩ := not_witness F (parsed := d) (fun _ => hns _) (fun _ => hns _)
  have l12 := F.len12
  have l := F.len
  unfold outScript
  rw [if_neg w1, if_neg w2]
  simp only []
  rw [if_neg (c := startsWith d net.p2shPrefix = true ∧ _) (by omega),
    if_neg (c := startsWith d net.p2pkhPrefix = true ∧ _) (by omega)]
  rcases F.cash with C | C
  · rw [C.noP2sh, C.noP2pkh]; rfl
  · rw [C.p2sh, C.p2pkh]
    simp only []
    rw [if_neg (c := startsWith d [0] = true ∧ _) (by simp; omega), if_neg (c := startsWith d [8] = true ∧ _) (by simp; omega)]
    rfl

/-! ### base58 strings that look like witness addresses -/

theorem valueFold_lower (f : Char → Nat) (s : PyStr) (a : Nat) : a * 58 ^ s.length ≤ s.foldl (fun a c => 58 * a + f c) a := by
  induction s generalizing a with
  | nil => simp
  | cons c s ih =>
    rw [List.foldl_cons, List.length_cons, Nat.pow_succ]
    refine Nat.le_trans ?_ (ih _)
    rw [Nat.mul_comm (58 ^ s.length) 58, ← Nat.mul_assoc]
    exact Nat.mul_le_mul_right _ (by omega)

theorem valBE_lt (ds : List Nat) (h : ∀ d ∈ ds, d < 256) : Base58.valBE 256 ds < 256 ^ ds.length := by
  have key : ∀ (ds : List Nat) (a : Nat), (∀ d ∈ ds, d < 256) →
      ds.foldl (fun a d => a * 256 + d) a < (a + 1) * 256 ^ ds.length := by
    intro ds
    induction ds with
    | nil => intro a _; simp
    | cons d ds ih =>
      intro a hd
      rw [List.foldl_cons, List.length_cons, Nat.pow_succ]
      refine Nat.lt_of_lt_of_le (ih _ (fun x hx => hd x (by simp [hx]))) ?_
      have := hd d (by simp)
      rw [Nat.mul_comm (256 ^ ds.length) 256, ← Nat.mul_assoc]
      exact Nat.mul_le_mul_right _ (by omega)
  have := key ds 0 h
  unfold Base58.valBE
  omega

theorem base58_long {p : Bytes} {s : PyStr} (h : IsBase58 p s) (hl : 42 ≤ s.length) (h1 : s.head? ≠ some '1') :
    31 ≤ p.length ∧ p.head? ≠ some 0 := by
  constructor
  · by_contra hlt
    have hv := h.value
    rw [Base58.beValue_eq] at hv
    have hub := valBE_lt (p.map UInt8.toNat) (Base58.toNat_lt_map p)
    rw [← hv, List.length_map] at hub
    have h30 : 256 ^ p.length ≤ 256 ^ 30 := Nat.pow_le_pow_right (by omega) (by omega)
    cases s with
    | nil => simp at hl
    | cons c s =>
      have hc : 1 ≤ b58Digit c := by
        by_contra h0
        have hm := h.alphabet c (by simp)
        have : ∀ c ∈ b58Alphabet, b58Digit c = 0 → c = '1' := by decide +kernel
        exact h1 (by simp [this c hm (by omega)])
      have hlow : 58 ^ 41 ≤ b58Value (c :: s) := by
        unfold b58Value
        rw [List.foldl_cons]
        refine Nat.le_trans ?_ (valueFold_lower b58Digit s _)
        simp only [List.length_cons] at hl
        calc 58 ^ 41 ≤ 58 ^ s.length := Nat.pow_le_pow_right (by omega) (by omega)
          _ = 1 * 58 ^ s.length := by omega
          _ ≤ _ := Nat.mul_le_mul_right _ (by omega)
      have : (58 : Nat) ^ 41 > 256 ^ 30 := by norm_num
      omega
  · intro h0
    have hz := h.zeros
    cases p with
    | nil => simp at h0
    | cons x xs =>
      simp only [List.head?_cons, Option.some.injEq] at h0
      subst h0
      rw [List.takeWhile_cons_of_pos (by rfl)] at hz
      cases s with
      | nil => simp at hl
      | cons c s =>
        rw [List.takeWhile_cons_of_neg (by simpa using h1)] at hz
        simp at hz

/-! ### parse -/

theorem b58_cases (E : Env) (s : PyStr) : (∃ d, Base58.decode E s = .ok d) ∨ Base58.decode E s = .error .valueError := by
  cases h : Base58.decode E s with
  | ok d => exact .inl ⟨d, rfl⟩
  | error e => rw [Props.C18_only_valueError E s true e h]; exact .inr rfl

theorem parse_base58 {E : Env} {a : PyStr} {d : Bytes} (h : Base58.decode E a = .ok d) : parse E a = .ok d := by
  unfold parse; rw [h]; rfl

theorem parse_not_base58 {E : Env} {a : PyStr} (h : Base58.decode E a = .error .valueError) :
    parse E a = tryCatchPy (segwitDecode E a) (fun _ => true) (tryCatchPy (Cashaddr.decode E.net a) (fun _ => true)
      (.error .valueError)) := by
  unfold parse; rw [h]; rfl

theorem parse_segwit {E : Env} {a : PyStr} {d : Bytes} (h : Base58.decode E a = .error .valueError) (h2 : segwitDecode E a = .ok d) :
    parse E a = .ok d := by
  rw [parse_not_base58 h, h2]; rfl

theorem base58_no_colon {E : Env} {a : PyStr} (h : ':' ∈ a) : Base58.decode E a = .error .valueError := by
  rcases b58_cases E a with ⟨d, hd⟩ | h'
  · rw [Props.decode_check_eq] at hd
    split at hd
    · next hc => exact absurd (hc.1 ':' h) (by decide)
    · cases hd
  · exact h'

theorem parse_cash {E : Env} (C : CashNet E.net) {a : PyStr} {d : Bytes} (hc : ':' ∈ a) (h : Cashaddr.decode E.net a = .ok d) :
    parse E a = .ok d := by
  rw [parse_not_base58 (base58_no_colon hc), h]
  unfold segwitDecode
  rw [C.enc]
  simp only [Bech32.decode, C.hrp]
  rfl

theorem parse_error {E : Env} {a : PyStr} {e : PyErr} (h : parse E a = .error e) : e = .valueError := by
  rcases b58_cases E a with ⟨d, hd⟩ | h'
  · rw [parse_base58 hd] at h; cases h
  · rw [parse_not_base58 h'] at h
    cases h1 : segwitDecode E a with
    | ok d => rw [h1] at h; cases h
    | error e1 =>
      cases h2 : Cashaddr.decode E.net a with
      | ok d => rw [h1, h2] at h; cases h
      | error e2 => rw [h1, h2] at h; simp [tryCatchPy] at h; exact h.symm

/-! ### making addresses -/

theorem base58_make (E : Env) (hH : E.H.LengthOK) (d : Bytes) :
    ∃ a, Base58.encode E d = .ok a ∧ parse E a = .ok d := by
  obtain ⟨a, h1, h2, _⟩ := Props.C16_roundtrip E hH d true
  exact ⟨a, h1, parse_base58 h2⟩

theorem cash_make (E : Env) (hs : E.net.Supported) (C : CashNet E.net) (d : Bytes) (h5 : d.length % 5 ≠ 0) :
    ∃ a, Cashaddr.encode E.net d = .ok a ∧ parse E a = .ok d ∧ ∃ pre, E.net.cashaddrPrefix = some pre ∧ pre <+: a := by
  obtain ⟨pre, hp⟩ := Option.isSome_iff_exists.1 C.pre
  obtain ⟨a, h1, h2, h3⟩ := Props.C24_behaviour E.net hs pre hp d
  rw [if_neg h5] at h3
  refine ⟨a, h1, parse_cash C ?_ h3, pre, hp, ?_⟩
  · obtain ⟨t, rfl⟩ := h2; simp
  · exact (List.prefix_append pre [':']).trans h2

/-- A witness address of either encoder: it parses to the script, or it also is a Base58Check string of a payload that no
output script is made of. -/
theorem segwit_make (E : Env) (hs : E.net.Supported) (hH : E.H.LengthOK) (hsw : E.net.segwit = true) (l : UInt8) (h : Bytes)
    (hl : h.length = l.toNat) (hl2 : l = 20 ∨ l = 32) :
    ∃ a, segwitEncode E ([0, l] ++ h) = .ok (some a) ∧
      (E.net.segwitEncoder = .bech32 → ∃ hrp, E.net.bech32Hrp = some hrp ∧ hrp <+: a) ∧
      ((parse E a = .ok ([0, l] ++ h)) ∨
        (∃ d, E.net.segwitEncoder = .bech32 ∧ Base58.decode E a = .ok d ∧ parse E a = .ok d ∧ 27 ≤ d.length ∧ d.head? ≠ some 0)) := by
  cases henc : E.net.segwitEncoder with
  | base58 =>
    obtain ⟨a, h1, h2⟩ := base58_make E hH ([0, l] ++ h)
    refine ⟨a, ?_, by simp, .inl h2⟩
    unfold segwitEncode; rw [henc, h1]; rfl
  | bech32 =>
    obtain ⟨hrp, hh, hlen, hne⟩ := segwit_hrp hs hsw henc
    have hleg : LegalProgram (0 : UInt8).toNat h.length := by
      rw [hl]; rcases hl2 with rfl | rfl <;> decide
    obtain ⟨a, h1, h2, h3⟩ := Props.C21_roundtrip E.net hs hrp hh 0 h hleg
    have hlb : UInt8.ofNat h.length = l := by rw [hl]; exact UInt8.ofNat_toNat
    rw [hlb] at h1 h2
    refine ⟨a, ?_, fun _ => ⟨hrp, hh, (List.prefix_append hrp ['1']).trans h3⟩, ?_⟩
    · unfold segwitEncode; rw [henc]; exact h1
    · rcases b58_cases E a with ⟨d, hd⟩ | hd
      · right
        have hb := (Props.C18_accepts_iff E hH a d).1 hd
        have ha : 42 ≤ a.length := by
          have h1' := h1
          rw [Bech32.encode_iff hs hh] at h1'
          obtain ⟨v, rest, r, he, hreg, hleg, rfl⟩ := h1'
          have hr := Bech32.regroup_length hreg
          simp only [List.cons.injEq] at he
          obtain ⟨rfl, rfl⟩ := he
          simp only [List.drop_succ_cons, List.drop_zero, List.length_map] at hr
          unfold Bech32.addrStr
          simp only [List.length_append, List.length_cons, List.length_map, Bech32.createChecksum_length, hr]
          rcases hl2 with rfl | rfl
          · simp at hl; omega
          · simp at hl; omega
        have hhead : a.head? ≠ some '1' := by
          obtain ⟨t, rfl⟩ := h3
          cases hrp with
          | nil => simp at hlen
          | cons c cs => simpa using hne
        have := base58_long hb ha hhead
        have h4 : ((E.hash256 d).take 4).length = 4 := by simp [E.hash256_length hH]
        refine ⟨d, rfl, hd, parse_base58 hd, ?_, ?_⟩
        · have := this.1; rw [List.length_append] at this; omega
        · have h5 := this.2
          cases d with
          | nil => simp
          | cons x xs => simpa using h5
      · left
        apply parse_segwit hd
        unfold segwitDecode; rw [henc]; exact h2

/-! ### making them from output scripts -/

theorem from_p2pkh {E : Env} (F : NetFacts E.net) {h : Bytes} (hl : h.length = 20) (c : Bool) :
    fromOutputScript E (p2pkhScript h) c = makePkhAddress' E h false c := by
  have hlen : (p2pkhScript h).length = 25 := by simp [p2pkhScript, hl]
  unfold fromOutputScript
  rw [F.wsh, F.wpkh]
  simp only []
  rw [if_neg (by rw [hlen]; simp), if_neg (by rw [hlen]; simp), if_pos ⟨hlen, by simp [p2pkhScript, startsWith]⟩]
  congr 1
  simp [slice, p2pkhScript, hl]

theorem from_p2sh {E : Env} (F : NetFacts E.net) {h : Bytes} (hl : h.length = 20) (c : Bool) :
    fromOutputScript E (p2shScript h) c = hashToShAddress E h false c := by
  have hlen : (p2shScript h).length = 23 := by simp [p2shScript, hl]
  unfold fromOutputScript
  rw [F.wsh, F.wpkh]
  simp only []
  rw [if_neg (by rw [hlen]; simp), if_neg (by rw [hlen]; simp), if_neg (by rw [hlen]; simp),
    if_pos ⟨hlen, by simp [p2shScript, startsWith]⟩]
  congr 1
  simp [slice, p2shScript, hl]

theorem from_p2wpkh {E : Env} (F : NetFacts E.net) {h : Bytes} (hl : h.length = 20) (c : Bool) (a : Option PyStr)
    (hm : makePkhAddress' E h true c = .ok a) : fromOutputScript E (p2wpkhScript h) c = .ok a := by
  have hlen : (p2wpkhScript h).length = 22 := by simp [p2wpkhScript, hl]
  unfold fromOutputScript
  rw [F.wsh, F.wpkh]
  simp only []
  rw [if_neg (by rw [hlen]; simp), if_pos ⟨hlen, by simp [p2wpkhScript, startsWith]⟩]
  have : lastN (p2wpkhScript h) 20 = h := by
    unfold lastN; rw [hlen]; rfl
  rw [this, hm]; rfl

theorem from_p2wsh {E : Env} (F : NetFacts E.net) {h : Bytes} (hl : h.length = 32) (c : Bool) (a : Option PyStr)
    (hm : hashToShAddress E h true c = .ok a) : fromOutputScript E (p2wshScript h) c = .ok a := by
  have hlen : (p2wshScript h).length = 34 := by simp [p2wshScript, hl]
  unfold fromOutputScript
  rw [F.wsh, F.wpkh]
  simp only []
  rw [if_pos ⟨hlen, by simp [p2wshScript, startsWith]⟩]
  have : lastN (p2wshScript h) 32 = h := by
    unfold lastN; rw [hlen]; rfl
  rw [this, hm]; rfl

/-- A P2PKH address of either kind: what it parses to. -/
theorem make_pkh (E : Env) (hs : E.net.Supported) (hH : E.H.LengthOK) (h : Bytes) (hl : h.length = 20) (c : Bool) :
    ∃ a, makePkhAddress' E h false c = .ok (some a) ∧
      ((Base58.encode E (E.net.p2pkhPrefix ++ h) = .ok a ∧ parse E a = .ok (E.net.p2pkhPrefix ++ h)) ∨
       (CashNet E.net ∧ parse E a = .ok ([0] ++ h) ∧ ∃ pre, E.net.cashaddrPrefix = some pre ∧ pre <+: a)) := by
  have F := netFacts hs
  obtain ⟨a, h1, h2⟩ := base58_make E hH (E.net.p2pkhPrefix ++ h)
  unfold makePkhAddress'
  rcases F.cash with C | C
  · rw [C.noP2pkh]; exact ⟨a, by simp [h1, Except.map], .inl ⟨h1, h2⟩⟩
  · rw [C.p2pkh]
    cases c with
    | false => exact ⟨a, by simp [h1, Except.map], .inl ⟨h1, h2⟩⟩
    | true =>
      obtain ⟨a, h1, h2⟩ := cash_make E hs C ([0] ++ h) (by simp [hl])
      exact ⟨a, by simp only [h1, Except.map], .inr ⟨C, h2⟩⟩

theorem make_sh (E : Env) (hs : E.net.Supported) (hH : E.H.LengthOK) (h : Bytes) (hl : h.length = 20) (c : Bool) :
    ∃ a, hashToShAddress E h false c = .ok (some a) ∧
      ((Base58.encode E (E.net.p2shPrefix ++ h) = .ok a ∧ parse E a = .ok (E.net.p2shPrefix ++ h)) ∨
       (CashNet E.net ∧ parse E a = .ok ([8] ++ h) ∧ ∃ pre, E.net.cashaddrPrefix = some pre ∧ pre <+: a)) := by
  have F := netFacts hs
  obtain ⟨a, h1, h2⟩ := base58_make E hH (E.net.p2shPrefix ++ h)
  unfold hashToShAddress
  rcases F.cash with C | C
  · rw [C.noP2sh]; exact ⟨a, by simp [h1, Except.map], .inl ⟨h1, h2⟩⟩
  · rw [C.p2sh]
    cases c with
    | false => exact ⟨a, by simp [h1, Except.map], .inl ⟨h1, h2⟩⟩
    | true =>
      obtain ⟨a, h1, h2⟩ := cash_make E hs C ([8] ++ h) (by simp [hl])
      exact ⟨a, by simp only [h1, Except.map], .inr ⟨C, h2⟩⟩

theorem pkh_script (E : Env) (hs : E.net.Supported) (hH : E.H.LengthOK) (h : Bytes) (hl : h.length = 20) (c : Bool) :
    ∃ a, makePkhAddress' E h false c = .ok (some a) ∧ toOutputScript E a = .ok (p2pkhScript h) := by
  obtain ⟨a, h1, h2⟩ := make_pkh E hs hH h hl c
  refine ⟨a, h1, ?_⟩
  rw [toOutputScript_eq]
  rcases h2 with h2 | ⟨C, h2, _⟩
  · rw [h2.2]; exact outScript_p2pkh (netFacts hs) hl
  · rw [h2]; exact outScript_cash_p2pkh (netFacts hs) C hl

theorem sh_script (E : Env) (hs : E.net.Supported) (hH : E.H.LengthOK) (h : Bytes) (hl : h.length = 20) (c : Bool) :
    ∃ a, hashToShAddress E h false c = .ok (some a) ∧ toOutputScript E a = .ok (p2shScript h) := by
  obtain ⟨a, h1, h2⟩ := make_sh E hs hH h hl c
  refine ⟨a, h1, ?_⟩
  rw [toOutputScript_eq]
  rcases h2 with h2 | ⟨C, h2, _⟩
  · rw [h2.2]; exact outScript_p2sh (netFacts hs) hl
  · rw [h2]; exact outScript_cash_p2sh (netFacts hs) C hl

theorem plain_of_segwit {net : Network} (hs : net.Supported) (hsw : net.segwit = true) : PlainNet net := by
  rcases (netFacts hs).cash with C | C
  · exact C
  · rw [C.noSegwit] at hsw; cases hsw

theorem wpkh_make (E : Env) (hs : E.net.Supported) (hsw : E.net.segwit = true) (h : Bytes) (c : Bool) :
    makePkhAddress' E h true c = segwitEncode E ([0, 20] ++ h) := by
  unfold makePkhAddress'
  rw [(plain_of_segwit hs hsw).noP2pkh, (netFacts hs).wpkh]; simp

theorem wsh_make (E : Env) (hs : E.net.Supported) (hsw : E.net.segwit = true) (h : Bytes) (c : Bool) :
    hashToShAddress E h true c = segwitEncode E ([0, 32] ++ h) := by
  unfold hashToShAddress
  rw [(plain_of_segwit hs hsw).noP2sh, (netFacts hs).wsh]; simp

/-- What a witness address pays to: the script, or nothing at all. -/
theorem segwit_script (E : Env) (hs : E.net.Supported) (hH : E.H.LengthOK) (hsw : E.net.segwit = true) (l : UInt8) (h : Bytes)
    (hl : h.length = l.toNat) (hl2 : l = 20 ∨ l = 32) :
    ∃ a, segwitEncode E ([0, l] ++ h) = .ok (some a) ∧
      ((toOutputScript E a = .ok ([0, l] ++ h)) ∨
        (E.net.segwitEncoder = .bech32 ∧ (∃ d, Base58.decode E a = .ok d) ∧ toOutputScript E a = .error .valueError)) := by
  obtain ⟨a, h1, _, h2⟩ := segwit_make E hs hH hsw l h hl hl2
  refine ⟨a, h1, ?_⟩
  rcases h2 with h2 | ⟨d, he, hb, h2, h3, h4⟩
  · left
    rw [toOutputScript_eq, h2]
    rcases hl2 with rfl | rfl
    · exact outScript_wpkh (netFacts hs) hl
    · exact outScript_wsh (netFacts hs) hl
  · right
    refine ⟨he, ⟨d, hb⟩, ?_⟩
    rw [toOutputScript_eq, h2]
    exact outScript_long (netFacts hs) (by omega) h4

/-! ### the results of the output script -/

theorem outScript_ok {net : Network} (F : NetFacts net) {d s : Bytes} (h : outScript net d = .ok s) :
    (d = s ∧ ∃ x, (x.length = 20 ∧ s = p2wpkhScript x) ∨ (x.length = 32 ∧ s = p2wshScript x)) ∨
    (∃ p x, x.length = 20 ∧ d = p ++ x ∧ ((s = p2pkhScript x ∧ (p = net.p2pkhPrefix ∨ net.cashaddrP2pkh = some p)) ∨
      (s = p2shScript x ∧ (p = net.p2shPrefix ∨ net.cashaddrP2sh = some p)))) := by
  have l12 := F.len12
  have l := F.len
  unfold outScript at h
  by_cases c1 : startsWith d net.p2wpkhPrefix = true ∧ d.length = 22
  · rw [if_pos c1] at h
    cases h
    obtain ⟨x, hx⟩ := (startsWith_iff _ _).1 c1.1
    rw [F.wpkh] at hx
    exact .inl ⟨rfl, x, .inl ⟨by have := c1.2; rw [hx] at this; simpa using this, hx⟩⟩
  rw [if_neg c1] at h
  by_cases c2 : startsWith d net.p2wshPrefix = true ∧ d.length = 34
  · rw [if_pos c2] at h
    cases h
    obtain ⟨x, hx⟩ := (startsWith_iff _ _).1 c2.1
    rw [F.wsh] at hx
    exact .inl ⟨rfl, x, .inr ⟨by have := c2.2; rw [hx] at this; simpa using this, hx⟩⟩
  rw [if_neg c2] at h
  simp only [] at h
  right
  by_cases c3 : startsWith d net.p2shPrefix = true ∧ d.length = net.p2shPrefix.length + 20
  · rw [if_pos c3] at h
    obtain ⟨x, hx⟩ := (startsWith_iff _ _).1 c3.1
    have hxl : x.length = 20 := by have := c3.2; rw [hx] at this; simpa using this
    rw [hx, List.drop_left, if_neg (ne_nil_of_length hxl)] at h
    cases h
    exact ⟨_, x, hxl, hx, .inr ⟨rfl, .inl rfl⟩⟩
  rw [if_neg c3] at h
  by_cases c4 : startsWith d net.p2pkhPrefix = true ∧ d.length = net.p2pkhPrefix.length + 20
  · rw [if_pos c4] at h
    obtain ⟨x, hx⟩ := (startsWith_iff _ _).1 c4.1
    have hxl : x.length = 20 := by have := c4.2; rw [hx] at this; simpa using this
    rw [hx, List.drop_left, if_neg (ne_nil_of_length hxl)] at h
    cases h
    exact ⟨_, x, hxl, hx, .inl ⟨rfl, .inl rfl⟩⟩
  rw [if_neg c4] at h
  rcases F.cash with C | C
  · rw [C.noP2sh, C.noP2pkh] at h; cases h
  · rw [C.p2sh, C.p2pkh] at h
    simp only [] at h
    by_cases c5 : startsWith d [0] = true ∧ d.length = ([0] : Bytes).length + 20
    · rw [if_pos c5] at h
      obtain ⟨x, hx⟩ := (startsWith_iff _ _).1 c5.1
      have hxl : x.length = 20 := by have := c5.2; rw [hx] at this; simpa using this
      have hdrop : d.drop net.p2pkhPrefix.length = x := by rw [C.l1, hx]; rfl
      rw [hdrop, if_neg (ne_nil_of_length hxl)] at h
      cases h
      exact ⟨_, x, hxl, hx, .inl ⟨rfl, .inr C.p2pkh⟩⟩
    rw [if_neg c5] at h
    by_cases c6 : startsWith d [8] = true ∧ d.length = ([8] : Bytes).length + 20
    · rw [if_pos c6] at h
      obtain ⟨x, hx⟩ := (startsWith_iff _ _).1 c6.1
      have hxl : x.length = 20 := by have := c6.2; rw [hx] at this; simpa using this
      have hdrop : d.drop net.p2shPrefix.length = x := by rw [l, C.l1, hx]; rfl
      rw [hdrop, if_neg (ne_nil_of_length hxl)] at h
      cases h
      exact ⟨_, x, hxl, hx, .inr ⟨rfl, .inr C.p2sh⟩⟩
    rw [if_neg c6] at h
    cases h

theorem ite_error {α : Type} {c : Prop} [Decidable c] {x : α} {e e' : PyErr}
    (h : (if c then (.error e' : Py α) else .ok x) = .error e) : e = e' := by
  split at h <;> cases h; rfl

theorem outScript_error {net : Network} {d : Bytes} {e : PyErr} (h : outScript net d = .error e) : e = .valueError := by
  unfold outScript at h
  by_cases c1 : startsWith d net.p2wpkhPrefix = true ∧ d.length = 22
  · rw [if_pos c1] at h; cases h
  rw [if_neg c1] at h
  by_cases c2 : startsWith d net.p2wshPrefix = true ∧ d.length = 34
  · rw [if_pos c2] at h; cases h
  rw [if_neg c2] at h
  exact ite_error h

end Verif.Addresses
