import Verif.Props.Addresses2
import Verif.Spec.Letters

/-! C94: the addresses of a network begin with the network's well-known characters. -/

namespace Verif.Props

open Verif Spec Addresses

/-! ### leading base-58 digits -/

theorem digits_suffix (n m : Nat) : Nat.digits 58 (n / 58 ^ m) <:+ Nat.digits 58 n := by
  induction m with
  | zero => simp
  | succ m ih =>
    refine List.IsSuffix.trans ?_ ih
    rw [pow_succ, ← Nat.div_div_eq_div_mul]
    rcases Nat.eq_zero_or_pos (n / 58 ^ m) with h | h
    · rw [h]
    · rw [Nat.digits_def' (by norm_num) h]
      exact List.suffix_cons _ _

/-- A string without a leading `1` is how the base-58 digits of its value are written. -/
theorem digits_of_value {p : PyStr} (ha : ∀ c ∈ p, c ∈ b58Alphabet) (h1 : Base58.lz (p.map b58Digit) = 0) :
    (Nat.digits 58 (Base58.valBE 58 (p.map b58Digit))).reverse.map Base58.b58Char = p := by
  have hd : ∀ d ∈ p.map b58Digit, d < 58 := Base58.digit_lt_map p ha
  have hc := Base58.canonical (b := 58) (by norm_num) hd
  rw [h1, List.replicate_zero, List.nil_append] at hc
  rw [hc, List.map_map]
  refine Base58.map_id_of _ _ fun c hcm => ?_
  exact (Base58.char_facts c (ha c hcm)).2.2.2

/-- What the beginnings of the strings for a version prefix `v` followed by 24 more bytes have to satisfy. -/
def leads (v : Bytes) (l : List PyStr) : Prop :=
  (v.head? = some 0 ∧ ['1'] ∈ l) ∨
  (v.head? ≠ some 0 ∧ v ≠ [] ∧ ∃ m ∈ List.range 40,
    let lo := beValue v * 256 ^ 24 / 58 ^ m
    let hi := ((beValue v + 1) * 256 ^ 24 - 1) / 58 ^ m
    hi < lo + 3 ∧ ∀ q ∈ List.range 3, lo + q ≤ hi → ∃ p ∈ l, (∀ c ∈ p, c ∈ b58Alphabet) ∧ Base58.lz (p.map b58Digit) = 0 ∧
      Base58.valBE 58 (p.map b58Digit) = lo + q)

instance (v : Bytes) (l : List PyStr) : Decidable (leads v l) := by unfold leads; infer_instance

theorem beValue_append (a b : Bytes) : beValue (a ++ b) = beValue a * 256 ^ b.length + beValue b := by
  simp only [Base58.beValue_eq, Base58.valBE_eq, List.map_append, List.reverse_append, Nat.ofDigits_append]
  simp [Nat.add_comm, Nat.mul_comm]

theorem beValue_lt (b : Bytes) : beValue b < 256 ^ b.length := by
  rw [Base58.beValue_eq]
  have := valBE_lt (b.map UInt8.toNat) (Base58.toNat_lt_map b)
  rwa [List.length_map] at this

theorem enc_leads {v : Bytes} {l : List PyStr} (hv : leads v l) (rest : Bytes) (hr : rest.length = 24) :
    ∃ p ∈ l, p <+: Base58.enc (v ++ rest) := by
  rcases hv with ⟨h0, h1⟩ | ⟨h0, hne, m, -, hlt, hq⟩
  · refine ⟨['1'], h1, ?_⟩
    cases v with
    | nil => simp at h0
    | cons x xs =>
      simp only [List.head?_cons, Option.some.injEq] at h0
      subst h0
      unfold Base58.enc Base58.conv Base58.lz
      simp only [List.cons_append, List.map_cons]
      rw [show (UInt8.toNat 0 : Nat) = 0 from rfl]
      simp only [List.takeWhile_cons, beq_self_eq_true, if_true, List.length_cons, List.replicate_succ, List.cons_append, List.map_cons]
      rw [show Base58.b58Char 0 = '1' by decide]
      exact ⟨_, rfl⟩
  · set N := beValue (v ++ rest) with hN
    have h1 := beValue_append v rest
    rw [hr] at h1
    have h2 := beValue_lt rest
    rw [hr] at h2
    have hlo : beValue v * 256 ^ 24 / 58 ^ m ≤ N / 58 ^ m := Nat.div_le_div_right (by omega)
    have hhi : N / 58 ^ m ≤ ((beValue v + 1) * 256 ^ 24 - 1) / 58 ^ m := Nat.div_le_div_right (by omega)
    obtain ⟨p, hp, ha, hz, hval⟩ := hq (N / 58 ^ m - beValue v * 256 ^ 24 / 58 ^ m) (by simp only [List.mem_range]; omega) (by omega)
    rw [show beValue v * 256 ^ 24 / 58 ^ m + (N / 58 ^ m - beValue v * 256 ^ 24 / 58 ^ m) = N / 58 ^ m by omega] at hval
    refine ⟨p, hp, ?_⟩
    have he := digits_of_value ha hz
    rw [hval] at he
    have hlz : Base58.lz ((v ++ rest).map UInt8.toNat) = 0 := by
      cases v with
      | nil => exact absurd rfl hne
      | cons x xs =>
        have hx : x ≠ 0 := by simpa using h0
        have : x.toNat ≠ 0 := fun h => hx (UInt8.toNat.inj h)
        simp [Base58.lz, this]
    rw [← he]
    unfold Base58.enc Base58.conv
    rw [hlz, List.replicate_zero, List.nil_append, ← Base58.beValue_eq, ← hN]
    exact List.IsPrefix.map Base58.b58Char (List.reverse_prefix.2 (digits_suffix N m))

theorem letters_check : ∀ r ∈ base58Letters, ∀ n, getNetwork r.1 = .ok n → leads n.p2pkhPrefix r.2.1 ∧ leads n.p2shPrefix r.2.2 := by
  have key : ∀ r ∈ base58Letters, ∃ n, supported.lookup r.1 = some n ∧ leads n.p2pkhPrefix r.2.1 ∧ leads n.p2shPrefix r.2.2 := by
    have key' : ∀ r ∈ base58Letters, ∃ n ∈ supported.map (·.2), supported.lookup r.1 = some n ∧ leads n.p2pkhPrefix r.2.1 ∧
        leads n.p2shPrefix r.2.2 := by decide +kernel
    intro r hr
    obtain ⟨n, -, h⟩ := key' r hr
    exact ⟨n, h⟩
  intro r hr n hn
  obtain ⟨n', h1, h2⟩ := key r hr
  simp only [getNetwork, h1, Except.ok.injEq] at hn
  rw [← hn]; exact h2

theorem lookup_mem {α β : Type} [BEq α] {k : α} {v : β} : ∀ {l : List (α × β)}, l.lookup k = some v → v ∈ l.map (·.2)
  | [], h => by simp at h
  | (a, b) :: l, h => by
    rw [List.lookup_cons] at h
    split at h
    · simp only [Option.some.injEq] at h; simp [h]
    · exact List.mem_cons_of_mem _ (lookup_mem h)

theorem getNetwork_supported {name : PyStr} {n : Network} (h : getNetwork name = .ok n) : n.Supported := by
  unfold getNetwork at h
  cases h' : supported.lookup name with
  | none => rw [h'] at h; simp at h
  | some m =>
    simp only [h', Except.ok.injEq] at h
    rw [← h]; exact lookup_mem h'

/-! ### C94 -/

theorem pkh_legacy (E : Env) (h : Bytes) :
    makePkhAddress' E h false false = (Base58.encode E (E.net.p2pkhPrefix ++ h)).map some := by
  unfold makePkhAddress'
  cases E.net.cashaddrP2pkh <;> simp

theorem sh_legacy (E : Env) (h : Bytes) :
    hashToShAddress E h false false = (Base58.encode E (E.net.p2shPrefix ++ h)).map some := by
  unfold hashToShAddress
  cases E.net.cashaddrP2sh <;> simp

theorem encode_leads {E : Env} (hH : E.H.LengthOK) {v : Bytes} {l : List PyStr} (hv : leads v l) (h : Bytes) (hl : h.length = 20) :
    ∃ a, Base58.encode E (v ++ h) = .ok a ∧ ∃ p ∈ l, p <+: a := by
  refine ⟨_, encode_eq E (v ++ h) true, ?_⟩
  simp only [if_true, List.append_assoc]
  refine enc_leads hv _ ?_
  have : ((E.hash256 (v ++ h)).take 4).length = 4 := by
    rw [List.length_take, E.hash256_length hH]; rfl
  rw [List.length_append, hl, this]

/-- For every network of the table, every 20-byte hash and all hash functions: the Base58 address of the P2PKH script of the
hash begins with one of the listed strings, and so does the one of the P2SH script. -/
theorem C94_base58 (name : PyStr) (pk sh : List PyStr) (ht : (name, pk, sh) ∈ base58Letters) (net : Network)
    (hn : getNetwork name = .ok net) (H : Hashes) (hH : H.LengthOK) (h : Bytes) (hl : h.length = 20) :
    (∃ a, fromOutputScript ⟨net, H⟩ (p2pkhScript h) false = .ok (some a) ∧ ∃ p ∈ pk, p <+: a) ∧
    (∃ a, fromOutputScript ⟨net, H⟩ (p2shScript h) false = .ok (some a) ∧ ∃ p ∈ sh, p <+: a) := by
  have F := netFacts (getNetwork_supported hn)
  obtain ⟨k1, k2⟩ := letters_check _ ht net hn
  obtain ⟨a, ha, ha'⟩ := encode_leads (E := ⟨net, H⟩) hH k1 h hl
  obtain ⟨b, hb, hb'⟩ := encode_leads (E := ⟨net, H⟩) hH k2 h hl
  refine ⟨⟨a, ?_, ha'⟩, b, ?_, hb'⟩
  · rw [show p2pkhScript h = [0x76, 0xa9, 0x14] ++ h ++ [0x88, 0xac] from rfl, from_p2pkh_like (E := ⟨net, H⟩) F hl rfl, pkh_legacy, ha]
    rfl
  · rw [show p2shScript h = [0xa9, 0x14] ++ h ++ [0x87] from rfl, from_p2sh_like (E := ⟨net, H⟩) F hl rfl, sh_legacy, hb]
    rfl

/-- The table covers every supported network but Decred's simnet. -/
theorem C94_base58_covers (net : Network) (hs : net.Supported) (hd : net ≠ decredSimnet) :
    ∃ r ∈ base58Letters, getNetwork r.1 = .ok net ∧ r.2.1 ≠ [] ∧ r.2.2 ≠ [] := by
  have key : ∀ n : Network, n.Supported → n ≠ decredSimnet →
      ∃ r ∈ base58Letters, getNetwork r.1 = .ok n ∧ r.2.1 ≠ [] ∧ r.2.2 ≠ [] := by
    unfold Network.Supported; decide +kernel
  exact key net hs hd

theorem not_prefix {x y a : PyStr} (h1 : x <+: a) (hl : x.length = y.length) (hn : x ≠ y) : ¬ y <+: a := fun h2 =>
  hn ((List.prefix_of_prefix_length_le h1 h2 hl.le).eq_of_length hl)

/-- Decred's simnet addresses begin with `Ss` (P2PKH) and `Sc` (P2SH); the library's begin with `2F` and `Tc`. -/
theorem C94_decred_simnet_false (H : Hashes) (hH : H.LengthOK) (h : Bytes) (hl : h.length = 20) :
    (∃ a, fromOutputScript ⟨decredSimnet, H⟩ (p2pkhScript h) = .ok (some a) ∧ "2F".toList <+: a ∧ ¬ "Ss".toList <+: a) ∧
    (∃ a, fromOutputScript ⟨decredSimnet, H⟩ (p2shScript h) = .ok (some a) ∧ "Tc".toList <+: a ∧ ¬ "Sc".toList <+: a) := by
  have F := netFacts (getNetwork_supported (name := pystr "decred_simnet") (n := decredSimnet) rfl)
  have k1 : leads decredSimnet.p2pkhPrefix ["2F".toList] := by decide +kernel
  have k2 : leads decredSimnet.p2shPrefix ["Tc".toList] := by decide +kernel
  obtain ⟨a, ha, p, hp, ha'⟩ := encode_leads (E := ⟨decredSimnet, H⟩) hH k1 h hl
  obtain ⟨b, hb, q, hq, hb'⟩ := encode_leads (E := ⟨decredSimnet, H⟩) hH k2 h hl
  simp only [List.mem_singleton] at hp hq
  subst hp hq
  refine ⟨⟨a, ?_, ha', not_prefix ha' rfl (by decide)⟩, b, ?_, hb', not_prefix hb' rfl (by decide)⟩
  · rw [show p2pkhScript h = [0x76, 0xa9, 0x14] ++ h ++ [0x88, 0xac] from rfl,
      from_p2pkh_like (E := ⟨decredSimnet, H⟩) F hl rfl]
    unfold makePkhAddress'
    simp only [show decredSimnet.cashaddrP2pkh = none from rfl, Bool.false_eq_true, if_false]
    simp only [ha]; rfl
  · rw [show p2shScript h = [0xa9, 0x14] ++ h ++ [0x87] from rfl, from_p2sh_like (E := ⟨decredSimnet, H⟩) F hl rfl]
    unfold hashToShAddress
    simp only [show decredSimnet.cashaddrP2sh = none from rfl, Bool.false_eq_true, if_false]
    simp only [hb]; rfl

/-! ### C86 between Decred and the other networks -/

theorem lower_prefix {p a : PyStr} (h : p <+: a) : lowerCased p <+: lowerCased a := by
  unfold lowerCased; exact List.IsPrefix.map _ h

/-- A Base58 string that does not begin like a Bech32 address of the network, and whose payload the network gives no meaning, is no address. -/
theorem foreign_rejected {E : Env} (hs : E.net.Supported) {a : PyStr} (halpha : ∀ c ∈ a, c ∈ b58Alphabet)
    (hdec : ∀ d, Base58.decode E a = .ok d → outScript E.net d = .error .valueError)
    (h32 : ∀ hrp, E.net.bech32Hrp = some hrp → ¬ (hrp ++ ['1']) <+: lowerCased a) : toOutputScript E a = .error .valueError := by
  have hseg : ∀ d, segwitDecode E a = .ok d → outScript E.net d = .error .valueError := by
    intro d hd
    unfold segwitDecode at hd
    cases henc : E.net.segwitEncoder with
    | base58 => simp only [henc] at hd; exact hdec d hd
    | bech32 =>
      simp only [henc] at hd
      obtain ⟨-, -, hrp, hh, hp⟩ := C22_canonical E.net hs a d hd
      exact absurd hp (h32 hrp hh)
  have hcash : ∀ d, Cashaddr.decode E.net a ≠ .ok d := by
    intro d hd
    obtain ⟨pre, more, q, -, e, -⟩ := C26_partial E.net hs a d hd
    exact absurd (halpha ':' (by rw [e]; simp)) (by decide)
  rw [toOutputScript_eq]
  unfold parse tryCatchPy
  cases h1 : Base58.decode E a with
  | ok d => simp only [ok_bind]; exact hdec d h1
  | error e =>
    have he : e = .valueError := by
      rcases b58_cases E a with ⟨d, hd⟩ | h'
      · rw [h1] at hd; cases hd
      · rw [h1] at h'; cases h'; rfl
    subst he
    cases h2 : segwitDecode E a with
    | ok d => simp [ok_bind, hseg d h2]
    | error e2 =>
      cases h3 : Cashaddr.decode E.net a with
      | ok d => exact absurd h3 (hcash d)
      | error e3 => simp [error_bind]

/-- **C86** between Decred and the other networks: the Base58Check address of a key or script is no address at all there, for every hash and
all hash functions, even if the two checksums happen to agree. -/
theorem C86_decred (A B : Network) (hA : A.Supported) (hB : B.Supported) (H : Hashes) (hH : H.LengthOK) (hd : A.isDecred ≠ B.isDecred)
    (h : Bytes) (hl : h.length = 20) :
    (∃ a, makePkhAddress' ⟨A, H⟩ h false false = .ok (some a) ∧ toOutputScript ⟨B, H⟩ a = .error .valueError) ∧
    (∃ a, hashToShAddress ⟨A, H⟩ h false false = .ok (some a) ∧ toOutputScript ⟨B, H⟩ a = .error .valueError) := by
  have dlead : ∀ net : Network, net.Supported → net.isDecred = true →
      leads net.p2pkhPrefix ["Ds".toList, "Ts".toList, "2F".toList] ∧ leads net.p2shPrefix ["Dc".toList, "Tc".toList] := by
    unfold Network.Supported; decide +kernel
  have nohrp : ∀ net : Network, net.Supported → (net.isDecred = true → net.bech32Hrp = none) ∧
      ∀ p ∈ ["Ds".toList, "Ts".toList, "2F".toList, "Dc".toList, "Tc".toList],
        (net.bech32Hrp.getD []).take 2 ≠ lowerCased p ∧ (net.bech32Hrp.isSome → 2 ≤ (net.bech32Hrp.getD []).length) := by
    unfold Network.Supported; decide +kernel
  have nover : ∀ X : Network, X.Supported → ∀ Y : Network, Y.Supported → X.isDecred ≠ Y.isDecred →
      ∀ v ∈ [X.p2pkhPrefix, X.p2shPrefix], v ≠ Y.p2pkhPrefix ∧ v ≠ Y.p2shPrefix ∧ Y.cashaddrP2pkh ≠ some v ∧ Y.cashaddrP2sh ≠ some v ∧
        v ≠ [0, 20] ∧ v.length ≤ 2 := by
    unfold Network.Supported; decide +kernel
  have main : ∀ v ∈ [A.p2pkhPrefix, A.p2shPrefix],
      (A.isDecred = true → ∃ l : List PyStr, leads v l ∧ ∀ p ∈ l, p ∈ ["Ds".toList, "Ts".toList, "2F".toList, "Dc".toList, "Tc".toList]) →
      ∃ a, Base58.encode ⟨A, H⟩ (v ++ h) = .ok a ∧ toOutputScript ⟨B, H⟩ a = .error .valueError := by
    intro v hv hlead
    obtain ⟨n1, n2, n3, n4, n5, n6⟩ := nover A hA B hB hd v hv
    have hw := encode_eq ⟨A, H⟩ (v ++ h) true
    refine ⟨_, hw, foreign_rejected (E := ⟨B, H⟩) hB ?_ ?_ ?_⟩
    · exact Base58.enc_alphabet _
    · intro d hd'
      have h4 : ((Env.hash256 ⟨A, H⟩ (v ++ h)).take 4).length = 4 := by simp [Env.hash256_length ⟨A, H⟩ hH]
      rw [decode_check_eq, Base58.dec_enc] at hd'
      simp only [if_true] at hd'
      rw [(dropLastN_append (v ++ h) _ 4 h4).1] at hd'
      split at hd'
      · simp only [Except.ok.injEq] at hd'
        subst hd'
        cases ho : outScript B (v ++ h) with
        | error e => rw [outScript_error ho]
        | ok s =>
          exfalso
          rcases outScript_ok (netFacts hB) ho with ⟨e, x, ⟨hx, h'⟩ | ⟨hx, h'⟩⟩ | ⟨p, x, hx, e, ⟨h', hp⟩ | ⟨h', hp⟩⟩
          · exact n5 (List.append_inj' (e.trans h') (by rw [hl, hx])).1
          · have := congrArg List.length (e.trans h')
            simp [p2wshScript, hl, hx] at this
            omega
          · obtain ⟨rfl, _⟩ := List.append_inj' e (by rw [hl, hx])
            rcases hp with hp | hp
            · exact n1 hp
            · exact n3 hp
          · obtain ⟨rfl, _⟩ := List.append_inj' e (by rw [hl, hx])
            rcases hp with hp | hp
            · exact n2 hp
            · exact n4 hp
      · cases hd'
    · intro hrp hh hp
      by_cases hA' : A.isDecred = true
      · obtain ⟨l, hl1, hl2⟩ := hlead hA'
        obtain ⟨a', ha', p, hp1, hp2⟩ := encode_leads (E := ⟨A, H⟩) hH hl1 h hl
        rw [hw, Except.ok.injEq] at ha'
        subst ha'
        obtain ⟨-, k⟩ := nohrp B hB
        obtain ⟨k1, k2⟩ := k p (hl2 p hp1)
        rw [show B.bech32Hrp = some hrp from hh] at k1 k2
        simp only [Option.getD_some, Option.isSome_some, forall_const] at k1 k2
        apply k1
        have hpl : (lowerCased p).length = 2 := by
          have : ∀ p ∈ ["Ds".toList, "Ts".toList, "2F".toList, "Dc".toList, "Tc".toList], (lowerCased p).length = 2 := by decide
          exact this p (hl2 p hp1)
        have h1 : hrp.take 2 <+: lowerCased (Base58.enc (if true = true then v ++ h ++ (Env.hash256 ⟨A, H⟩ (v ++ h)).take 4 else v ++ h)) :=
          ((List.take_prefix 2 hrp).trans (List.prefix_append hrp ['1'])).trans hp
        exact (List.prefix_of_prefix_length_le h1 (lower_prefix hp2) (by rw [hpl]; simp)).eq_of_length (by rw [hpl, List.length_take]; omega)
      · have hB' : B.isDecred = true := by
          cases h1 : A.isDecred <;> cases h2 : B.isDecred <;> simp_all
        rw [(nohrp B hB).1 hB'] at hh
        cases hh
  constructor
  · obtain ⟨a, h1, h2⟩ := main A.p2pkhPrefix (by simp) fun hA' => ⟨_, (dlead A hA hA').1, by decide⟩
    exact ⟨a, by rw [pkh_legacy, h1]; rfl, h2⟩
  · obtain ⟨a, h1, h2⟩ := main A.p2shPrefix (by simp) fun hA' => ⟨_, (dlead A hA hA').2, by decide⟩
    exact ⟨a, by rw [sh_legacy, h1]; rfl, h2⟩

example : decredTest.Supported ∧ bitcoinMain.Supported ∧ decredTest.isDecred ≠ bitcoinMain.isDecred ∧ toyHashes.LengthOK :=
  ⟨by unfold Network.Supported; decide +kernel, by unfold Network.Supported; decide +kernel, by decide, toyHashes_ok⟩

/-! ### witness addresses -/

theorem bech32_check : ∀ r ∈ bech32Letters, ∀ n, getNetwork r.1 = .ok n →
    n.bech32Hrp = some r.2 ∧ n.segwit = true ∧ n.segwitEncoder = .bech32 := by
  have key : ∀ r ∈ bech32Letters, ∃ n ∈ supported.map (·.2), supported.lookup r.1 = some n ∧
      n.bech32Hrp = some r.2 ∧ n.segwit = true ∧ n.segwitEncoder = .bech32 := by
    decide +kernel
  intro r hr n hn
  obtain ⟨n', -, h1, h2⟩ := key r hr
  simp only [getNetwork, h1, Except.ok.injEq] at hn
  rw [← hn]; exact h2

theorem from_witness {E : Env} (hs : E.net.Supported) {hrp : PyStr} (hh : E.net.bech32Hrp = some hrp)
    (henc : E.net.segwitEncoder = .bech32) (l : UInt8) (h : Bytes) (hl : h.length = l.toNat) (hl2 : l = 20 ∨ l = 32) :
    ∃ a, segwitEncode E ([0, l] ++ h) = .ok (some a) ∧ (hrp ++ "1q".toList) <+: a ∧
      a.length = hrp.length + 8 + (8 * h.length + 4) / 5 := by
  have hleg : LegalProgram (0 : UInt8).toNat h.length := by rw [hl]; rcases hl2 with rfl | rfl <;> decide
  obtain ⟨a, h1, -, -⟩ := C21_roundtrip E.net hs hrp hh 0 h hleg
  have hlb : UInt8.ofNat h.length = l := by rw [hl]; exact UInt8.ofNat_toNat
  rw [hlb] at h1
  refine ⟨a, by unfold segwitEncode; rw [henc]; exact h1, ?_⟩
  rw [Bech32.encode_iff hs hh] at h1
  obtain ⟨v, rest, r, he, hreg, -, rfl⟩ := h1
  simp only [List.cons.injEq] at he
  obtain ⟨rfl, rfl⟩ := he
  have hr := Bech32.regroup_length hreg
  unfold Bech32.addrStr
  constructor
  · refine ⟨(r ++ Bech32.createChecksum hrp (UInt8.toNat 0 :: r)).map Bech32.symC, ?_⟩
    simp only [List.append_assoc, List.cons_append, List.map_cons]
    rw [show Bech32.symC (UInt8.toNat 0) = 'q' by decide]
    rfl
  · simp only [List.length_append, List.length_cons, List.length_map, Bech32.createChecksum_length, hr, List.drop_succ_cons, List.drop_zero]
    omega

/-- For every network of the table: the address of a version 0 witness script begins with the network's human-readable part,
`1` and `q`, and has the length BIP 173 gives it. -/
theorem C94_bech32 (name hrp : PyStr) (ht : (name, hrp) ∈ bech32Letters) (net : Network) (hn : getNetwork name = .ok net) (H : Hashes)
    (h : Bytes) (c : Bool) :
    (h.length = 20 → ∃ a, fromOutputScript ⟨net, H⟩ (p2wpkhScript h) c = .ok (some a) ∧ (hrp ++ "1q".toList) <+: a ∧
      a.length = hrp.length + 40) ∧
    (h.length = 32 → ∃ a, fromOutputScript ⟨net, H⟩ (p2wshScript h) c = .ok (some a) ∧ (hrp ++ "1q".toList) <+: a ∧
      a.length = hrp.length + 60) := by
  have hs := getNetwork_supported hn
  obtain ⟨hh, hsw, henc⟩ := bech32_check _ ht net hn
  constructor
  · intro hl
    obtain ⟨a, h1, h2, h3⟩ := from_witness (E := ⟨net, H⟩) hs hh henc 20 h hl (.inl rfl)
    exact ⟨a, from_p2wpkh (E := ⟨net, H⟩) (netFacts hs) hl _ _ (by rw [wpkh_make ⟨net, H⟩ hs hsw]; exact h1), h2, by rw [h3, hl]⟩
  · intro hl
    obtain ⟨a, h1, h2, h3⟩ := from_witness (E := ⟨net, H⟩) hs hh henc 32 h hl (.inr rfl)
    exact ⟨a, from_p2wsh (E := ⟨net, H⟩) (netFacts hs) hl _ _ (by rw [wsh_make ⟨net, H⟩ hs hsw]; exact h1), h2, by rw [h3, hl]⟩

/-- The table covers every supported network with bech32 addresses but Litecoin's regtest. -/
theorem C94_bech32_covers (net : Network) (hs : net.Supported) (hsw : net.segwit = true) (henc : net.segwitEncoder = .bech32)
    (hd : net ≠ litecoinRegtest) : ∃ r ∈ bech32Letters, getNetwork r.1 = .ok net := by
  have key : ∀ n : Network, n.Supported → n.segwit = true → n.segwitEncoder = .bech32 → n ≠ litecoinRegtest →
      ∃ r ∈ bech32Letters, getNetwork r.1 = .ok n := by
    unfold Network.Supported; decide +kernel
  exact key net hs hsw henc hd

/-- Litecoin's regtest witness addresses begin with `rltc1`; the library's begin with `tltc1`. -/
theorem C94_litecoin_reg_false (H : Hashes) (h : Bytes) (hl : h.length = 20) (c : Bool) :
    ∃ a, fromOutputScript ⟨litecoinRegtest, H⟩ (p2wpkhScript h) c = .ok (some a) ∧ "tltc1".toList <+: a ∧ ¬ "rltc1".toList <+: a := by
  have hs := getNetwork_supported (name := pystr "litecoin_reg") (n := litecoinRegtest) rfl
  obtain ⟨a, h1, h2, -⟩ := from_witness (E := ⟨litecoinRegtest, H⟩) hs (hrp := "tltc".toList) rfl rfl 20 h hl (.inl rfl)
  have h3 : "tltc1".toList <+: a := List.IsPrefix.trans ⟨['q'], rfl⟩ h2
  exact ⟨a, from_p2wpkh (E := ⟨litecoinRegtest, H⟩) (netFacts hs) hl _ _ (by rw [wpkh_make ⟨litecoinRegtest, H⟩ hs rfl]; exact h1), h3,
    not_prefix h3 rfl (by decide)⟩

/-- The witness networks whose segwit encoder is Base58 (Groestlcoin, Monacoin, Syscoin, Bitcore, Navcoin): their witness
addresses all begin with `1`, never with a human-readable part, even where the network has one (Groestlcoin's `grs`). -/
theorem C94_base58_witness_false (E : Env) (hs : E.net.Supported) (hH : E.H.LengthOK) (hsw : E.net.segwit = true)
    (henc : E.net.segwitEncoder = .base58) (h : Bytes) (hl : h.length = 20) (c : Bool) :
    ∃ a, fromOutputScript E (p2wpkhScript h) c = .ok (some a) ∧ a.head? = some '1' ∧
      ∀ hrp, E.net.bech32Hrp = some hrp → ¬ hrp <+: a := by
  obtain ⟨a, h1, -⟩ := base58_make E hH ([0, 20] ++ h)
  have h0 := base58_zero_head hH (d := 20 :: h) (a := a) h1
  refine ⟨a, from_p2wpkh (netFacts hs) hl _ _ ?_, h0, fun hrp hh hp => ?_⟩
  · rw [wpkh_make E hs hsw]; unfold segwitEncode; rw [henc]; simp only [h1]; rfl
  · obtain ⟨k1, k2⟩ := hrp_len hs hh
    obtain ⟨t, rfl⟩ := hp
    cases hrp with
    | nil => simp at k1
    | cons x xs => simp only [List.cons_append, List.head?_cons] at h0 k2; exact k2 h0

/-! ### cashaddr -/

theorem regroup_head {x : Nat} {d r : List Nat} (h : Regroups 8 5 (x :: d) r) : ∃ y t, r = y :: t ∧ y = x / 8 := by
  obtain ⟨h1, h2, k, hk, h3⟩ := h
  cases r with
  | nil => simp [bitsOf, toBits] at h3
  | cons y t =>
    refine ⟨y, t, rfl, ?_⟩
    have hx : x < 2 ^ 8 := h1 x (by simp)
    have hy : y < 2 ^ 5 := h2 y (by simp)
    have e : toBits 5 y = toBits 5 (x >>> 3) := by
      have h4 := congrArg (List.take 5) h3
      simp only [bitsOf, List.flatMap_cons] at h4
      rw [show (8 : Nat) = 5 + 3 from rfl, toBits_add] at h4
      simpa [toBits] using h4
    have := toBits_inj hy (by rw [Nat.shiftRight_eq_div_pow]; omega) e
    rw [this, Nat.shiftRight_eq_div_pow]

theorem cash_shape {net : Network} {pre : PyStr} (hp : net.cashaddrPrefix = some pre) (x : UInt8) (h : Bytes) (hl : h.length = 20) :
    ∃ a, Cashaddr.encode net (x :: h) = .ok a ∧ (pre ++ [':', Bech32.symC (x.toNat / 8)]) <+: a ∧ a.length = pre.length + 43 := by
  obtain ⟨r, hr, he⟩ := Cashaddr.encode_eq hp (x :: h)
  refine ⟨_, he, ?_⟩
  have hlen := Bech32.regroup_length hr
  simp only [List.map_cons] at hr
  obtain ⟨y, t, rfl, rfl⟩ := regroup_head hr
  unfold Cashaddr.addrStr
  constructor
  · refine ⟨(t ++ Cashaddr.checksumNat pre ((x.toNat / 8 :: t).map Int.ofNat)).map Bech32.symC, ?_⟩
    simp
  · simp only [List.length_append, List.length_cons, List.length_map, Cashaddr.checksumNat_length, hl] at hlen ⊢
    omega

/-- On every network with cashaddr: the default address of a P2PKH script is the prefix, `:`, and 42 characters from `q` on; that
of a P2SH script continues with `p`. -/
theorem C94_cashaddr (E : Env) (hs : E.net.Supported) (pre : PyStr) (hp : E.net.cashaddrPrefix = some pre) (h : Bytes)
    (hl : h.length = 20) :
    (∃ a, fromOutputScript E (p2pkhScript h) = .ok (some a) ∧ (pre ++ ":q".toList) <+: a ∧ a.length = pre.length + 43) ∧
    (∃ a, fromOutputScript E (p2shScript h) = .ok (some a) ∧ (pre ++ ":p".toList) <+: a ∧ a.length = pre.length + 43) := by
  have F := netFacts hs
  rcases F.cash with C | C
  · rw [C.noPrefix] at hp; cases hp
  obtain ⟨a, ha, ha1, ha2⟩ := cash_shape hp 0 h hl
  obtain ⟨b, hb, hb1, hb2⟩ := cash_shape hp 8 h hl
  refine ⟨⟨a, ?_, ha1, ha2⟩, b, ?_, hb1, hb2⟩
  · rw [show p2pkhScript h = [0x76, 0xa9, 0x14] ++ h ++ [0x88, 0xac] from rfl, from_p2pkh_like F hl rfl]
    unfold makePkhAddress'
    simp only [C.p2pkh, List.cons_append, List.nil_append, ha]
    rfl
  · rw [show p2shScript h = [0xa9, 0x14] ++ h ++ [0x87] from rfl, from_p2sh_like F hl rfl]
    unfold hashToShAddress
    simp only [C.p2sh, List.cons_append, List.nil_append, hb]
    rfl

/-- The prefixes are those of the cashaddr specification on the main and test networks. -/
theorem C94_cashaddr_prefixes (net : Network) :
    (getNetwork (pystr "bitcoin_cash_main") = .ok net → net.cashaddrPrefix = some "bitcoincash".toList) ∧
    (getNetwork (pystr "bitcoin_cash_test") = .ok net → net.cashaddrPrefix = some "bchtest".toList) := by
  constructor
  · intro h
    rw [show getNetwork (pystr "bitcoin_cash_main") = .ok bitcoinCashMain from rfl, Except.ok.injEq] at h
    subst h; decide
  · intro h
    rw [show getNetwork (pystr "bitcoin_cash_test") = .ok bitcoinCashTest from rfl, Except.ok.injEq] at h
    subst h; decide

/-- The specification's regtest prefix is `bchreg`; the library's regtest addresses begin with `bchtest:` like those of the test
network, so that the two networks' addresses cannot be told apart. -/
theorem C94_cashaddr_reg_false (H : Hashes) (h : Bytes) (hl : h.length = 20) :
    ∃ a, fromOutputScript ⟨bitcoinCashRegtest, H⟩ (p2pkhScript h) = .ok (some a) ∧ "bchtest:".toList <+: a ∧
      ¬ "bchreg:".toList <+: a ∧ fromOutputScript ⟨bitcoinCashTest, H⟩ (p2pkhScript h) = .ok (some a) := by
  have hs := getNetwork_supported (name := pystr "bitcoin_cash_reg") (n := bitcoinCashRegtest) rfl
  obtain ⟨⟨a, h1, h2, -⟩, -⟩ := C94_cashaddr ⟨bitcoinCashRegtest, H⟩ hs "bchtest".toList rfl h hl
  have h3 : "bchtest:".toList <+: a := List.IsPrefix.trans ⟨['q'], rfl⟩ h2
  have h4 : "bchtest".toList <+: a := List.IsPrefix.trans ⟨[':'], rfl⟩ h3
  exact ⟨a, h1, h3, not_prefix h4 rfl (by decide), h1⟩

/-! ### the hypotheses are satisfiable -/

example : (pystr "zcash_sapling_main", ["t1".toList], ["t3".toList]) ∈ base58Letters ∧
    getNetwork (pystr "zcash_sapling_main") = .ok zcashSaplingMain ∧ (List.replicate 20 (7 : UInt8)).length = 20 := by decide +kernel
example : (pystr "bitcoin_main", "bc".toList) ∈ bech32Letters ∧ getNetwork (pystr "bitcoin_main") = .ok bitcoinMain := by decide +kernel
example : bitcoinCashMain.Supported ∧ bitcoinCashMain.cashaddrPrefix = some "bitcoincash".toList := by
  unfold Network.Supported; decide +kernel
example : groestlcoinMain.Supported ∧ groestlcoinMain.segwit = true ∧ groestlcoinMain.segwitEncoder = .base58 ∧
    groestlcoinMain.bech32Hrp = some "grs".toList := by
  unfold Network.Supported; decide +kernel

end Verif.Props
