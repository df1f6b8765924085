import Verif.Props.Bch
import Verif.Props.Addresses2

/-! Property C111: which strings are addresses of a script. -/

namespace Verif.Props
open Verif Spec Addresses

/-- `a` is the Base58Check string of the payload, with the checksum hash of the network. -/
def IsBase58Check (E : Env) (p : Bytes) (a : PyStr) : Prop := IsBase58 (p ++ (E.hash256 p).take 4) a

/-- The scripts of witness version 0. -/
def IsWitness0 (s : Bytes) : Prop := ∃ h : Bytes, h.length = 20 ∧ s = p2wpkhScript h ∨ h.length = 32 ∧ s = p2wshScript h

theorem b58_iff (E : Env) (hH : E.H.LengthOK) (a : PyStr) (p : Bytes) : Base58.decode E a = .ok p ↔ IsBase58Check E p a := C18_accepts_iff E hH a p

theorem b58_none (E : Env) (hH : E.H.LengthOK) (a : PyStr) : Base58.decode E a = .error .valueError ↔ ¬ ∃ p, IsBase58Check E p a := by
  rcases b58_cases E a with ⟨d, h⟩ | h
  · rw [h]
    exact ⟨fun e => (by cases e), fun e => absurd ⟨d, (b58_iff E hH a d).1 h⟩ e⟩
  · refine ⟨fun _ => ?_, fun _ => h⟩
    rintro ⟨p, hp⟩
    rw [← b58_iff E hH, h] at hp; cases hp

/-- What `parse` accepts. -/
theorem parse_iff (E : Env) (hH : E.H.LengthOK) (a : PyStr) (d : Bytes) : parse E a = .ok d ↔ IsBase58Check E d a ∨
    (¬ ∃ p, IsBase58Check E p a) ∧ (segwitDecode E a = .ok d ∨ (∃ e, segwitDecode E a = .error e) ∧ Cashaddr.decode E.net a = .ok d) := by
  rcases b58_cases E a with ⟨d', h⟩ | h
  · rw [parse_base58 h]
    have h' := (b58_iff E hH a d').1 h
    constructor
    · intro e; cases e; exact .inl h'
    · rintro (e | e)
      · rw [← h]; exact (b58_iff E hH a d).2 e
      · exact absurd ⟨d', h'⟩ e.1
  · have hn := (b58_none E hH a).1 h
    rw [parse_not_base58 h]
    constructor
    · intro e
      refine .inr ⟨hn, ?_⟩
      cases h1 : segwitDecode E a with
      | ok x => rw [h1] at e; exact .inl e
      | error x =>
        rw [h1] at e
        refine .inr ⟨⟨x, rfl⟩, ?_⟩
        cases h2 : Cashaddr.decode E.net a with
        | ok y => rw [h2] at e; exact e
        | error y => rw [h2] at e; cases e
    · rintro (e | ⟨-, e | ⟨⟨x, e1⟩, e2⟩⟩)
      · exact absurd ⟨d, e⟩ hn
      · rw [e]; rfl
      · rw [e1, e2]; rfl

/-- The payloads from which `to_output_script` makes a script, without cashaddr. -/
theorem outScript_plain {net : Network} (F : NetFacts net) (P : PlainNet net) (d s : Bytes) : outScript net d = .ok s ↔
    (∃ h : Bytes, h.length = 20 ∧ (d = net.p2pkhPrefix ++ h ∧ s = p2pkhScript h ∨ d = net.p2shPrefix ++ h ∧ s = p2shScript h)) ∨ d = s ∧ IsWitness0 s := by
  constructor
  · intro h
    rcases outScript_ok F h with ⟨e, x, hx⟩ | ⟨p, x, hx, e, ⟨h', hp⟩ | ⟨h', hp⟩⟩
    · exact .inr ⟨e, x, hx⟩
    · rcases hp with rfl | hp
      · exact .inl ⟨x, hx, .inl ⟨e, h'⟩⟩
      · rw [P.noP2pkh] at hp; cases hp
    · rcases hp with rfl | hp
      · exact .inl ⟨x, hx, .inr ⟨e, h'⟩⟩
      · rw [P.noP2sh] at hp; cases hp
  · rintro (⟨x, hx, ⟨rfl, rfl⟩ | ⟨rfl, rfl⟩⟩ | ⟨rfl, x, ⟨hx, rfl⟩ | ⟨hx, rfl⟩⟩)
    · exact outScript_p2pkh F hx
    · exact outScript_p2sh F hx
    · exact outScript_wpkh F hx
    · exact outScript_wsh F hx

theorem toOutputScript_iff (E : Env) (a : PyStr) (s : Bytes) : toOutputScript E a = .ok s ↔ ∃ d, parse E a = .ok d ∧ outScript E.net d = .ok s := by
  rw [toOutputScript_eq, bind_ok_iff]

/-- C111, networks without cashaddr that do not use Bech32: the addresses of a script are the Base58Check strings of the version bytes and the hash, and of the
witness scripts. -/
theorem C111_base58 (E : Env) (hs : E.net.Supported) (hH : E.H.LengthOK) (hh : E.net.bech32Hrp = none ∨ E.net.segwitEncoder = .base58)
    (hc : E.net.cashaddrPrefix = none) (a : PyStr) (s : Bytes) : toOutputScript E a = .ok s ↔
    (∃ h : Bytes, h.length = 20 ∧ (IsBase58Check E (E.net.p2pkhPrefix ++ h) a ∧ s = p2pkhScript h ∨
      IsBase58Check E (E.net.p2shPrefix ++ h) a ∧ s = p2shScript h)) ∨ IsBase58Check E s a ∧ IsWitness0 s := by
  have F := netFacts hs
  have P : PlainNet E.net := by
    rcases F.cash with P | P
    · exact P
    · have := P.pre; rw [hc] at this; cases this
  have hcd : ∀ x, Cashaddr.decode E.net a ≠ .ok x := by intro x; unfold Cashaddr.decode; rw [hc]; simp
  have hsd : (¬ ∃ p, IsBase58Check E p a) → ∀ x, segwitDecode E a ≠ .ok x := by
    intro hn x
    unfold segwitDecode
    split
    · next e =>
      rcases hh with hh | hh
      · unfold Bech32.decode; rw [hh]; simp
      · rw [e] at hh; cases hh
    · rw [(b58_none E hH a).2 hn]; simp
  have hp : ∀ d, parse E a = .ok d ↔ IsBase58Check E d a := by
    intro d
    rw [parse_iff E hH]
    constructor
    · rintro (h | ⟨h, h' | ⟨-, h'⟩⟩)
      · exact h
      · exact absurd h' (hsd h d)
      · exact absurd h' (hcd d)
    · exact .inl
  simp only [toOutputScript_iff, hp, outScript_plain F P]
  constructor
  · rintro ⟨d, h, ⟨x, hx, ⟨rfl, e⟩ | ⟨rfl, e⟩⟩ | ⟨rfl, e⟩⟩
    · exact .inl ⟨x, hx, .inl ⟨h, e⟩⟩
    · exact .inl ⟨x, hx, .inr ⟨h, e⟩⟩
    · exact .inr ⟨h, e⟩
  · rintro (⟨x, hx, ⟨h, e⟩ | ⟨h, e⟩⟩ | ⟨h, e⟩)
    · exact ⟨_, h, .inl ⟨x, hx, .inl ⟨rfl, e⟩⟩⟩
    · exact ⟨_, h, .inl ⟨x, hx, .inr ⟨rfl, e⟩⟩⟩
    · exact ⟨_, h, .inr ⟨rfl, e⟩⟩

example : ∃ a, toOutputScript ⟨dogecoinMain, toyHashes⟩ a = .ok (p2shScript (List.replicate 20 7)) := by
  obtain ⟨a, -, h, -⟩ := C16_roundtrip ⟨dogecoinMain, toyHashes⟩ toyHashes_ok ([22] ++ List.replicate 20 7) true
  refine ⟨a, (C111_base58 _ (by unfold Network.Supported; decide +kernel) toyHashes_ok (.inl rfl) rfl _ _).2 (.inl ⟨List.replicate 20 7, rfl, .inr ⟨?_, rfl⟩⟩)⟩
  exact (b58_iff _ toyHashes_ok a _).1 h

theorem hrp_encoder {net : Network} (hs : net.Supported) {hrp : PyStr} (hh : net.bech32Hrp = some hrp) :
    net.cashaddrPrefix = none ∧ net.p2pkhPrefix.length = 1 := by
  have key : ∀ net : Network, net.Supported → net.bech32Hrp.isSome → net.cashaddrPrefix = none ∧ net.p2pkhPrefix.length = 1 := by
    unfold Network.Supported; decide +kernel
  exact key net hs (by rw [hh]; rfl)

/-- C111, networks with Bech32: the addresses of a script are the Base58Check strings of the version bytes and the hash, the Bech32 addresses of version 0 and, beside
what the protocols allow, the Base58Check strings of witness scripts and the Bech32 addresses of another version with a program of 19 bytes if the version is the network's
version byte of key hashes or script hashes. (A Bech32 address that is at the same time a Base58Check string is read as the latter.) -/
theorem C111_bech32 (E : Env) (hs : E.net.Supported) (hH : E.H.LengthOK) (hrp : PyStr) (hh : E.net.bech32Hrp = some hrp)
    (henc : E.net.segwitEncoder = .bech32) (a : PyStr) (s : Bytes) : toOutputScript E a = .ok s ↔
    (∃ h : Bytes, h.length = 20 ∧ (IsBase58Check E (E.net.p2pkhPrefix ++ h) a ∧ s = p2pkhScript h ∨
      IsBase58Check E (E.net.p2shPrefix ++ h) a ∧ s = p2shScript h)) ∨ IsBase58Check E s a ∧ IsWitness0 s ∨
    (¬ ∃ p, IsBase58Check E p a) ∧
      ((∃ h : Bytes, IsSegwitAddress hrp 0 h a ∧ s = [0, UInt8.ofNat h.length] ++ h) ∨
       (∃ v prog, IsSegwitAddress hrp v prog a ∧ v ≠ 0 ∧ prog.length = 19 ∧
        (E.net.p2pkhPrefix = [UInt8.ofNat v] ∧ s = p2pkhScript (19 :: prog) ∨ E.net.p2shPrefix = [UInt8.ofNat v] ∧ s = p2shScript (19 :: prog)))) := by
  have F := netFacts hs
  obtain ⟨hc, l1⟩ := hrp_encoder hs hh
  have l2 := F.len.trans l1
  have P : PlainNet E.net := by
    rcases F.cash with P | P
    · exact P
    · have := P.pre; rw [hc] at this; cases this
  have hcd : ∀ x, Cashaddr.decode E.net a ≠ .ok x := by intro x; unfold Cashaddr.decode; rw [hc]; simp
  have hp : ∀ d, parse E a = .ok d ↔ IsBase58Check E d a ∨
      (¬ ∃ p, IsBase58Check E p a) ∧ ∃ v prog, IsSegwitAddress hrp v prog a ∧ d = UInt8.ofNat v :: UInt8.ofNat prog.length :: prog := by
    intro d
    have hsd : segwitDecode E a = .ok d ↔ ∃ v prog, IsSegwitAddress hrp v prog a ∧ d = UInt8.ofNat v :: UInt8.ofNat prog.length :: prog := by
      unfold segwitDecode; rw [henc]; exact C110_decode E.net hs hrp hh a d
    rw [parse_iff E hH, hsd]
    constructor
    · rintro (h | ⟨h, h' | ⟨-, h'⟩⟩)
      · exact .inl h
      · exact .inr ⟨h, h'⟩
      · exact absurd h' (hcd d)
    · rintro (h | ⟨h, h'⟩)
      · exact .inl h
      · exact .inr ⟨h, .inl h'⟩
  simp only [toOutputScript_iff, hp, outScript_plain F P]
  have small : ∀ n m : Nat, n < 256 → m < 256 → UInt8.ofNat n = UInt8.ofNat m → n = m := by
    intro n m hn hm e
    have := congrArg UInt8.toNat e
    simpa [Nat.mod_eq_of_lt hn, Nat.mod_eq_of_lt hm] using this
  constructor
  · rintro ⟨d, h | ⟨hn, v, prog, hA, hd⟩, ho⟩
    · rcases ho with ⟨x, hx, ⟨rfl, e⟩ | ⟨rfl, e⟩⟩ | ⟨rfl, e⟩
      · exact .inl ⟨x, hx, .inl ⟨h, e⟩⟩
      · exact .inl ⟨x, hx, .inr ⟨h, e⟩⟩
      · exact .inr (.inl ⟨h, e⟩)
    · refine .inr (.inr ⟨hn, ?_⟩)
      obtain ⟨hv, h2, h40, h0⟩ := hA.2.2.1
      have legacy : ∀ p x : Bytes, p.length = 1 → x.length = 20 → d = p ++ x → v ≠ 0 ∧ prog.length = 19 ∧ p = [UInt8.ofNat v] ∧ x = 19 :: prog := by
        intro p x lp lx e
        rw [hd] at e
        obtain ⟨y, rfl⟩ := List.length_eq_one_iff.1 lp
        simp only [List.singleton_append, List.cons.injEq] at e
        have l : prog.length = 19 := by have := congrArg List.length e.2; simp at this; omega
        refine ⟨fun hz => ?_, l, by rw [e.1], ?_⟩
        · have := h0 hz; omega
        · rw [← e.2, l]; rfl
      rcases ho with ⟨x, hx, ⟨e1, e⟩ | ⟨e1, e⟩⟩ | ⟨rfl, x, ⟨hx, e⟩ | ⟨hx, e⟩⟩
      · obtain ⟨a1, a2, a3, a4⟩ := legacy _ _ l1 hx e1
        exact .inr ⟨v, prog, hA, a1, a2, .inl ⟨a3, by rw [e, a4]⟩⟩
      · obtain ⟨a1, a2, a3, a4⟩ := legacy _ _ l2 hx e1
        exact .inr ⟨v, prog, hA, a1, a2, .inr ⟨a3, by rw [e, a4]⟩⟩
      · refine .inl ⟨prog, ?_, ?_⟩
        · rw [hd] at e
          simp only [p2wpkhScript, List.cons_append, List.cons.injEq] at e
          rw [← small v 0 (by omega) (by decide) e.1]; exact hA
        · rw [hd] at e ⊢
          simp only [p2wpkhScript, List.cons_append, List.cons.injEq] at e
          rw [e.1]; rfl
      · refine .inl ⟨prog, ?_, ?_⟩
        · rw [hd] at e
          simp only [p2wshScript, List.cons_append, List.cons.injEq] at e
          rw [← small v 0 (by omega) (by decide) e.1]; exact hA
        · rw [hd] at e ⊢
          simp only [p2wshScript, List.cons_append, List.cons.injEq] at e
          rw [e.1]; rfl
  · rintro (⟨x, hx, ⟨h, e⟩ | ⟨h, e⟩⟩ | ⟨h, e⟩ | ⟨hn, ⟨h, hA, e⟩ | ⟨v, prog, hA, hv, l, ⟨e1, e⟩ | ⟨e1, e⟩⟩⟩)
    · exact ⟨_, .inl h, .inl ⟨x, hx, .inl ⟨rfl, e⟩⟩⟩
    · exact ⟨_, .inl h, .inl ⟨x, hx, .inr ⟨rfl, e⟩⟩⟩
    · exact ⟨_, .inl h, .inr ⟨rfl, e⟩⟩
    · refine ⟨s, .inr ⟨hn, 0, h, hA, e⟩, .inr ⟨rfl, h, ?_⟩⟩
      rcases hA.2.2.1.2.2.2 rfl with l | l
      · exact .inl ⟨l, by rw [e, l]; rfl⟩
      · exact .inr ⟨l, by rw [e, l]; rfl⟩
    · refine ⟨_, .inr ⟨hn, v, prog, hA, rfl⟩, .inl ⟨19 :: prog, by simp [l], .inl ⟨?_, e⟩⟩⟩
      rw [e1, l]; rfl
    · refine ⟨_, .inr ⟨hn, v, prog, hA, rfl⟩, .inl ⟨19 :: prog, by simp [l], .inr ⟨?_, e⟩⟩⟩
      rw [e1, l]; rfl

example : (∃ h, IsSegwitAddress (pystr "bc") 0 h (pystr "bc1qqurswpc8qurswpc8qurswpc8qurswpc89fe3yv") ∧ p2wpkhScript (List.replicate 20 7) = [0, UInt8.ofNat h.length] ++ h) := by
  have h : toOutputScript ⟨bitcoinMain, toyHashes⟩ (pystr "bc1qqurswpc8qurswpc8qurswpc8qurswpc89fe3yv") = .ok (p2wpkhScript (List.replicate 20 7)) := by decide +kernel
  have hn : ∀ p, ¬ IsBase58Check ⟨bitcoinMain, toyHashes⟩ p (pystr "bc1qqurswpc8qurswpc8qurswpc8qurswpc89fe3yv") := by
    intro p hp
    rw [← b58_iff _ toyHashes_ok] at hp
    rw [show Base58.decode ⟨bitcoinMain, toyHashes⟩ (pystr "bc1qqurswpc8qurswpc8qurswpc8qurswpc89fe3yv") = .error .valueError by decide +kernel] at hp
    cases hp
  rcases (C111_bech32 _ (by unfold Network.Supported; decide +kernel) toyHashes_ok _ rfl rfl _ _).1 h with
    ⟨x, -, ⟨e, -⟩ | ⟨e, -⟩⟩ | ⟨e, -⟩ | ⟨-, e | ⟨v, prog, -, -, -, ⟨-, e⟩ | ⟨-, e⟩⟩⟩
  · exact absurd e (hn _)
  · exact absurd e (hn _)
  · exact absurd e (hn _)
  · exact e
  · exact absurd (congrArg List.head? e) (by simp [p2wpkhScript, p2pkhScript])
  · exact absurd (congrArg List.head? e) (by simp [p2wpkhScript, p2shScript])

/-- The payloads from which `to_output_script` makes a script, with cashaddr. -/
theorem outScript_cash {net : Network} (F : NetFacts net) (K : CashNet net) (d s : Bytes) : outScript net d = .ok s ↔
    (∃ h : Bytes, h.length = 20 ∧ ((d = net.p2pkhPrefix ++ h ∨ d = 0 :: h) ∧ s = p2pkhScript h ∨ (d = net.p2shPrefix ++ h ∨ d = 8 :: h) ∧ s = p2shScript h)) ∨
      d = s ∧ IsWitness0 s := by
  constructor
  · intro h
    rcases outScript_ok F h with ⟨e, x, hx⟩ | ⟨p, x, hx, e, ⟨h', hp⟩ | ⟨h', hp⟩⟩
    · exact .inr ⟨e, x, hx⟩
    · rcases hp with rfl | hp
      · exact .inl ⟨x, hx, .inl ⟨.inl e, h'⟩⟩
      · rw [K.p2pkh] at hp; cases hp; exact .inl ⟨x, hx, .inl ⟨.inr e, h'⟩⟩
    · rcases hp with rfl | hp
      · exact .inl ⟨x, hx, .inr ⟨.inl e, h'⟩⟩
      · rw [K.p2sh] at hp; cases hp; exact .inl ⟨x, hx, .inr ⟨.inr e, h'⟩⟩
  · rintro (⟨x, hx, ⟨rfl | rfl, rfl⟩ | ⟨rfl | rfl, rfl⟩⟩ | ⟨rfl, x, ⟨hx, rfl⟩ | ⟨hx, rfl⟩⟩)
    · exact outScript_p2pkh F hx
    · exact outScript_cash_p2pkh F K hx
    · exact outScript_p2sh F hx
    · exact outScript_cash_p2sh F K hx
    · exact outScript_wpkh F hx
    · exact outScript_wsh F hx

/-- `a` is a cashaddr string with the payload, as `decode` reads it: the text before the colon starts with the prefix, and the padding (one to eight bits) is arbitrary. -/
def IsCashString (pre : PyStr) (d : Bytes) (a : PyStr) : Prop :=
  ∃ more r c pad, ':' ∉ more ∧ Digits 5 r ∧ bitsOf 5 r = bitsOf 8 (d.map UInt8.toNat) ++ pad ∧ 1 ≤ pad.length ∧ pad.length ≤ 8 ∧
    Digits 5 c ∧ c.length = 8 ∧ IsCashCode (pre ++ more) (r ++ c) ∧ a = pre ++ more ++ ':' :: (r ++ c).map bechChar

/-- C111, networks with cashaddr: the addresses of a script are the Base58Check and cashaddr strings of a payload for it, whichever of the two encodings the payload
belongs to. The payloads of a script are the hash with the Base58Check version byte, the hash with the cashaddr version byte and, for witness scripts, the script. -/
theorem C111_cash (E : Env) (hs : E.net.Supported) (hH : E.H.LengthOK) (pre : PyStr) (hc : E.net.cashaddrPrefix = some pre) (a : PyStr) (s : Bytes) :
    toOutputScript E a = .ok s ↔ ∃ d, (IsBase58Check E d a ∨ IsCashString pre d a) ∧
      ((∃ h : Bytes, h.length = 20 ∧ ((d = E.net.p2pkhPrefix ++ h ∨ d = 0 :: h) ∧ s = p2pkhScript h ∨
        (d = E.net.p2shPrefix ++ h ∨ d = 8 :: h) ∧ s = p2shScript h)) ∨ d = s ∧ IsWitness0 s) := by
  have F := netFacts hs
  have K : CashNet E.net := by
    rcases F.cash with P | K
    · have := P.noPrefix; rw [hc] at this; cases this
    · exact K
  have hsd : ∃ e, segwitDecode E a = .error e := by
    unfold segwitDecode; rw [K.enc]; unfold Bech32.decode; rw [K.hrp]; exact ⟨_, rfl⟩
  have hcd : ∀ d, d ≠ [] → (Cashaddr.decode E.net a = .ok d ↔ IsCashString pre d a) := fun d hd => C110_cash_decode E.net pre hc hs a d hd
  have hcolon : ∀ d, IsCashString pre d a → ¬ ∃ p, IsBase58Check E p a := by
    rintro d ⟨more, r, c, pad, -, -, -, -, -, -, -, -, rfl⟩
    exact (b58_none E hH _).1 (base58_no_colon (by simp))
  simp only [toOutputScript_iff, outScript_cash F K]
  have hne : ∀ d, ((∃ h : Bytes, h.length = 20 ∧ ((d = E.net.p2pkhPrefix ++ h ∨ d = 0 :: h) ∧ s = p2pkhScript h ∨
        (d = E.net.p2shPrefix ++ h ∨ d = 8 :: h) ∧ s = p2shScript h)) ∨ d = s ∧ IsWitness0 s) → d ≠ [] := by
    rintro d (⟨h, hl, ⟨rfl | rfl, -⟩ | ⟨rfl | rfl, -⟩⟩ | ⟨rfl, x, ⟨-, rfl⟩ | ⟨-, rfl⟩⟩) e
    · rw [(List.append_eq_nil_iff.1 e).2] at hl; cases hl
    · cases e
    · rw [(List.append_eq_nil_iff.1 e).2] at hl; cases hl
    · cases e
    · cases e
    · cases e
  constructor
  · rintro ⟨d, hp, ho⟩
    refine ⟨d, ?_, ho⟩
    rcases (parse_iff E hH a d).1 hp with h | ⟨hn, h | ⟨-, h⟩⟩
    · exact .inl h
    · obtain ⟨e, he⟩ := hsd; rw [he] at h; cases h
    · exact .inr ((hcd d (hne d ho)).1 h)
  · rintro ⟨d, hp, ho⟩
    refine ⟨d, (parse_iff E hH a d).2 ?_, ho⟩
    rcases hp with h | h
    · exact .inl h
    · exact .inr ⟨hcolon d h, .inr ⟨hsd, (hcd d (hne d ho)).2 h⟩⟩

example : ∃ d, (IsBase58Check ⟨bitcoinCashMain, toyHashes⟩ d (pystr "bitcoincash:qqrswpc8qurswpc8qurswpc8qurswpc8qutdt3aw7w") ∨
    IsCashString (pystr "bitcoincash") d (pystr "bitcoincash:qqrswpc8qurswpc8qurswpc8qurswpc8qutdt3aw7w")) := by
  have h : toOutputScript ⟨bitcoinCashMain, toyHashes⟩ (pystr "bitcoincash:qqrswpc8qurswpc8qurswpc8qurswpc8qutdt3aw7w") = .ok (p2pkhScript (List.replicate 20 7)) := by
    decide +kernel
  obtain ⟨d, h, -⟩ := (C111_cash _ (by unfold Network.Supported; decide +kernel) toyHashes_ok _ rfl _ _).1 h
  exact ⟨d, h⟩

/-- C111: without cashaddr, a P2PKH or P2SH script has one address, unless its hash begins with the byte 19 and the network uses Bech32. -/
theorem C111_unique (E : Env) (hs : E.net.Supported) (hH : E.H.LengthOK) (hc : E.net.cashaddrPrefix = none) (a a' : PyStr) (h : Bytes) (s : Bytes)
    (hl : h.length = 20) (hsc : s = p2pkhScript h ∨ s = p2shScript h) (h19 : h.head? = some 19 → E.net.bech32Hrp = none ∨ E.net.segwitEncoder = .base58)
    (ha : toOutputScript E a = .ok s) (ha' : toOutputScript E a' = .ok s) : a = a' := by
  have inj : ∀ {p : Bytes}, IsBase58Check E p a → IsBase58Check E p a' → a = a' := by
    intro p h1 h2
    rw [← b58_iff E hH] at h1 h2
    exact C17_injective E a a' p true h1 h2
  have nw : ¬ IsWitness0 s := by
    rintro ⟨x, ⟨-, e⟩ | ⟨-, e⟩⟩ <;> rcases hsc with rfl | rfl <;> exact absurd (congrArg List.head? e) (by simp [p2pkhScript, p2shScript, p2wpkhScript, p2wshScript])
  have e1 : ∀ x : Bytes, x.length = 20 → s = p2pkhScript x → s = p2pkhScript h ∧ x = h := by
    intro x hx e
    rcases hsc with r | r
    · refine ⟨r, ?_⟩
      rw [r] at e
      simp only [p2pkhScript, List.append_assoc] at e
      have := List.append_cancel_left e
      exact (List.append_inj this (by rw [hx, hl])).1.symm
    · rw [r] at e; exact absurd (congrArg List.head? e) (by simp [p2pkhScript, p2shScript])
  have e2 : ∀ x : Bytes, x.length = 20 → s = p2shScript x → s = p2shScript h ∧ x = h := by
    intro x hx e
    rcases hsc with r | r
    · rw [r] at e; exact absurd (congrArg List.head? e) (by simp [p2pkhScript, p2shScript])
    · refine ⟨r, ?_⟩
      rw [r] at e
      simp only [p2shScript, List.append_assoc] at e
      have := List.append_cancel_left e
      exact (List.append_inj this (by rw [hx, hl])).1.symm
  have ne : p2pkhScript h ≠ p2shScript h := fun e => absurd (congrArg List.head? e) (by simp [p2pkhScript, p2shScript])
  have form : ∀ b, toOutputScript E b = .ok s → s = p2pkhScript h ∧ IsBase58Check E (E.net.p2pkhPrefix ++ h) b ∨
      s = p2shScript h ∧ IsBase58Check E (E.net.p2shPrefix ++ h) b := by
    intro b hb
    by_cases hh : E.net.bech32Hrp = none ∨ E.net.segwitEncoder = .base58
    · rcases (C111_base58 E hs hH hh hc b s).1 hb with ⟨x, hx, ⟨h1, e⟩ | ⟨h1, e⟩⟩ | ⟨-, e⟩
      · obtain ⟨r, rfl⟩ := e1 x hx e; exact .inl ⟨r, h1⟩
      · obtain ⟨r, rfl⟩ := e2 x hx e; exact .inr ⟨r, h1⟩
      · exact absurd e nw
    · have hne : h.head? ≠ some 19 := fun e => hh (h19 e)
      obtain ⟨hrp, hrp'⟩ : ∃ hrp, E.net.bech32Hrp = some hrp := by
        cases e : E.net.bech32Hrp with
        | none => exact absurd (.inl e) hh
        | some x => exact ⟨x, rfl⟩
      have henc : E.net.segwitEncoder = .bech32 := by
        cases e : E.net.segwitEncoder with
        | bech32 => rfl
        | base58 => exact absurd (.inr e) hh
      rcases (C111_bech32 E hs hH hrp hrp' henc b s).1 hb with ⟨x, hx, ⟨h1, e⟩ | ⟨h1, e⟩⟩ | ⟨-, e⟩ | ⟨-, ⟨x, hA, e⟩ | ⟨v, prog, -, -, hp, ⟨-, e⟩ | ⟨-, e⟩⟩⟩
      · obtain ⟨r, rfl⟩ := e1 x hx e; exact .inl ⟨r, h1⟩
      · obtain ⟨r, rfl⟩ := e2 x hx e; exact .inr ⟨r, h1⟩
      · exact absurd e nw
      · rcases hsc with rfl | rfl <;> exact absurd (congrArg List.head? e) (by simp [p2pkhScript, p2shScript])
      · obtain ⟨-, rfl⟩ := e1 _ (by simp [hp]) e; exact absurd rfl hne
      · obtain ⟨-, rfl⟩ := e2 _ (by simp [hp]) e; exact absurd rfl hne
  rcases form a ha with ⟨r, h1⟩ | ⟨r, h1⟩ <;> rcases form a' ha' with ⟨r', h2⟩ | ⟨r', h2⟩
  · exact inj h1 h2
  · exact absurd (r.symm.trans r') ne
  · exact absurd (r'.symm.trans r) ne
  · exact inj h1 h2

example : ∃ a, toOutputScript ⟨bitcoinMain, toyHashes⟩ a = .ok (p2pkhScript (List.replicate 20 7)) ∧
    ∀ a', toOutputScript ⟨bitcoinMain, toyHashes⟩ a' = .ok (p2pkhScript (List.replicate 20 7)) → a' = a := by
  obtain ⟨a, -, h, -⟩ := C16_roundtrip ⟨bitcoinMain, toyHashes⟩ toyHashes_ok ([0] ++ List.replicate 20 7) true
  have hs : bitcoinMain.Supported := by unfold Network.Supported; decide +kernel
  have ha : toOutputScript ⟨bitcoinMain, toyHashes⟩ a = .ok (p2pkhScript (List.replicate 20 7)) :=
    (C111_bech32 _ hs toyHashes_ok _ rfl rfl _ _).2 (.inl ⟨List.replicate 20 7, rfl, .inl ⟨(b58_iff _ toyHashes_ok a _).1 h, rfl⟩⟩)
  exact ⟨a, ha, fun a' h' => C111_unique _ hs toyHashes_ok rfl a' a _ _ rfl (.inl rfl) (fun e => absurd e (by decide)) h' ha⟩

/-- Every network falls under one of `C111_base58`, `C111_bech32` and `C111_cash`. -/
theorem networks_covered (net : Network) :
    ((net.bech32Hrp = none ∨ net.segwitEncoder = .base58) ∧ net.cashaddrPrefix = none) ∨ (net.bech32Hrp ≠ none ∧ net.segwitEncoder = .bech32) ∨
      net.cashaddrPrefix ≠ none := by
  cases h : net.cashaddrPrefix with
  | some _ => exact .inr (.inr (by simp))
  | none =>
    cases h1 : net.bech32Hrp with
    | none => exact .inl ⟨.inl rfl, rfl⟩
    | some _ =>
      cases h2 : net.segwitEncoder with
      | base58 => exact .inl ⟨.inr rfl, rfl⟩
      | bech32 => exact .inr (.inl ⟨by simp, rfl⟩)

/-- C111: the networks on which an address of another witness version is read as a P2PKH or P2SH address. -/
theorem C111_odd (net : Network) (hs : net.Supported) : (net.bech32Hrp ≠ none ∧ net.segwitEncoder = .bech32 ∧ ∃ v, v ≠ 0 ∧ v ≤ 16 ∧
    (net.p2pkhPrefix = [UInt8.ofNat v] ∨ net.p2shPrefix = [UInt8.ofNat v])) ↔ net = bitcoinMain ∨ net = vertcoinMain ∨ net = feathercoinMain := by
  have key : ∀ net : Network, net.Supported → ((net.bech32Hrp ≠ none ∧ net.segwitEncoder = .bech32 ∧ ∃ v : Fin 17, v.1 ≠ 0 ∧
    (net.p2pkhPrefix = [UInt8.ofNat v.1] ∨ net.p2shPrefix = [UInt8.ofNat v.1])) ↔ net = bitcoinMain ∨ net = vertcoinMain ∨ net = feathercoinMain) := by
    unfold Network.Supported; decide +kernel
  rw [← key net hs]
  constructor
  · rintro ⟨h1, h2, v, h3, h4, h5⟩; exact ⟨h1, h2, ⟨v, by omega⟩, h3, h5⟩
  · rintro ⟨h1, h2, v, h3, h5⟩; exact ⟨h1, h2, v.1, h3, by omega, h5⟩

end Verif.Props
