import Verif.Props.DynAddr
import Verif.Props.ScriptText

/-! Property C129, continued: addresses from keys and scripts, script sigs, and reading scripts, with arguments of any type. -/

namespace Verif.Props
open Verif Spec

/-- C129: addresses are texts. The functions that read an address do so from texts only; everything else raises an AttributeError. -/
theorem C129_address (E : Env) (v a : Val) :
    (∀ s : PyStr, a = .str s → Dyn.parse E a = Addresses.parse E s ∧ Dyn.parseHash E a = Addresses.parseHash E s ∧
      (∀ b, Addresses.toOutputScript E s = .ok b ↔ ∃ r, Dyn.toOutputScript E a = .ok r ∧ RawBytes r ∧ Byteslike r b) ∧
      ∀ e, Addresses.toOutputScript E s = .error e ↔ Dyn.toOutputScript E a = .error e) ∧
    ((∀ s : PyStr, a ≠ .str s) → Dyn.parse E a = .error .attributeError ∧ Dyn.parseHash E a = .error .attributeError ∧ Dyn.toOutputScript E a = .error .attributeError ∧
      Dyn.simpleOutput E v a = .error .attributeError) := by
  constructor
  · rintro s rfl
    refine ⟨rfl, rfl, ?_⟩
    have h := dyn_script E s
    cases hd : Dyn.toOutputScript E (.str s) with
    | error e =>
      rw [hd] at h
      cases ht : Addresses.toOutputScript E s with
      | error e' => rw [ht] at h; cases h; exact ⟨fun b => ⟨nofun, nofun⟩, fun _ => by constructor <;> intro h <;> cases h <;> rfl⟩
      | ok t => rw [ht] at h; cases h
    | ok r =>
      rw [hd] at h
      cases ht : Addresses.toOutputScript E s with
      | error e' => rw [ht] at h; cases h
      | ok t =>
        rw [ht] at h
        have hv : freeze r = .bytes t := Except.ok.inj h
        have hc : Byteslike r t := by rw [Byteslike, ← fz_content, hv]; rfl
        refine ⟨fun b => ⟨?_, ?_⟩, fun _ => ⟨nofun, nofun⟩⟩
        · intro e
          cases e
          refine ⟨r, rfl, ?_, hc⟩
          rcases toOutputScript_raw hd with ⟨y, rfl⟩ | ⟨y, rfl⟩
          · exact ⟨y, .inl rfl⟩
          · exact ⟨y, .inr rfl⟩
        · rintro ⟨r', e, -, hr⟩
          cases e
          rw [Option.some.inj (hc.symm.trans hr)]
  · intro h
    cases a <;> first | exact absurd rfl (h _) | exact ⟨rfl, rfl, rfl, rfl⟩

/-- C129: what `to_output_script` returns is a bytearray for a witness address and bytes for the other addresses. -/
theorem C129_script_type (E : Env) (hs : E.net.Supported) (a r : Val) (h : Dyn.toOutputScript E a = .ok r) :
    (∃ x, r = .bytearray (p2wpkhScript x) ∧ x.length = 20 ∨ r = .bytearray (p2wshScript x) ∧ x.length = 32) ∨
    ∃ x, (r = .bytes (p2pkhScript x) ∨ r = .bytes (p2shScript x)) ∧ x.length = 20 := by
  have F := Addresses.netFacts hs
  cases a with
  | str s =>
    simp only [Dyn.toOutputScript] at h
    rw [bind_ok_iff] at h
    obtain ⟨d, hd, h⟩ := h
    rw [Addresses.toOutputScript_eq, hd, ok_bind, bind_ok_iff] at h
    obtain ⟨t, ht, h⟩ := h
    have hw : (startsWith d E.net.p2wpkhPrefix ∧ d.length = 22) ∨ (startsWith d E.net.p2wshPrefix ∧ d.length = 34) → t = d := by
      intro hc
      unfold Addresses.outScript at ht
      by_cases c1 : startsWith d E.net.p2wpkhPrefix = true ∧ d.length = 22
      · rw [if_pos c1] at ht; cases ht; rfl
      · rw [if_neg c1, if_pos (hc.resolve_left c1)] at ht; cases ht; rfl
    rcases Addresses.outScript_ok F ht with ⟨rfl, x, hx⟩ | ⟨p, x, lx, rfl, hx⟩
    · left
      rcases hx with ⟨lx, rfl⟩ | ⟨lx, rfl⟩
      · rw [if_pos (.inl ⟨by rw [F.wpkh]; exact Addresses.startsWith_append [0, 20] x, by simp [p2wpkhScript, lx]⟩)] at h
        cases h; exact ⟨x, .inl ⟨rfl, lx⟩⟩
      · rw [if_pos (.inr ⟨by rw [F.wsh]; exact Addresses.startsWith_append [0, 32] x, by simp [p2wshScript, lx]⟩)] at h
        cases h; exact ⟨x, .inr ⟨rfl, lx⟩⟩
    · right
      refine ⟨x, ?_, lx⟩
      rw [if_neg] at h
      · cases h
        rcases hx with ⟨rfl, -⟩ | ⟨rfl, -⟩
        · exact .inl rfl
        · exact .inr rfl
      · intro hc
        have e := hw hc
        have l1 : t.length = x.length + 5 ∨ t.length = x.length + 3 := by
          rcases hx with ⟨rfl, -⟩ | ⟨rfl, -⟩
          · left; simp [p2pkhScript]
          · right; simp [p2shScript]
        rcases hc with hc | hc <;> rw [← e] at hc <;> omega
  | _ => cases h

example : Dyn.toOutputScript toyEnv (.str (pystr "bc1qw508d6qejxtdg4y5r3zarvary0c5xw7kv8f3t4")) = .ok (.bytearray (p2wpkhScript
    [0x75, 0x1e, 0x76, 0xe8, 0x19, 0x91, 0x96, 0xd4, 0x54, 0x94, 0x1c, 0x45, 0xd1, 0xb3, 0xa3, 0x23, 0xf1, 0x43, 0x3b, 0xd6])) := by
  have h : Addresses.parse toyEnv (pystr "bc1qw508d6qejxtdg4y5r3zarvary0c5xw7kv8f3t4") = .ok (p2wpkhScript
    [0x75, 0x1e, 0x76, 0xe8, 0x19, 0x91, 0x96, 0xd4, 0x54, 0x94, 0x1c, 0x45, 0xd1, 0xb3, 0xa3, 0x23, 0xf1, 0x43, 0x3b, 0xd6]) := by decide +kernel
  simp only [Dyn.toOutputScript, Addresses.toOutputScript_eq, h, ok_bind]
  rfl

/-! ### keys and scripts -/

/-- What BLAKE-256 hashes when it is given the value: nothing for a false value, the first bytes of a text, as many as the text has characters, and the bytes of anything bytes-like. -/
inductive BlakeReads : Val → Bytes → Prop
  | false {v} : IsFalse v → BlakeReads v []
  | text (s : PyStr) : BlakeReads (.str s) ((Blake.utf8 s).take s.length)
  | bytes {v b} : Byteslike v b → BlakeReads v b

/-- What is hashed when a key or a script is given as a value: bytes and bytearrays; on Decred see `BlakeReads`. -/
def HashReads (net : Network) (v : Val) (b : Bytes) : Prop := if net.isDecred then BlakeReads v b else RawBytes v ∧ Byteslike v b

theorem blake_text (s : PyStr) : (Blake.finalText .h256 (Blake.init .h256) s).2 = blake256 ((Blake.utf8 s).take s.length) := by
  have hu := utf8_length s
  have hl : ((Blake.utf8 s).take s.length).length = s.length := by rw [List.length_take]; omega
  unfold blake256 Blake.blakeHash Blake.finalText
  have h3 : ¬ (Blake.init .h256).state = 3 := by decide
  rw [if_neg h3, C95_text]
  by_cases h0 : s.length = 0
  · rw [if_neg (by omega), List.length_eq_zero_iff.1 h0]; rfl
  · rw [if_pos h0]
    have hs : (Blake.update .h256 (Blake.init .h256) ((Blake.utf8 s).take s.length)).state ≠ 3 := by
      rw [update_state]; decide
    conv => rhs; unfold Blake.final
    conv => lhs; unfold Blake.final
    rw [if_neg hs, if_neg h3, if_pos (by omega : ((Blake.utf8 s).take s.length).length ≠ 0)]
    rfl

attribute [local irreducible] Verif.blake256 in
theorem blake_reads {v : Val} {h : Bytes} : v.blake256 = .ok h ↔ ∃ b, BlakeReads v b ∧ h = blake256 b := by
  unfold Val.blake256
  by_cases ht : v.truthy = true
  · have hf := (truthy_iff v).1 ht
    rw [if_neg (by simpa using ht)]
    constructor
    · intro e
      cases v with
      | str s => exact ⟨_, .text _, (Except.ok.inj e).symm.trans (blake_text s)⟩
      | bytes b => exact ⟨_, .bytes rfl, (Except.ok.inj e).symm⟩
      | bytearray b => exact ⟨_, .bytes rfl, (Except.ok.inj e).symm⟩
      | obj c as b => exact ⟨_, .bytes rfl, (Except.ok.inj e).symm⟩
      | _ => cases e
    · rintro ⟨b, hb, rfl⟩
      cases hb with
      | false h => exact absurd h hf
      | text s => exact congrArg _ (blake_text s)
      | bytes h => cases v <;> cases h <;> rfl
  · have hf : IsFalse v := by rw [truthy_iff] at ht; exact Classical.not_not.1 ht
    rw [if_pos (by simpa using ht)]
    constructor
    · intro e
      exact ⟨[], .false hf, (Except.ok.inj e).symm⟩
    · rintro ⟨b, hb, rfl⟩
      cases hb with
      | false h => rfl
      | text s =>
        have : s = [] := by simpa [Val.truthy] using ht
        subst this; rfl
      | bytes h =>
        have : b = [] := by cases v <;> cases h <;> simpa [Val.truthy] using ht
        subst this; rfl

theorem sha_reads {E : Env} {v : Val} {h : Bytes} : v.sha256 E = .ok h ↔ ∃ b, (RawBytes v ∧ Byteslike v b) ∧ h = E.H.sha256 b := by
  constructor
  · intro e
    cases v <;> cases e
    · exact ⟨_, ⟨⟨_, .inl rfl⟩, rfl⟩, rfl⟩
    · exact ⟨_, ⟨⟨_, .inr rfl⟩, rfl⟩, rfl⟩
  · rintro ⟨b, ⟨⟨_, rfl | rfl⟩, h⟩, rfl⟩ <;> cases h <;> rfl

theorem hash_reads {E : Env} {v : Val} {h : Bytes} : v.hash160 E = .ok h ↔ ∃ b, HashReads E.net v b ∧ h = E.hash160 b := by
  unfold Val.hash160 HashReads Env.hash160
  by_cases hd : E.net.isDecred = true
  · simp only [if_pos hd, bind_ok_iff, blake_reads, Except.ok.injEq]
    constructor
    · rintro ⟨_, ⟨b, hb, rfl⟩, rfl⟩; exact ⟨b, hb, rfl⟩
    · rintro ⟨b, hb, rfl⟩; exact ⟨_, ⟨b, hb, rfl⟩, rfl⟩
  · simp only [if_neg hd, bind_ok_iff, sha_reads, Except.ok.injEq]
    constructor
    · rintro ⟨_, ⟨b, hb, rfl⟩, rfl⟩; exact ⟨b, hb, rfl⟩
    · rintro ⟨b, hb, rfl⟩; exact ⟨_, ⟨b, hb, rfl⟩, rfl⟩

theorem hash_error {E : Env} {v : Val} {e : PyErr} (h : v.hash160 E = .error e) : e = .typeError := by
  have hs : ∀ e, v.sha256 E = .error e → e = .typeError := by intro e h; cases v <;> cases h <;> rfl
  have hb : ∀ e, v.blake256 = .error e → e = .typeError := by
    intro e h
    unfold Val.blake256 at h
    split at h
    · cases h
    · cases v <;> cases h <;> rfl
  unfold Val.hash160 at h
  split at h
  · cases hx : v.blake256 with
    | ok b => rw [hx] at h; cases h
    | error e' => rw [hx] at h; cases h; exact hb _ hx
  · cases hx : v.sha256 E with
    | ok b => rw [hx] at h; cases h
    | error e' => rw [hx] at h; cases h; exact hs _ hx

/-- C129: `make_pkh_address` makes an address exactly from what the hash function of the network reads, the address of the key of the bytes read; otherwise it raises a TypeError.
`witness` and `cashaddr` are taken for true or false. -/
theorem C129_pkh_address (E : Env) (v w c : Val) (x y : Bool) (hw : Truth w x) (hc : Truth c y) :
    (∀ b, HashReads E.net v b → Dyn.makePkhAddress E v w c = Addresses.makePkhAddress E b x y) ∧
    ((¬ ∃ b, HashReads E.net v b) → Dyn.makePkhAddress E v w c = .error .typeError) := by
  unfold Dyn.makePkhAddress Addresses.makePkhAddress
  rw [hw.eq, hc.eq]
  constructor
  · intro b hb
    rw [hash_reads.2 ⟨b, hb, rfl⟩, ok_bind]
  · intro hn
    cases h : v.hash160 E with
    | ok r =>
      obtain ⟨b, hb, -⟩ := hash_reads.1 h
      exact absurd ⟨b, hb⟩ hn
    | error e => rw [hash_error h]; rfl

/-- C129, the networks other than Decred: keys are bytes or bytearrays. -/
theorem C129_pkh_address_partial (E : Env) (hd : E.net.isDecred = false) (v w c : Val) (a : Option PyStr) (h : Dyn.makePkhAddress E v w c = .ok a) :
    ∃ b, (v = .bytes b ∨ v = .bytearray b) ∧ Addresses.makePkhAddress E b w.truthy c.truthy = .ok a := by
  obtain ⟨h1, h2⟩ := C129_pkh_address E v w c _ _ (truthy_iff w) (truthy_iff c)
  by_cases hr : ∃ b, HashReads E.net v b
  · obtain ⟨b, hb⟩ := hr
    have hb' : RawBytes v ∧ Byteslike v b := by simpa [HashReads, hd] using hb
    refine ⟨b, ?_, (h1 b hb).symm.trans h⟩
    obtain ⟨⟨x, rfl | rfl⟩, e⟩ := hb' <;> cases e
    · exact .inl rfl
    · exact .inr rfl
  · rw [h2 hr] at h; cases h

/-- C129 fails on Decred: a key given as a text (in hex, for instance) is not refused but hashed as text, and the address is that of the characters, as if they were a key. A false value
(None, 0, an empty list) gives the address of the empty key. -/
theorem C129_pkh_address_false (E : Env) (hd : E.net.isDecred = true) (w c : Val) :
    (∀ s : PyStr, (∀ x ∈ s, x.toNat < 128) →
      Dyn.makePkhAddress E (.str s) w c = Addresses.makePkhAddress E (s.map fun x => UInt8.ofNat x.toNat) w.truthy c.truthy) ∧
    (∀ v, IsFalse v → Dyn.makePkhAddress E v w c = Addresses.makePkhAddress E [] w.truthy c.truthy) ∧
    (∀ v b, Byteslike v b → Dyn.makePkhAddress E v w c = Addresses.makePkhAddress E b w.truthy c.truthy) := by
  have key := fun v => (C129_pkh_address E v w c _ _ (truthy_iff w) (truthy_iff c)).1
  have hr : ∀ {v b}, BlakeReads v b → HashReads E.net v b := by intro v b h; simpa [HashReads, hd] using h
  refine ⟨?_, ?_, ?_⟩
  · intro s hs
    rw [key _ _ (hr (.text s)), utf8_ascii hs, List.take_of_length_le (by simp)]
  · exact fun v hv => key _ _ (hr (.false hv))
  · exact fun v b hv => key _ _ (hr (.bytes hv))

example : HashReads bitcoinMain (.bytearray [2, 3]) [2, 3] ∧ HashReads decredMain (.str (pystr "02")) [0x30, 0x32] ∧ HashReads decredMain .none [] ∧
    ¬ ∃ b, HashReads bitcoinMain (.str (pystr "02")) b :=
  ⟨⟨⟨_, .inr rfl⟩, rfl⟩, .text (pystr "02"), .false (.inl rfl), fun ⟨b, h⟩ => by cases h.2⟩

/-- C129: `make_sh_script_pubkey` hashes the script by SHA-256 for a witness script, where only bytes and bytearrays will do, and otherwise by what the network uses. -/
theorem C129_sh_script (E : Env) (v w : Val) (x : Bool) (hw : Truth w x) :
    (x = true → ∀ b, RawBytes v → Byteslike v b → Dyn.makeShScriptPubkey E v w = .ok (Addresses.makeShScriptPubkey E b true)) ∧
    (x = true → ¬ RawBytes v → Dyn.makeShScriptPubkey E v w = .error .typeError) ∧
    (x = false → ∀ b, HashReads E.net v b → Dyn.makeShScriptPubkey E v w = .ok (Addresses.makeShScriptPubkey E b false)) ∧
    (x = false → (¬ ∃ b, HashReads E.net v b) → Dyn.makeShScriptPubkey E v w = .error .typeError) := by
  unfold Dyn.makeShScriptPubkey Addresses.makeShScriptPubkey
  rw [hw.eq]
  refine ⟨?_, ?_, ?_, ?_⟩
  · rintro rfl b h1 h2
    rw [if_pos rfl, sha_reads.2 ⟨b, ⟨h1, h2⟩, rfl⟩, ok_bind, if_pos rfl]
  · rintro rfl hn
    rw [if_pos rfl]
    cases v <;> first | rfl | exact absurd ⟨_, .inl rfl⟩ hn | exact absurd ⟨_, .inr rfl⟩ hn
  · rintro rfl b hb
    rw [if_neg (by decide), hash_reads.2 ⟨b, hb, rfl⟩, ok_bind, if_neg (by decide)]
  · rintro rfl hn
    rw [if_neg (by decide)]
    cases h : v.hash160 E with
    | ok r =>
      obtain ⟨b, hb, -⟩ := hash_reads.1 h
      exact absurd ⟨b, hb⟩ hn
    | error e => rw [hash_error h]; rfl

/-- Bytes that are all spaces, tabs and line ends. -/
def BlankBytes (v : Val) : Prop := ∃ b, (v = .bytes b ∨ v = .bytearray b) ∧ ∀ x ∈ b, x = 0x20 ∨ x = 0x09 ∨ x = 0x0a ∨ x = 0x0b ∨ x = 0x0c ∨ x = 0x0d

theorem blank_serialize {net : Network} {v : Val} (h : BlankBytes v) : v.serialize net = .ok [] := by
  obtain ⟨b, hv, hb⟩ := h
  have : b.all Val.spaceByte = true := by
    rw [List.all_eq_true]
    intro x hx
    rcases hb x hx with rfl | rfl | rfl | rfl | rfl | rfl <;> decide
  rcases hv with rfl | rfl <;> simp only [Val.serialize, this, if_true]

theorem space_table : ∀ n < 256, Val.spaceByte (UInt8.ofNat n) = true → UInt8.ofNat n = 0x20 ∨ UInt8.ofNat n = 0x09 ∨ UInt8.ofNat n = 0x0a ∨ UInt8.ofNat n = 0x0b ∨
    UInt8.ofNat n = 0x0c ∨ UInt8.ofNat n = 0x0d := by decide +kernel

theorem serialize_other {net : Network} {v : Val} (h1 : ∀ s, v ≠ .str s) (h2 : ¬ BlankBytes v) : ∃ e, v.serialize net = .error e ∧ (e = .typeError ∨ e = .attributeError) := by
  have sp : ∀ b : Bytes, b.all Val.spaceByte = true → ∀ x ∈ b, x = 0x20 ∨ x = 0x09 ∨ x = 0x0a ∨ x = 0x0b ∨ x = 0x0c ∨ x = 0x0d := by
    intro b hb x hx
    have := space_table x.toNat x.toNat_lt
    rw [show UInt8.ofNat x.toNat = x by simp] at this
    exact this (List.all_eq_true.1 hb x hx)
  cases v with
  | str s => exact absurd rfl (h1 s)
  | bytes b =>
    refine ⟨.typeError, ?_, .inl rfl⟩
    simp only [Val.serialize]
    rw [if_neg]
    exact fun hb => h2 ⟨b, .inl rfl, sp b hb⟩
  | bytearray b =>
    refine ⟨.typeError, ?_, .inl rfl⟩
    simp only [Val.serialize]
    rw [if_neg]
    exact fun hb => h2 ⟨b, .inr rfl, sp b hb⟩
  | _ => exact ⟨_, rfl, .inr rfl⟩

/-- C129: `make_sh_address` makes addresses of scripts in text. Blank bytes are read as the empty script, and everything else is refused with a TypeError or an AttributeError. -/
theorem C129_sh_address (E : Env) (v w c : Val) (x y : Bool) (hw : Truth w x) (hc : Truth c y) :
    (∀ s, v = .str s → Dyn.makeShAddress E v w c = Addresses.makeShAddress E s x y) ∧
    (BlankBytes v → Dyn.makeShAddress E v w c = Addresses.makeShAddress E [] x y) ∧
    ((∀ s, v ≠ .str s) → ¬ BlankBytes v → ∃ e, Dyn.makeShAddress E v w c = .error e ∧ (e = .typeError ∨ e = .attributeError)) := by
  unfold Dyn.makeShAddress Addresses.makeShAddress
  rw [hw.eq, hc.eq]
  refine ⟨?_, ?_, ?_⟩
  · rintro s rfl; rfl
  · intro h; rw [blank_serialize h]; rfl
  · intro h1 h2
    obtain ⟨e, he, hk⟩ := serialize_other (net := E.net) h1 h2
    exact ⟨e, by rw [he]; rfl, hk⟩

/-- C129: `make_script_sig` joins two scripts in text. Blank bytes are read as the empty redeem script. A number as the stack script is read as its decimal digits. Everything else is
refused: the redeem script with a TypeError or an AttributeError, the stack script with a ValueError. -/
theorem C129_script_sig (E : Env) (v r : Val) (t : PyStr) (hr : r = .str t ∨ BlankBytes r ∧ t = []) :
    (∀ s, v = .str s → Dyn.makeScriptSig E v r = Builder.makeScriptSig E s t) ∧
    (∀ n : Nat, v = .int n → Dyn.makeScriptSig E v r = Builder.makeScriptSig E (Nat.toDigits 10 n) t) ∧
    ((∀ s, v ≠ .str s) → (∀ n, v ≠ .int n) → ∀ b, Dyn.makeScriptSig E v r ≠ .ok b) ∧
    ((∀ s, v ≠ .str s) → (∀ n, v ≠ .int n) → (Verif.serialize E.net t).isOk = true → Dyn.makeScriptSig E v r = .error .valueError) := by
  have h : r.serialize E.net = Verif.serialize E.net t := by
    rcases hr with rfl | ⟨hr, rfl⟩
    · rfl
    · rw [blank_serialize hr]; rfl
  unfold Dyn.makeScriptSig Builder.makeScriptSig hexSerialize
  rw [h]
  refine ⟨?_, ?_, ?_, ?_⟩
  · rintro s rfl; rw [bind_assoc']; rfl
  · rintro n rfl
    rw [bind_assoc']
    have : Dyn.decimal n = Nat.toDigits 10 n := by
      unfold Dyn.decimal decStr
      rw [if_neg (by omega)]; rfl
    simp only [this]; rfl
  · intro h1 h2 b e
    rw [bind_ok_iff] at e
    obtain ⟨_, -, e⟩ := e
    cases v <;> first | exact absurd rfl (h1 _) | exact absurd rfl (h2 _) | cases e
  · intro h1 h2 h3
    cases hs : Verif.serialize E.net t with
    | error e => rw [hs] at h3; cases h3
    | ok x => cases v <;> first | exact absurd rfl (h1 _) | exact absurd rfl (h2 _) | rfl

theorem split_head (c : Char) (hc : isPySpace c = false) (s : PyStr) : ∃ t ts, pySplit (c :: s) = (c :: t) :: ts := by
  have main : ∀ (s cur u : PyStr), cur.reverse = c :: u → ∃ t ts, splitAux cur s = (c :: t) :: ts := by
    intro s
    induction s with
    | nil =>
      intro cur u h
      have hn : cur ≠ [] := by rintro rfl; cases h
      exact ⟨u, [], by simp [splitAux, hn, h]⟩
    | cons d s ih =>
      intro cur u h
      have hn : cur ≠ [] := by rintro rfl; cases h
      by_cases hd : isPySpace d = true
      · exact ⟨u, _, by simp [splitAux, hd, hn, h]; rfl⟩
      · have := ih (d :: cur) (u ++ [d]) (by simp [h])
        simpa [splitAux, hd] using this
  have := main s [c] [] rfl
  simpa [pySplit, splitAux, hc] using this

/-- C129: a negative number is refused as a stack script. -/
theorem C129_script_sig_negative (E : Env) (hs : E.net.Supported) (n : Int) (r : Val) (t : PyStr) (hn : n < 0) (hr : r = .str t ∨ BlankBytes r ∧ t = []) :
    (∀ b, Dyn.makeScriptSig E (.int n) r ≠ .ok b) ∧ ((Verif.serialize E.net t).isOk = true → Dyn.makeScriptSig E (.int n) r = .error .valueError) := by
  have h : r.serialize E.net = Verif.serialize E.net t := by
    rcases hr with rfl | ⟨hr, rfl⟩
    · rfl
    · rw [blank_serialize hr]; rfl
  have key : ∀ u, Verif.serialize E.net (Dyn.decimal n ++ u) = .error .valueError := by
    intro u
    unfold Dyn.decimal
    rw [if_pos hn]
    obtain ⟨w, ts, e⟩ := split_head '-' rfl (decStr n.natAbs ++ u)
    unfold Verif.serialize
    rw [List.cons_append, e]
    have hw : IsWord ('-' :: w) := by
      have h1 := (wordsOf_split (wordsOf_exists ('-' :: (decStr n.natAbs ++ u)))).2
      rw [e] at h1
      exact h1 _ (by simp)
    have hd : serializeToken E.net ('-' :: w) = .error .valueError := by
      rw [token_error hs hw]
      refine .unknown ?_ ?_
      · intro b hb
        have k : ∀ c : Bool, ∀ n < 256, ∀ w, opcodeName c (UInt8.ofNat n) = some w → w.head? = some 'O' := by
          have : ∀ c : Bool, ∀ n < 256, ∀ w ∈ opcodeName c (UInt8.ofNat n), w.head? = some 'O' := by decide +kernel
          exact this
        rcases hb with hb | ⟨-, hb⟩ | ⟨-, hb⟩ | ⟨-, -, hb⟩
        · have := k _ b.toNat b.toNat_lt _ (by rw [show UInt8.ofNat b.toNat = b by simp]; exact hb)
          exact absurd this (by simp)
        · cases hb
        · cases hb
        · cases hb
      · intro d hd
        have : ∀ m, ¬ IsHexDigit '-' m := by
          rintro m (h | h) <;> exact absurd (List.mem_of_getElem? h) (by decide)
        cases hd with
        | cons h1 _ _ => exact this _ h1
    simp only [serializeTokens, hd]; rfl
  unfold Dyn.makeScriptSig
  rw [h]
  constructor
  · intro b e
    rw [bind_ok_iff] at e
    obtain ⟨x, -, e⟩ := e
    simp only [key] at e
    cases e
  · intro ho
    cases hx : Verif.serialize E.net t with
    | error e => rw [hx] at ho; cases ho
    | ok x => simp only [ok_bind, key]

/-- C129: redeem scripts that are neither text nor blank bytes are refused, whatever the stack script is. -/
theorem C129_script_sig_refused (E : Env) (v r : Val) (h1 : ∀ s, r ≠ .str s) (h2 : ¬ BlankBytes r) :
    ∃ e, Dyn.makeScriptSig E v r = .error e ∧ (e = .typeError ∨ e = .attributeError) := by
  obtain ⟨e, he, hk⟩ := serialize_other (net := E.net) h1 h2
  exact ⟨e, by unfold Dyn.makeScriptSig; rw [he]; rfl, hk⟩

/-- C129 fails for numbers: `make_script_sig(51, …)` pushes the byte 0x51, not the number 51, and `make_script_sig(1, …)` is an error. -/
theorem C129_script_sig_false : Dyn.makeScriptSig toyEnv (.int 51) (.str (pystr "OP_1")) = .ok [0x01, 0x51, 0x01, 0x51] ∧
    Dyn.makeScriptSig toyEnv (.int 1) (.str (pystr "OP_1")) = .error .valueError ∧
    Dyn.makeScriptSig toyEnv (.str (pystr "OP_1")) (.str (pystr "OP_1")) = .ok [0x51, 0x01, 0x51] := by decide +kernel

example : BlankBytes (.bytes [0x20, 0x0a]) ∧ BlankBytes (.bytearray []) ∧ ¬ BlankBytes (.bytes [0x51]) ∧ ¬ BlankBytes .none := by
  refine ⟨⟨_, .inl rfl, by simp⟩, ⟨_, .inr rfl, by simp⟩, ?_, ?_⟩
  · rintro ⟨b, h | h, hb⟩ <;> cases h
    have := hb 0x51 (by simp)
    revert this; decide
  · rintro ⟨b, h | h, hb⟩ <;> cases h

/-! ### reading scripts -/

theorem opcode_branch {α : Type} (x : UInt8) (h1 : x.toNat = 0 ∨ 78 < x.toNat) (h2 : x.toNat ≠ 0xab) {a b c d e f : α} :
    (if x = 0xab then a else if x.toNat ≤ 75 ∧ x ≠ 0 then b else if x = 76 then c else if x = 77 then d else if x = 78 then e else f) = f := by
  have h : ∀ y : UInt8, y.toNat ≠ x.toNat → x ≠ y := by rintro y hy rfl; exact hy rfl
  have h0 : x.toNat = 0 → x = 0 := by intro h; rw [← UInt8.toNat_inj, h]; rfl
  have e1 : x ≠ 0xab := h _ (by rw [show (0xab : UInt8).toNat = 0xab from rfl]; omega)
  have e2 : x ≠ 76 := h _ (by rw [show (76 : UInt8).toNat = 76 from rfl]; omega)
  have e3 : x ≠ 77 := h _ (by rw [show (77 : UInt8).toNat = 77 from rfl]; omega)
  have e4 : x ≠ 78 := h _ (by rw [show (78 : UInt8).toNat = 78 from rfl]; omega)
  have e5 : ¬ (x.toNat ≤ 75 ∧ x ≠ 0) := by rintro ⟨h3, h4⟩; rcases h1 with h1 | h1; exacts [h4 (h0 h1), by omega]
  rw [if_neg e1, if_neg e5, if_neg e2, if_neg e3, if_neg e4]

theorem deserialize_list {net : Network} : ∀ (l : List Val) (ts : List PyStr), Dyn.deserializeList net l = .ok ts ↔
    ∃ b : Bytes, l = b.map (fun x => .int x.toNat) ∧ (∀ x ∈ b, x = 0 ∨ 78 < x.toNat) ∧ deserializeTokens net b = .ok ts := by
  intro l
  induction l with
  | nil =>
    intro ts
    simp only [Dyn.deserializeList]
    constructor
    · intro h; exact ⟨[], rfl, by simp, h⟩
    · rintro ⟨b, hb, -, h⟩
      cases b with
      | nil => exact h
      | cons _ _ => cases hb
  | cons v l ih =>
    intro ts
    constructor
    · intro h
      cases v with
      | int n =>
        simp only [Dyn.deserializeList] at h
        split at h
        · cases h
        split at h
        · cases h
        split at h
        · split at h <;> cases h
        split at h
        · rw [bind_ok_iff] at h
          obtain ⟨_, -, h⟩ := h
          cases h
        split at h
        · cases h
        split at h
        · cases h
        rw [bind_ok_iff] at h
        obtain ⟨t, ht, h⟩ := h
        rw [bind_ok_iff] at h
        obtain ⟨ts', hts, h⟩ := h
        obtain ⟨b, rfl, hb, e⟩ := (ih ts').1 hts
        have hn : n = 0 ∨ 78 < n ∧ n ≤ 255 := by omega
        obtain ⟨k, rfl⟩ := Int.eq_ofNat_of_zero_le (by omega : 0 ≤ n)
        have hk : (UInt8.ofNat k).toNat = k := by simp; omega
        rw [Int.toNat_natCast] at ht
        refine ⟨UInt8.ofNat k :: b, by rw [List.map_cons, hk], ?_, ?_⟩
        · intro x hx
          rcases List.mem_cons.1 hx with rfl | hx
          · rcases hn with h0 | h0
            · left; obtain rfl : k = 0 := by omega
              rfl
            · right; omega
          · exact hb x hx
        · rw [deserializeTokens_cons, opcode_branch _ (by omega) (by omega), ht, ok_bind, e]
          exact h
      | _ => cases h
    · rintro ⟨b, hl, hb, h⟩
      cases b with
      | nil => cases hl
      | cons x b =>
        obtain ⟨rfl, rfl⟩ := List.cons.inj hl
        have hx := hb x (by simp)
        have hlt := x.toNat_lt
        have h0 : x = 0 ↔ x.toNat = 0 := by rw [← UInt8.toNat_inj]; rfl
        rw [h0] at hx
        by_cases hab : x.toNat = 0xab
        · obtain rfl : x = 0xab := by rw [← UInt8.toNat_inj, hab]; rfl
          rw [deserializeTokens_cons, if_pos rfl] at h
          cases h
        · rw [deserializeTokens_cons, opcode_branch _ (by omega) (by omega)] at h
          simp only [Dyn.deserializeList]
          rw [if_neg (by omega), if_neg (by omega), if_neg (by omega), if_neg (by omega), if_neg (by omega), if_neg (by omega), Int.toNat_natCast,
            show UInt8.ofNat x.toNat = x by simp]
          rw [bind_ok_iff] at h ⊢
          obtain ⟨t, ht, h⟩ := h
          rw [bind_ok_iff] at h
          obtain ⟨ts', hts, h⟩ := h
          refine ⟨t, ht, ?_⟩
          rw [(ih ts').2 ⟨b, rfl, fun y hy => hb y (by simp [hy]), hts⟩]
          exact h

/-- C129: `deserialize` reads bytes, bytearrays and all objects alike; the empty text is the empty script and other texts are refused. A list or a tuple is read only if its elements are
numbers of opcodes that push no data, and then as these bytes. -/
theorem C129_deserialize (net : Network) (v : Val) :
    (∀ b, Byteslike v b → Dyn.deserialize net v = Verif.deserialize net b) ∧
    (∀ s, v = .str s → Dyn.deserialize net v = if s = [] then .ok [] else .error .typeError) ∧
    (v = .none ∨ (∃ n, v = .int n) → Dyn.deserialize net v = .error .typeError) ∧
    (∀ l, IsSeq v l → ∀ t, Dyn.deserialize net v = .ok t ↔
      ∃ b : Bytes, l = b.map (fun x => .int x.toNat) ∧ (∀ x ∈ b, x = 0 ∨ 78 < x.toNat) ∧ Verif.deserialize net b = .ok t) := by
  refine ⟨?_, ?_, ?_, ?_⟩
  · intro b hb
    cases v <;> cases hb <;> rfl
  · rintro s rfl; rfl
  · rintro (rfl | ⟨n, rfl⟩) <;> rfl
  · intro l hl t
    have : Dyn.deserialize net v = (Dyn.deserializeList net l >>= fun ts => .ok (joinSpace ts)) := by rcases hl with rfl | rfl <;> rfl
    rw [this]
    simp only [Verif.deserialize, bind_ok_iff, deserialize_list]
    constructor
    · rintro ⟨ts, ⟨b, h1, h2, h3⟩, h4⟩; exact ⟨b, h1, h2, ts, h3, h4⟩
    · rintro ⟨b, h1, h2, ts, h3, h4⟩; exact ⟨ts, ⟨b, h1, h2, h3⟩, h4⟩

/-- C129: `hex_deserialize` takes text only. -/
theorem C129_hex_deserialize (net : Network) (v : Val) :
    (∀ s, v = .str s → Dyn.hexDeserialize net v = (fromHex s >>= fun b => Dyn.deserialize net (.bytes b))) ∧
    ((∀ s, v ≠ .str s) → Dyn.hexDeserialize net v = .error .typeError) := by
  refine ⟨?_, ?_⟩
  · rintro s rfl; rfl
  · intro h; cases v <;> first | exact absurd rfl (h _) | rfl

example : Dyn.deserialize bitcoinMain (.list [.int 0x76, .int 0, .int 0x51]) = .ok (pystr "OP_DUP OP_0 OP_1") ∧
    Dyn.deserialize bitcoinMain (.list [.int 1, .int 2]) = .error .attributeError ∧
    Dyn.deserialize bitcoinMain (.tuple [.int 0x51, .bytes [0x51]]) = .error .typeError ∧
    Dyn.deserialize bitcoinMain (.bytearray [1, 2]) = .ok (pystr "02") := by decide +kernel

end Verif.Props
