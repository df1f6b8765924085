import Verif.Props.SpendZcash
import Verif.Spec.Hash

/-! # C106: what is signed with SIGHASH_SINGLE is valid, where the digest is right

As C104, for `sighash_single`. -/

namespace Verif.Props

open Verif Spec Addresses Builder Examples ExampleScripts

attribute [local irreducible] Env.hash256

/-- The byte that is appended to a signature: SINGLE, with or without ANYONECANPAY, and the bit of the fork id. -/
def singleByte (net : Network) (acp : Bool) : UInt8 :=
  match net.forkid.isSome, acp with
  | false, false => 0x03
  | false, true => 0x83
  | true, false => 0x43
  | true, true => 0xc3

theorem singleByte_none {net : Network} (hf : net.forkid = none) (acp : Bool) : (singleByte net acp).toNat = if acp then 0x83 else 0x03 := by
  unfold singleByte; rw [hf]; cases acp <;> rfl

theorem singleByte_some {net : Network} {k : Nat} (hf : net.forkid = some k) (acp : Bool) :
    k * 256 + (singleByte net acp).toNat = k * 256 + (if acp then 0x83 else 0x03) + 0x40 := by
  rw [show (singleByte net acp).toNat = (if acp then 0x83 else 0x03) + 0x40 by
    unfold singleByte; rw [hf, Option.isSome_some]; cases acp <;> decide, Nat.add_assoc]

/-- What the rules ask for of an input that is not a witness input, on a network without fork id. -/
theorem single_rule (E : Env) (hf : E.net.forkid = none) (t : Tx) (i : Nat) (x : TxIn) (ho : i < t.txOuts.length) (value : Bytes) (acp : Bool)
    (code : Bytes) (verify : Bytes → Bytes → Bytes → Bool) :
    (rules E verify).digest (fieldsOf t) i (wireOf x) value false code (singleByte E.net acp).toNat =
      E.hash256 (legacyPreimage t.sig i code (if acp then 0x83 else 0x03)) := by
  unfold Rules.digest
  have hR : (rules E verify).forkid = none := hf
  rw [hR, singleByte_none hf]
  have hb : ¬ (baseType (if acp then 0x83 else 0x03) = 3 ∧ (fieldsOf t).outs.length ≤ i) := by
    rintro ⟨-, c⟩
    simp only [fieldsOf, List.length_map] at c
    omega
  simp only [Bool.false_eq_true, if_false]
  rw [if_neg hb, fieldsOf_sig]
  rfl

theorem single_forkid (E : Env) (hs : E.net.Supported) (k : Nat) (hf : E.net.forkid = some k) (t : Tx) (h : t.Built E) (i : Nat) (x : TxIn)
    (hx : t.txIns[i]? = some x) (ho : i < t.txOuts.length) (value : Bytes) (hv : value.length = 8) (acp v : Bool) (code : Bytes)
    (verify : Bytes → Bytes → Bytes → Bool) :
    t.sighashSingle E i (varBytes code) (some value) acp =
      .ok ((rules E verify).digest (fieldsOf t) i (wireOf x) value v code (singleByte E.net acp).toNat) := by
  unfold Rules.digest
  have hR : (rules E verify).forkid = some k := hf
  rw [C47_single E hs k hf t h i x hx ho (varBytes code) value hv acp, hR]
  simp only
  rw [singleByte_some hf, fieldsOf_sig]
  rfl

/-- What is signed of an input that is not a witness input. -/
theorem single_digest (E : Env) (hs : E.net.Supported) (hz : E.net.isZcash = false) (t : Tx) (h : t.Built E)
    (hw : t.flag = none ∧ t.txWitnesses = none) (i : Nat) (x : TxIn) (hx : t.txIns[i]? = some x) (ho : i < t.txOuts.length)
    (hlast : E.net.forkid ≠ none ∨ i + 1 = t.txIns.length) (value : Bytes) (hv : value.length = 8) (acp : Bool)
    (code : Bytes) (hc : code.length ≤ 1650) (verify : Bytes → Bytes → Bytes → Bool) :
    t.sighashSingle E i (varBytes code) (some value) acp =
      .ok ((rules E verify).digest (fieldsOf t) i (wireOf x) value false code (singleByte E.net acp).toNat) := by
  cases hf : E.net.forkid with
  | none =>
    rw [C49_last_input_partial E hf t h hw i (hlast.resolve_left (absurd hf)) ho code hc (.inl (not_zcash hs hz)) (some value) acp,
      single_rule E hf t i x ho value acp code verify]
  | some k => exact single_forkid E hs k hf t h i x hx ho value hv acp false code verify

/-- What is signed of an input of a transaction with witnesses. -/
theorem single_witness_digest (E : Env) (hs : E.net.Supported) (t : Tx) (h : t.Built E)
    (hw : t.flag ≠ none) (i : Nat) (x : TxIn) (hx : t.txIns[i]? = some x) (ho : i < t.txOuts.length) (value : Bytes) (hv : value.length = 8) (acp : Bool)
    (code : Bytes) (verify : Bytes → Bytes → Bytes → Bool) :
    t.sighashSingle E i (varBytes code) (some value) acp =
      .ok ((rules E verify).digest (fieldsOf t) i (wireOf x) value true code (singleByte E.net acp).toNat) := by
  cases hf : E.net.forkid with
  | none =>
    unfold Rules.digest
    have hR : (rules E verify).forkid = none := hf
    rw [C46_single E hf t h (.inl hw) i x hx ho (varBytes code) value acp, hR]
    simp only
    rw [if_pos trivial, fieldsOf_sig, singleByte_none hf]
    rfl
  | some k => exact single_forkid E hs k hf t h i x hx ho value hv acp true code verify

theorem checkSig_single (E : Env) (verify : Bytes → Bytes → Bytes → Bool) (w : WireTx) (i : Nat) (inp : WireIn) (amount : Bytes) (v acp : Bool)
    (code sig key : Bytes) :
    (rules E verify).checkSig w i inp amount v code (sig ++ [singleByte E.net acp]) key =
      verify key ((rules E verify).digest w i inp amount v code (singleByte E.net acp).toNat) sig := by
  rw [checkSig_append]
  have : ((rules E verify).forkid.isNone || (singleByte E.net acp).toNat / 64 % 2 == 1) = true := by
    show (E.net.forkid.isNone || _) = true
    unfold singleByte
    cases E.net.forkid <;> cases acp <;> simp
  rw [this, Bool.true_and]
  rfl

theorem lockOK_fn (w : WireTx) (x : WireIn) : w.lockOK x = lockFn w.lockTime x.sequence := rfl

/-- C106, inputs without witness: an input with an output of the same index, in a transaction without witnesses, on a network with fork id or as the
last input. P2PKH, the 2-of-2 template and the hash time-lock contract: the script sig with any signature spends the output exactly if the signature
is good for the digest that `sighash_single` returns (and the key is the key; for a refund: and the lock time has passed). -/
theorem C106_single_partial (E : Env) (hs : E.net.Supported) (hH : E.H.LengthOK) (hz : E.net.isZcash = false) (hd : E.net.isDecred = false)
    (verify : Bytes → Bytes → Bytes → Bool) (t : Tx) (h : t.Built E) (hw : t.flag = none ∧ t.txWitnesses = none)
    (i : Nat) (x : TxIn) (hx : t.txIns[i]? = some x) (ho : i < t.txOuts.length) (hlast : E.net.forkid ≠ none ∨ i + 1 = t.txIns.length)
    (value : Bytes) (hv : value.length = 8) (acp : Bool) :
    Signable E verify (fun code => t.sighashSingle E i code (some value) acp) (singleByte E.net acp) value t.lockTime x.sequence
      (SignedSpends E verify t i) := by
  apply signable_of E hs hH hd
  intro code hc
  have d0 := single_digest E hs hz t h hw i x hx ho hlast value hv acp code (by omega) verify
  refine ⟨_, d0, fun ss s P hl hP => ⟨?_, fun signed y hsg hy hys => ?_⟩⟩
  · have e := (h.facts.ins x (List.mem_of_getElem? hx)).eq
    exact ⟨x, _, hx, TxIn.make_iff.2 ⟨e.1.length, e.2.1, by simpa using hl, rfl⟩, by simp⟩
  · obtain ⟨t', c1, c2, c3, c4, c5, c6, c7, c8, c9⟩ := C90_script_sigs E t h signed hsg
    have hyi' : t'.txIns[i]? = some y := by rw [c3]; exact hy
    have d1 := single_digest E hs hz t' c2 ⟨c7.trans hw.1, c8.trans hw.2⟩ i y hyi' (by rw [c4]; exact ho)
      (by rw [c3, ← hsg.length_eq]; exact hlast) value hv acp code (by omega) verify
    rw [(c9 i (varBytes code) (some value) acp).2, d0] at d1
    refine ⟨t', fieldsOf t', c1, fieldsOf_wf_legacy c2 (c7.trans hw.1), fieldsOf_bytes hs c2, by rw [outs_bytes c2, c4], ?_⟩
    obtain ⟨x', hx', st, rd, hxy⟩ := forall₂_get hsg hy
    rw [hx] at hx'
    cases hx'
    have hseq : y.sequence = x.sequence := by
      obtain ⟨-, -, -, rfl⟩ := TxIn.make_iff.1 hxy
      rfl
    rw [valid_legacy E verify t' (c7.trans hw.1) i y hyi', hys,
      lockOK_congr (w' := fieldsOf t) (y := wireOf x) (show t'.lockTime = t.lockTime from c6) (show y.sequence = x.sequence from hseq)]
    refine hP _ fun sig key => ?_
    rw [checkSig_single, ← Except.ok.inj d1]

/-- Copying new script sigs keeps what signatures cover. -/
theorem signed_sig {E : Env} {t t' : Tx} (h : t.Built E) {signed : List TxIn} (hsg : List.Forall₂ Signs t.txIns signed) (c3 : t'.txIns = signed)
    (c4 : t'.txOuts = t.txOuts) (c5 : t'.version = t.version) (c6 : t'.lockTime = t.lockTime) : t'.sig = t.sig := by
  obtain ⟨-, m1, m2⟩ := signs_maps h.facts.ins hsg
  have e : (signed.map fun x => (x.outpoint.txId ++ x.outpoint.index, x.sequence)) = t.txIns.map fun x => (x.outpoint.txId ++ x.outpoint.index, x.sequence) := by
    have g : ∀ l : List TxIn, (l.map fun x => (x.outpoint.txId ++ x.outpoint.index, x.sequence)) =
        ((l.map (·.outpoint)).map fun o => o.txId ++ o.index).zip (l.map (·.sequence)) := by
      intro l
      induction l with
      | nil => rfl
      | cons a l ih => simp only [List.map_cons, List.zip_cons_cons, ih]
    rw [g, g, m1, m2]
  unfold Tx.sig
  rw [c3, c4, c5, c6, e]

/-- Which signatures are good, whatever the library's digest. -/
theorem single_core (E : Env) (hs : E.net.Supported) (hf : E.net.forkid = none) (verify : Bytes → Bytes → Bytes → Bool) (t : Tx) (h : t.Built E)
    (hw : t.flag = none ∧ t.txWitnesses = none) (i : Nat) (x : TxIn) (hx : t.txIns[i]? = some x) (ho : i < t.txOuts.length) (value : Bytes) (acp : Bool)
    (code ss s : Bytes) (P : Prop) (hl : ss.length ≤ 1650)
    (hP : ∀ check, (∀ sig key, check false code (sig ++ [singleByte E.net acp]) key =
        verify key (E.hash256 (legacyPreimage t.sig i code (if acp then 0x83 else 0x03))) sig) →
      (spends (world E check (lockFn t.lockTime x.sequence)) ss [] s = true ↔ P)) : SignedSpends E verify t i ss ⟨value, s⟩ P := by
  refine ⟨?_, fun signed y hsg hy hys => ?_⟩
  · have e := (h.facts.ins x (List.mem_of_getElem? hx)).eq
    exact ⟨x, _, hx, TxIn.make_iff.2 ⟨e.1.length, e.2.1, by simpa using hl, rfl⟩, by simp⟩
  · obtain ⟨t', c1, c2, c3, c4, c5, c6, c7, c8, c9⟩ := C90_script_sigs E t h signed hsg
    have hyi' : t'.txIns[i]? = some y := by rw [c3]; exact hy
    refine ⟨t', fieldsOf t', c1, fieldsOf_wf_legacy c2 (c7.trans hw.1), fieldsOf_bytes hs c2, by rw [outs_bytes c2, c4], ?_⟩
    obtain ⟨x', hx', st, rd, hxy⟩ := forall₂_get hsg hy
    rw [hx] at hx'
    cases hx'
    have hseq : y.sequence = x.sequence := by
      obtain ⟨-, -, -, rfl⟩ := TxIn.make_iff.1 hxy
      rfl
    rw [valid_legacy E verify t' (c7.trans hw.1) i y hyi', hys,
      lockOK_congr (w' := fieldsOf t) (y := wireOf x) (show t'.lockTime = t.lockTime from c6) (show y.sequence = x.sequence from hseq)]
    refine hP _ fun sig key => ?_
    rw [checkSig_single, single_rule E hf t' i y (by rw [c4]; exact ho), signed_sig h hsg c3 c4 c5 c6]

/-- C106 fails for every other input on networks without fork id: the input is valid exactly if the signature is good for the hash of the original
algorithm's preimage, but `sighash_single` returns the hash of another preimage. -/
theorem C106_false (E : Env) (hs : E.net.Supported) (hH : E.H.LengthOK) (hz : E.net.isZcash = false) (hd : E.net.isDecred = false)
    (hf : E.net.forkid = none) (verify : Bytes → Bytes → Bytes → Bool) (pubkey : Bytes) (t : Tx) (h : t.Built E)
    (hw : t.flag = none ∧ t.txWitnesses = none) (i : Nat) (hi : i + 1 < t.txIns.length) (ho : i < t.txOuts.length) (value : Bytes) (acp : Bool) :
    ∃ s p p', makeP2pkhOutputScript E pubkey = .ok s ∧ t.sighashSingle E i (varBytes s) (some value) acp = .ok (E.hash256 p) ∧ p ≠ p' ∧
      p' = legacyPreimage t.sig i s (if acp then 0x83 else 0x03) ∧
      ∀ sig key : Bytes, 1 ≤ sig.length ∧ sig.length ≤ 519 → 1 ≤ key.length ∧ key.length ≤ 520 →
        ∃ ss, serialize E.net (p2pkhScriptSig (toHex (sig ++ [singleByte E.net acp])) (toHex key)) = .ok ss ∧
          SignedSpends E verify t i ss ⟨value, s⟩ (E.hash160 key = E.hash160 pubkey ∧ verify key (E.hash256 p') sig = true) := by
  have hx := List.getElem?_eq_getElem (show i < t.txIns.length by omega)
  have hm := (C29_templates E hs pubkey [] [] rfl).1
  have hsl : (p2pkhScript (E.hash160 pubkey)).length = 25 := by simp [p2pkhScript, E.hash160_length hH]
  obtain ⟨p, hp, hne⟩ := C49_false E hf t h hw i (by omega) (by omega) ho (p2pkhScript (E.hash160 pubkey)) (by omega) (.inl (not_zcash hs hz)) (some value) acp
  refine ⟨_, p, _, hm, hp, hne, rfl, fun sig key h1 h2 => ?_⟩
  have hsgl : (sig ++ [singleByte E.net acp]).length = sig.length + 1 := by simp
  have hss := C88_p2pkh_sig E.net hs (sig ++ [singleByte E.net acp]) key ⟨by omega, by omega⟩ ⟨h2.1, by omega⟩
  have l1 := minimalPush_length (sig ++ [singleByte E.net acp])
  have l2 := minimalPush_length key
  refine ⟨_, hss, single_core E hs hf verify t h hw i _ hx ho value acp (p2pkhScript (E.hash160 pubkey)) _ _ _ (by rw [List.length_append]; omega)
    fun check hck => ?_⟩
  rw [C103_p2pkh_sig E hs hH check _ hd pubkey _ key _ _ hm ⟨by omega, by omega⟩ h2 hss, hck]

/-- Bitcoin, with the hash functions themselves. -/
def realEnv : Env := ⟨bitcoinMain, hashlib⟩

def exReal : Tx := txObj realEnv [1, 0, 0, 0] none [exIn, exIn] [exOut, exOut] none [0, 0, 0, 0]
theorem exReal_built : exReal.Built realEnv := by
  refine ⟨_, _, _, _, _, _, ?_, ?_, ?_, Tx.make_iff.2 ⟨?_, rfl⟩⟩
  · intro i hi; simp at hi; rw [hi]; exact exIn_built
  · intro i hi; simp at hi; rw [hi]; exact exOut_built
  · simp
  · decide +kernel

/-- C106 is false on Bitcoin for the first of two inputs: the digest that `sighash_single` returns, a signature that is good for it, the script sig of
the template, the signed copy; and the input is not valid. -/
theorem C106_false_bitcoin : ∃ (verify : Bytes → Bytes → Bytes → Bool) (pubkey sig digest value s ss : Bytes) (t t' : Tx) (y : TxIn) (w : WireTx),
    t.Built realEnv ∧ makeP2pkhOutputScript realEnv pubkey = .ok s ∧ t.sighashSingle realEnv 0 (varBytes s) (some value) = .ok digest ∧
    verify pubkey digest sig = true ∧ serialize realEnv.net (p2pkhScriptSig (toHex (sig ++ [0x03])) (toHex pubkey)) = .ok ss ∧
    exIn.copy (stackScript := some ss) (redeemScript := some []) = .ok y ∧ t.txIns = [exIn, exIn] ∧
    t.copy realEnv (txIns := some [y, exIn]) = .ok t' ∧ w.WF ∧ w.bytes = t'.bytes ∧ w.validInput (rules realEnv verify) 0 ⟨value, s⟩ = false := by
  have hs : realEnv.net.Supported := by unfold Network.Supported; decide +kernel
  obtain ⟨s, p, p', h1, h2, h3, h4, h5⟩ := C106_false realEnv hs hashlib_ok rfl rfl rfl (fun _ d sig => d == sig) [7] exReal exReal_built ⟨rfl, rfl⟩ 0
    (by decide) (by decide) (List.replicate 8 0) false
  have hl : (realEnv.hash256 p).length = 32 := realEnv.hash256_length hashlib_ok _
  obtain ⟨ss, g1, ⟨x, y, g2, g3, g4⟩, g5⟩ := h5 (realEnv.hash256 p) [7] (by omega) (by decide)
  cases (show some exIn = some x from g2)
  obtain ⟨t', w, f1, f2, f3, -, f4⟩ := g5 [y, exIn] y (.cons ⟨_, _, g3⟩ (.cons ⟨exIn.stackScript, exIn.redeemScript, by decide +kernel⟩ .nil)) rfl g4
  refine ⟨fun _ d sig => d == sig, [7], realEnv.hash256 p, realEnv.hash256 p, List.replicate 8 0, s, ss, exReal, t', y, w, exReal_built, h1, h2, by simp, g1, g3, rfl, f1, f2, f3, ?_⟩
  rw [← Bool.not_eq_true, f4]
  rintro ⟨-, c⟩
  have c : realEnv.hash256 p' = realEnv.hash256 p := by simpa using c
  have hs' : s = p2pkhScript (realEnv.hash160 [7]) := by
    rw [(C29_templates realEnv hs [7] [] [] rfl).1] at h1
    exact (Except.ok.inj h1).symm
  rw [← c, h4, hs'] at h2
  revert h2
  decide +kernel

/-! ## Witnesses -/

/-- What is claimed of a way to sign a witness input with script sig `scriptSig`, as `Signable`: pay to witness public key hash, the same nested in pay
to script hash, and the 2-of-2 template in pay to witness script hash. -/
structure WitnessSignable (E : Env) (verify : Bytes → Bytes → Bytes → Bool) (digest : Bytes → Py Bytes) (type : UInt8) (value scriptSig : Bytes)
    (Spends : List Bytes → WireOut → Prop → Prop) : Prop where
  p2wpkh : ∀ pubkey : Bytes, truthy (E.hash160 pubkey) = true →
    ∃ code s n d, makeP2pkhOutputScript E pubkey = .ok code ∧ makeP2wpkhOutputScript E pubkey = .ok s ∧
      makeP2shOutputScript E (pystr "OP_0 " ++ toHex (E.hash160 pubkey)) = .ok n ∧ digest (varBytes code) = .ok d ∧
      ∀ sig key : Bytes, sig.length ≤ 519 → key.length ≤ 520 →
        (scriptSig = [] → Spends [sig ++ [type], key] ⟨value, s⟩ (E.hash160 key = E.hash160 pubkey ∧ verify key d sig = true)) ∧
        (serialize E.net (toHex s) = .ok scriptSig → Spends [sig ++ [type], key] ⟨value, n⟩
          (E.hash160 key = E.hash160 pubkey ∧ verify key d sig = true))
  msig : ∀ a b : Bytes, 1 ≤ a.length ∧ a.length ≤ 75 → 1 ≤ b.length ∧ b.length ≤ 75 →
    ∃ r s d, serialize E.net (msigTwoTwo (toHex a) (toHex b)) = .ok r ∧ makeP2wshOutputScript E (msigTwoTwo (toHex a) (toHex b)) = .ok s ∧
      digest (varBytes r) = .ok d ∧
      (truthy (E.H.sha256 r) = true → scriptSig = [] → ∀ x y : Bytes, x.length ≤ 519 → y.length ≤ 519 →
        Spends [[], x ++ [type], y ++ [type], r] ⟨value, s⟩ (verify a d x = true ∧ verify b d y = true))

/-- It is enough to know what the script interpreter does with the input. -/
theorem witnessSignable_of (E : Env) (hs : E.net.Supported) (hH : E.H.LengthOK) (hd : E.net.isDecred = false) (hsw : E.net.segwit = true)
    (verify : Bytes → Bytes → Bytes → Bool) (dig : Bytes → Py Bytes) (ty : UInt8) (value xs lt sq : Bytes) (Q : List Bytes → WireOut → Prop → Prop)
    (core : ∀ code : Bytes, ∃ d, dig (varBytes code) = .ok d ∧
      ∀ (items : List Bytes) (s : Bytes) (P : Prop), (∀ d ∈ items, d.length < 2 ^ 64) → items.length < 2 ^ 64 →
        (∀ check, (∀ sig key, check true code (sig ++ [ty]) key = verify key d sig) → (spends (world E check (lockFn lt sq)) xs items s = true ↔ P)) →
        Q items ⟨value, s⟩ P) : WitnessSignable E verify dig ty value xs Q := by
  constructor
  · intro pubkey ht
    have l20 := E.hash160_length hH pubkey
    have tm := C29_templates E hs pubkey [] [] rfl
    have hm := tm.1
    have hm2 := (tm.2.2.1 hsw).1
    have ser : serialize E.net (pystr "OP_0 " ++ toHex (E.hash160 pubkey)) = .ok (p2wpkhScript (E.hash160 pubkey)) := by
      have := (C88_outputs E.net hs (E.hash160 pubkey) (List.replicate 32 0) l20 (by simp)).2.2.1
      simpa [p2w] using this
    have hm3 := (C29_templates E hs [] _ _ ser).2.1
    have len : (p2wpkhScript (E.hash160 pubkey)).length = 22 := by simp [p2wpkhScript, l20]
    have hpush : serialize E.net (toHex (p2wpkhScript (E.hash160 pubkey))) = .ok (minimalPush (p2wpkhScript (E.hash160 pubkey))) := by
      simpa [joinSpace] using serialize_toks [(toHex (p2wpkhScript (E.hash160 pubkey)), minimalPush (p2wpkhScript (E.hash160 pubkey)))]
        (by simpa using tok_hex hs (by omega) (by omega))
    obtain ⟨digest, hdig, core⟩ := core (p2pkhScript (E.hash160 pubkey))
    refine ⟨_, _, _, digest, hm, hm2, hm3, hdig, fun sig key h1 h2 => ?_⟩
    have hsgl : (sig ++ [ty]).length = sig.length + 1 := by simp
    have hitems : ∀ d ∈ [sig ++ [ty], key], d.length < 2 ^ 64 := by
      simp only [List.forall_mem_cons]
      exact ⟨by omega, by omega, by simp⟩
    have one : ∀ check : Bool → Bytes → Bytes → Bytes → Bool,
        (∀ sig key, check true (p2pkhScript (E.hash160 pubkey)) (sig ++ [ty]) key = verify key digest sig) →
        ((truthy (E.hash160 pubkey) = true ∧ ∃ sig' key', [sig ++ [ty], key] = [sig', key'] ∧ sig'.length ≤ 520 ∧ key'.length ≤ 520 ∧
          E.hash160 key' = E.hash160 pubkey ∧ check true (p2pkhScript (E.hash160 pubkey)) sig' key' = true) ↔
          E.hash160 key = E.hash160 pubkey ∧ verify key digest sig = true) := by
      intro check hck
      constructor
      · rintro ⟨-, sig', key', e, -, -, a, b⟩
        cases e
        rw [hck] at b
        exact ⟨a, b⟩
      · rintro ⟨a, b⟩
        exact ⟨ht, _, _, rfl, by omega, h2, a, by rw [hck]; exact b⟩
    refine ⟨fun hx0 => core _ _ _ hitems (by simp) fun check hck => ?_, fun hx0 => core _ _ _ hitems (by simp) fun check hck => ?_⟩
    · rw [C103_p2wpkh E hs hH check _ hd pubkey _ hm2, ← one check hck]
      simp only [hx0, true_and]
    · rw [hpush] at hx0
      rw [← Except.ok.inj hx0, C103_nested E hs hH check _ hd hsw pubkey _ hm3, one check hck]
  · intro a b ha hb
    have ser := (C88_msig E.net hs a b a b ⟨ha.1, by omega⟩ ⟨hb.1, by omega⟩ ⟨ha.1, by omega⟩ ⟨hb.1, by omega⟩).1
    obtain ⟨r', -, h1, h2, -, -, -⟩ := C103_msig E hs hH (fun _ _ _ _ => true) (fun _ => true) hd a b ha hb
    generalize hr : [0x52] ++ minimalPush a ++ minimalPush b ++ [0x52, 0xae] = r at ser
    rw [ser] at h1
    obtain rfl := Except.ok.inj h1
    have hm := ((C29_templates E hs [] _ _ ser).2.2.1 hsw).2
    obtain ⟨digest, hdig, core⟩ := core r
    refine ⟨r, _, digest, ser, hm, hdig, fun htr hx0 x' y' h3 h4 => core _ _ _ ?_ (by simp) fun check hck => ?_⟩
    · simp only [List.forall_mem_cons, List.length_append, List.length_cons, List.length_nil]
      exact ⟨by omega, by omega, by omega, by omega, by simp⟩
    · rw [C103_p2wsh E hs hH check _ hd _ r _ ser hm]
      have hev := eval_msig (world E check (lockFn lt sq)) true ⟨ha.1, by omega⟩ ⟨hb.1, by omega⟩ hr.symm (by omega)
      constructor
      · rintro ⟨-, -, items, r2, z, e1, -, -, e4, e5⟩
        have e1' : [[], x' ++ [ty], y' ++ [ty]] ++ [r] = items ++ [r2] := e1
        obtain ⟨rfl, e⟩ := List.append_inj' e1' rfl
        cases e
        rw [hev] at e4
        simp only [List.reverse_cons, List.reverse_nil, List.nil_append, List.cons_append, Option.some.injEq, List.cons.injEq, and_true] at e4
        rw [← e4, truthy_ofBool, Bool.and_eq_true] at e5
        exact ⟨by rw [← hck]; exact e5.2, by rw [← hck]; exact e5.1⟩
      · rintro ⟨g1, g2⟩
        refine ⟨hx0, htr, [[], x' ++ [ty], y' ++ [ty]], r, ofBool true, rfl, rfl, ?_, ?_, by decide⟩
        · simp only [List.forall_mem_cons, List.length_append, List.length_cons, List.length_nil]
          exact ⟨by omega, by omega, by omega, by simp⟩
        · rw [hev]
          simp only [List.reverse_cons, List.reverse_nil, List.nil_append, List.cons_append]
          have k1 : (world E check (lockFn lt sq)).checkSig true r (y' ++ [ty]) b = true := (hck _ _).trans g2
          have k2 : (world E check (lockFn lt sq)).checkSig true r (x' ++ [ty]) a = true := (hck _ _).trans g1
          rw [k1, k2]
          rfl

/-- C106, witness inputs: every input with an output of the same index. -/
theorem C106_witness (E : Env) (hs : E.net.Supported) (hH : E.H.LengthOK) (hd : E.net.isDecred = false) (hsw : E.net.segwit = true)
    (verify : Bytes → Bytes → Bytes → Bool) (t : Tx) (h : t.Built E) (hw : t.flag ≠ none) (i : Nat) (x : TxIn) (hx : t.txIns[i]? = some x)
    (ho : i < t.txOuts.length) (value : Bytes) (hv : value.length = 8) (acp : Bool) :
    WitnessSignable E verify (fun code => t.sighashSingle E i code (some value) acp) (singleByte E.net acp) value x.scriptSig
      (WitnessSpends E verify t i) := by
  apply witnessSignable_of E hs hH hd hsw verify _ _ _ _ t.lockTime x.sequence
  intro code
  have d0 := single_witness_digest E hs t h hw i x hx ho value hv acp code verify
  refine ⟨_, d0, fun items s P hl hl' hP => ?_⟩
  obtain ⟨wit, m1, m2, m3, -⟩ := C81_witness items hl hl'
  refine ⟨wit, m1, fun ws hws hlen hwi => ?_⟩
  obtain ⟨t', c1, c2, c3, c4, c5, c6, c7, c8, -, c9⟩ := C90_witnesses E t h hw ws hws hlen
  have hf' : t'.flag ≠ none := by rw [c8]; exact hw
  have hxi : t'.txIns[i]? = some x := by rw [c4]; exact hx
  have d1 := single_witness_digest E hs t' c2 hf' i x hxi (by rw [c5]; exact ho) value hv acp code verify
  rw [(c9 i (varBytes code) (some value) acp).2, d0] at d1
  obtain ⟨fl, hfl⟩ := Option.ne_none_iff_exists'.1 hf'
  have hwits : (fieldsOf t').wits = some (ws.map fun w => w.stack.map (·.item)) := by
    simp [fieldsOf, hfl, c3]
  have wf : (fieldsOf t').WF := by
    obtain ⟨h1, h2, h3, h4, h5⟩ := fieldsOf_loose c2
    refine ⟨h1, h2, h3, h4, fun ws' e => ⟨?_, (h5 ws' e).2⟩⟩
    rw [hwits] at e
    cases e
    simp [fieldsOf, c4, hlen]
  refine ⟨t', fieldsOf t', c1, wf, fieldsOf_bytes hs c2, by rw [outs_bytes c2, c5], ?_⟩
  have e : (fieldsOf t').ins[i]? = some (wireOf x) := by simp [fieldsOf, hxi, wireOf]
  have ei : (((fieldsOf t').wits.getD []).getD i []) = items := by
    rw [hwits]
    simp [hwi, m3]
  unfold WireTx.validInput
  rw [e]
  simp only [ei]
  have hk := lockOK_congr (w := fieldsOf t') (w' := fieldsOf t) (x := wireOf x) (y := wireOf x) (show t'.lockTime = t.lockTime from c7) rfl
  rw [hk]
  refine hP ((rules E verify).checkSig (fieldsOf t') i (wireOf x) value) fun sig key => ?_
  rw [checkSig_single, ← Except.ok.inj d1]

/-! ## Examples -/

/-- The last input of a transaction with two inputs and two outputs. -/
example := C106_single_partial toyEnv toy_supported toyHashes_ok rfl rfl (fun _ d sig => d == sig) exLegacy exLegacy_built ⟨rfl, rfl⟩ 1 exIn rfl
  (by decide) (.inr (by decide)) (List.replicate 8 0) rfl true

example := C106_false toyEnv toy_supported toyHashes_ok rfl rfl rfl (fun _ d sig => d == sig) [7] exLegacy exLegacy_built ⟨rfl, rfl⟩ 0 (by decide)
  (by decide) (List.replicate 8 0) false

example := C106_witness toyEnv toy_supported toyHashes_ok rfl rfl (fun _ d sig => d == sig) exUnsigned exUnsigned_built (by decide) 0 exEmptyIn rfl
  (by decide) (List.replicate 8 0) rfl true

end Verif.Props
