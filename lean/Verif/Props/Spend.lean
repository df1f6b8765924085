import Verif.Spec.SpendTx
import Verif.Props.Interp
import Verif.Props.WireTx
import Verif.Props.Builder3
import Verif.Props.Workflow

/-! # C104: what is signed with the library's digests is valid

The whole way: output script of a key, unsigned transaction, digest, signature, script sig or witness, signed transaction, its bytes; checked by
the rules of `Spec/SpendTx` on the transaction that has these bytes. -/

namespace Verif.Props

open Verif Spec Addresses Builder Examples ExampleScripts

/-- The rules of a network, with any signature scheme. -/
def rules (E : Env) (verify : Bytes → Bytes → Bytes → Bool) : Rules :=
  ⟨E.H.sha256, E.hash160, E.hash256, verify, E.net.forkid, E.net.segwit⟩

theorem fieldsOf_sig (t : Tx) : (fieldsOf t).sig = t.sig := by
  simp [WireTx.sig, fieldsOf, Tx.sig, Function.comp_def, WireOut.bytes]

theorem fieldsOf_wf_legacy {E : Env} {t : Tx} (h : t.Built E) (hf : t.flag = none) : (fieldsOf t).WF := by
  obtain ⟨h1, h2, h3, h4, -⟩ := fieldsOf_loose h
  exact ⟨h1, h2, h3, h4, by intro ws hws; simp [fieldsOf, hf] at hws⟩

theorem checkSig_append (R : Rules) (w : WireTx) (i : Nat) (inp : WireIn) (amount : Bytes) (v : Bool) (code sig key : Bytes) (ty : UInt8) :
    R.checkSig w i inp amount v code (sig ++ [ty]) key =
      ((R.forkid.isNone || ty.toNat / 64 % 2 == 1) && R.verify key (R.digest w i inp amount v code ty.toNat) sig) := by
  unfold Rules.checkSig
  simp

theorem forall₂_get {α β : Type} {R : α → β → Prop} {l : List α} {l' : List β} (h : List.Forall₂ R l l') {i : Nat} {y : β}
    (hy : l'[i]? = some y) : ∃ x, l[i]? = some x ∧ R x y := by
  induction h generalizing i with
  | nil => simp at hy
  | cons h1 _ ih =>
    cases i with
    | zero => simp at hy; subst hy; exact ⟨_, rfl, h1⟩
    | succ i => simpa using ih (by simpa using hy)

/-- The input of the wire transaction. -/
def wireOf (x : TxIn) : WireIn := ⟨x.outpoint.txId, x.outpoint.index, x.scriptSig, x.sequence⟩

theorem valid_legacy (E : Env) (verify : Bytes → Bytes → Bytes → Bool) (t : Tx) (hf : t.flag = none) (i : Nat) (y : TxIn)
    (hy : t.txIns[i]? = some y) (prev : WireOut) :
    (fieldsOf t).validInput (rules E verify) i prev =
      spends (world E ((rules E verify).checkSig (fieldsOf t) i (wireOf y) prev.value) ((fieldsOf t).lockOK (wireOf y))) y.scriptSig [] prev.script := by
  have e : (fieldsOf t).ins[i]? = some (wireOf y) := by
    simp [fieldsOf, hy, wireOf]
  have ew : (fieldsOf t).wits = none := by simp [fieldsOf, hf]
  unfold WireTx.validInput
  rw [e]
  simp only [ew]
  rfl

/-- The byte that is appended to a signature: ALL, with or without ANYONECANPAY, and the bit of the fork id. -/
def typeByte (net : Network) (acp : Bool) : UInt8 :=
  match net.forkid.isSome, acp with
  | false, false => 0x01
  | false, true => 0x81
  | true, false => 0x41
  | true, true => 0xc1

/-- Input `i` of the transaction can be given the script sig, and then it spends the output exactly if `P`: whatever script sigs the other inputs
are given, the transaction can be copied with the new inputs, and its bytes are those of a well-formed transaction with the same outputs, whose input
is valid iff `P`. -/
def SignedSpends (E : Env) (verify : Bytes → Bytes → Bytes → Bool) (t : Tx) (i : Nat) (ss : Bytes) (prev : WireOut) (P : Prop) : Prop :=
  (∃ x y, t.txIns[i]? = some x ∧ x.copy (stackScript := some ss) (redeemScript := some []) = .ok y ∧ y.scriptSig = ss) ∧
  ∀ signed y, List.Forall₂ Signs t.txIns signed → signed[i]? = some y → y.scriptSig = ss →
    ∃ (t' : Tx) (w : WireTx), t.copy E (txIns := some signed) = .ok t' ∧ w.WF ∧ w.bytes = t'.bytes ∧ w.outs.map WireOut.bytes = t.txOuts.map (·.bytes) ∧
      (w.validInput (rules E verify) i prev = true ↔ P)

/-- The same for the witness of an input. -/
def WitnessSpends (E : Env) (verify : Bytes → Bytes → Bytes → Bool) (t : Tx) (i : Nat) (items : List Bytes) (prev : WireOut) (P : Prop) : Prop :=
  ∃ wit, makeWitness items = .ok wit ∧
  ∀ ws : List InputWitness, (∀ w ∈ ws, w.Built) → ws.length = t.txIns.length → ws[i]? = some wit →
    ∃ (t' : Tx) (w : WireTx), t.copy E (txWitnesses := some ws) = .ok t' ∧ w.WF ∧ w.bytes = t'.bytes ∧ w.outs.map WireOut.bytes = t.txOuts.map (·.bytes) ∧
      (w.validInput (rules E verify) i prev = true ↔ P)

theorem not_zcash {net : Network} (hs : net.Supported) (hz : net.isZcash = false) : net.isOverwinter = false ∧ net.isSapling = false := by
  have key : ∀ n : Network, n.Supported → n.isZcash = false → n.isOverwinter = false ∧ n.isSapling = false := by
    unfold Network.Supported; decide +kernel
  exact key _ hs hz

theorem outs_bytes {E : Env} {t : Tx} (h : t.Built E) : (fieldsOf t).outs.map WireOut.bytes = t.txOuts.map (·.bytes) := by
  simp only [fieldsOf, List.map_map]
  apply List.map_congr_left
  intro o ho
  exact (h.facts.outs o ho).eq.2.2.symm

/-- What is signed of an input that is not a witness input. -/
theorem signed_digest (E : Env) (hs : E.net.Supported) (hz : E.net.isZcash = false) (t : Tx) (h : t.Built E)
    (hw : t.flag = none ∧ t.txWitnesses = none) (i : Nat) (x : TxIn) (hx : t.txIns[i]? = some x) (value : Bytes) (hv : value.length = 8) (acp : Bool)
    (code : Bytes) (hc : code.length ≤ 1650) (verify : Bytes → Bytes → Bytes → Bool) :
    t.sighashAll E i (varBytes code) (some value) acp =
      .ok ((rules E verify).digest (fieldsOf t) i (wireOf x) value false code (typeByte E.net acp).toNat) := by
  have hl : i < t.txIns.length := (List.getElem?_eq_some_iff.1 hx).1
  unfold Rules.digest
  cases hf : E.net.forkid with
  | none =>
    have hR : (rules E verify).forkid = none := hf
    have hty : (typeByte E.net acp).toNat = if acp then 0x81 else 0x01 := by unfold typeByte; rw [hf]; cases acp <;> rfl
    rw [C48_all E hf t h hw i i (.inl rfl) hl code hc (.inl (not_zcash hs hz)) (some value) acp, hR]
    have hb : ¬ (baseType (if acp then 0x81 else 0x01) = 3 ∧ (fieldsOf t).outs.length ≤ i) := by
      cases acp <;> (intro c; exact absurd c.1 (by decide))
    simp only [Bool.false_eq_true, if_false]
    rw [hty, if_neg hb, fieldsOf_sig]
    rfl
  | some k =>
    have hR : (rules E verify).forkid = some k := hf
    have hty : k * 256 + (typeByte E.net acp).toNat = k * 256 + (if acp then 0x81 else 0x01) + 0x40 := by
      rw [show (typeByte E.net acp).toNat = (if acp then 0x81 else 0x01) + 0x40 by unfold typeByte; rw [hf, Option.isSome_some]; cases acp <;> decide, Nat.add_assoc]
    rw [C47_all E hs k hf t h i i x (.inl rfl) hx (varBytes code) value hv acp, hR]
    simp only
    rw [hty, fieldsOf_sig]
    rfl

/-- What is signed of an input of a transaction with witnesses. -/
theorem witness_digest (E : Env) (hs : E.net.Supported) (t : Tx) (h : t.Built E)
    (hw : t.flag ≠ none) (i : Nat) (x : TxIn) (hx : t.txIns[i]? = some x) (value : Bytes) (hv : value.length = 8) (acp : Bool)
    (code : Bytes) (verify : Bytes → Bytes → Bytes → Bool) :
    t.sighashAll E i (varBytes code) (some value) acp =
      .ok ((rules E verify).digest (fieldsOf t) i (wireOf x) value true code (typeByte E.net acp).toNat) := by
  unfold Rules.digest
  cases hf : E.net.forkid with
  | none =>
    have hR : (rules E verify).forkid = none := hf
    have hty : (typeByte E.net acp).toNat = if acp then 0x81 else 0x01 := by unfold typeByte; rw [hf]; cases acp <;> rfl
    rw [C46_all E hf t h (.inl hw) i i x (.inl rfl) hx (varBytes code) value acp, hR]
    simp only
    rw [if_pos trivial, fieldsOf_sig, hty]
    rfl
  | some k =>
    have hR : (rules E verify).forkid = some k := hf
    have hty : k * 256 + (typeByte E.net acp).toNat = k * 256 + (if acp then 0x81 else 0x01) + 0x40 := by
      rw [show (typeByte E.net acp).toNat = (if acp then 0x81 else 0x01) + 0x40 by unfold typeByte; rw [hf, Option.isSome_some]; cases acp <;> decide, Nat.add_assoc]
    rw [C47_all E hs k hf t h i i x (.inl rfl) hx (varBytes code) value hv acp, hR]
    simp only
    rw [hty, fieldsOf_sig]
    rfl

theorem checkSig_type (E : Env) (verify : Bytes → Bytes → Bytes → Bool) (w : WireTx) (i : Nat) (inp : WireIn) (amount : Bytes) (v acp : Bool)
    (code sig key : Bytes) :
    (rules E verify).checkSig w i inp amount v code (sig ++ [typeByte E.net acp]) key =
      verify key ((rules E verify).digest w i inp amount v code (typeByte E.net acp).toNat) sig := by
  rw [checkSig_append]
  have : ((rules E verify).forkid.isNone || (typeByte E.net acp).toNat / 64 % 2 == 1) = true := by
    show (E.net.forkid.isNone || _) = true
    unfold typeByte
    cases E.net.forkid <;> cases acp <;> simp
  rw [this, Bool.true_and]
  rfl

theorem lockOK_congr {w w' : WireTx} {x y : WireIn} (h1 : w.lockTime = w'.lockTime) (h2 : x.sequence = y.sequence) : w.lockOK x = w'.lockOK y := by
  funext b
  unfold WireTx.lockOK
  rw [h1, h2]

/-- The common part: an input of a transaction without witnesses. -/
theorem signed_spends (E : Env) (hs : E.net.Supported) (hz : E.net.isZcash = false) (verify : Bytes → Bytes → Bytes → Bool) (t : Tx) (h : t.Built E)
    (hw : t.flag = none ∧ t.txWitnesses = none) (i : Nat) (x : TxIn) (hx : t.txIns[i]? = some x) (value : Bytes) (hv : value.length = 8) (acp : Bool)
    (code : Bytes) (hc : code.length ≤ 1650) :
    ∃ digest, t.sighashAll E i (varBytes code) (some value) acp = .ok digest ∧
      ∀ (ss s : Bytes) (P : Prop), ss.length ≤ 1650 →
        (∀ check, (∀ sig key, check false code (sig ++ [typeByte E.net acp]) key = verify key digest sig) →
          (spends (world E check ((fieldsOf t).lockOK (wireOf x))) ss [] s = true ↔ P)) →
        SignedSpends E verify t i ss ⟨value, s⟩ P := by
  have d0 := signed_digest E hs hz t h hw i x hx value hv acp code hc verify
  refine ⟨_, d0, fun ss s P hl hP => ⟨?_, fun signed y hsg hy hys => ?_⟩⟩
  · have e := (h.facts.ins x (List.mem_of_getElem? hx)).eq
    exact ⟨x, _, hx, TxIn.make_iff.2 ⟨e.1.length, e.2.1, by simpa using hl, rfl⟩, by simp⟩
  · obtain ⟨t', c1, c2, c3, c4, c5, c6, c7, c8, c9⟩ := C90_script_sigs E t h signed hsg
    have hyi' : t'.txIns[i]? = some y := by rw [c3]; exact hy
    have d1 := signed_digest E hs hz t' c2 ⟨c7.trans hw.1, c8.trans hw.2⟩ i y hyi' value hv acp code hc verify
    rw [(c9 i (varBytes code) (some value) acp).1, d0] at d1
    refine ⟨t', fieldsOf t', c1, fieldsOf_wf_legacy c2 (c7.trans hw.1), fieldsOf_bytes hs c2, by rw [outs_bytes c2, c4], ?_⟩
    obtain ⟨x', hx', st, rd, hxy⟩ := forall₂_get hsg hy
    rw [hx] at hx'
    cases hx'
    have hseq : y.sequence = x.sequence := by
      obtain ⟨-, -, -, rfl⟩ := TxIn.make_iff.1 hxy
      rfl
    rw [valid_legacy E verify t' (c7.trans hw.1) i y hyi', hys,
      lockOK_congr (w' := fieldsOf t) (y := wireOf x) (show t'.lockTime = t.lockTime from c6) (show y.sequence = x.sequence from hseq)]
    refine hP _ fun sig key => ?_
    rw [checkSig_type, ← Except.ok.inj d1]

/-- The common part: an input of a transaction with witnesses. -/
theorem witness_spends (E : Env) (hs : E.net.Supported) (verify : Bytes → Bytes → Bytes → Bool) (t : Tx) (h : t.Built E)
    (hw : t.flag ≠ none) (i : Nat) (x : TxIn) (hx : t.txIns[i]? = some x) (value : Bytes) (hv : value.length = 8) (acp : Bool)
    (code : Bytes) :
    ∃ digest, t.sighashAll E i (varBytes code) (some value) acp = .ok digest ∧
      ∀ (items : List Bytes) (s : Bytes) (P : Prop), (∀ d ∈ items, d.length < 2 ^ 64) → items.length < 2 ^ 64 →
        (∀ check, (∀ sig key, check true code (sig ++ [typeByte E.net acp]) key = verify key digest sig) →
          (spends (world E check ((fieldsOf t).lockOK (wireOf x))) x.scriptSig items s = true ↔ P)) →
        WitnessSpends E verify t i items ⟨value, s⟩ P := by
  have d0 := witness_digest E hs t h hw i x hx value hv acp code verify
  refine ⟨_, d0, fun items s P hl hl' hP => ?_⟩
  obtain ⟨wit, m1, m2, m3, -⟩ := C81_witness items hl hl'
  refine ⟨wit, m1, fun ws hws hlen hwi => ?_⟩
  obtain ⟨t', c1, c2, c3, c4, c5, c6, c7, c8, -, c9⟩ := C90_witnesses E t h hw ws hws hlen
  have hf' : t'.flag ≠ none := by rw [c8]; exact hw
  have hxi : t'.txIns[i]? = some x := by rw [c4]; exact hx
  have d1 := witness_digest E hs t' c2 hf' i x hxi value hv acp code verify
  rw [(c9 i (varBytes code) (some value) acp).1, d0] at d1
  obtain ⟨fl, hfl⟩ := Option.ne_none_iff_exists'.1 hf'
  have hwits : (fieldsOf t').wits = some (ws.map fun w => w.stack.map (·.item)) := by
    simp [fieldsOf, hfl, c3]
  have wf : (fieldsOf t').WF := by
    obtain ⟨h1, h2, h3, h4, h5⟩ := fieldsOf_loose c2
    refine ⟨h1, h2, h3, h4, fun ws' e => ⟨?_, (h5 ws' e).2⟩⟩
    rw [hwits] at e
    cases e
    simp [fieldsOf, c4, hlen]
  refine ⟨t', fieldsOf t', c1, wf, fieldsOf_bytes hs c2, by rw [outs_bytes c2, c5], ?_⟩
  have e : (fieldsOf t').ins[i]? = some (wireOf x) := by simp [fieldsOf, hxi, wireOf]
  have ei : (((fieldsOf t').wits.getD []).getD i []) = items := by
    rw [hwits]
    simp [hwi, m3]
  unfold WireTx.validInput
  rw [e]
  simp only [ei]
  have hk := lockOK_congr (w := fieldsOf t') (w' := fieldsOf t) (x := wireOf x) (y := wireOf x) (show t'.lockTime = t.lockTime from c7) rfl
  rw [hk]
  refine hP ((rules E verify).checkSig (fieldsOf t') i (wireOf x) value) fun sig key => ?_
  rw [checkSig_type, ← Except.ok.inj d1]

/-- C104, pay to public key hash: the output script of a key, the digest of the transaction for it, any signature with the hash type appended and
any key, put into the template: the input is valid exactly if the key has the hash and the signature is good for the key and the digest. -/
theorem C104_p2pkh (E : Env) (hs : E.net.Supported) (hH : E.H.LengthOK) (hz : E.net.isZcash = false) (hd : E.net.isDecred = false)
    (verify : Bytes → Bytes → Bytes → Bool) (pubkey : Bytes) (t : Tx) (h : t.Built E) (hw : t.flag = none ∧ t.txWitnesses = none)
    (i : Nat) (hi : i < t.txIns.length) (value : Bytes) (hv : value.length = 8) (acp : Bool) :
    ∃ s digest, makeP2pkhOutputScript E pubkey = .ok s ∧ t.sighashAll E i (varBytes s) (some value) acp = .ok digest ∧
      ∀ sig key : Bytes, 1 ≤ sig.length ∧ sig.length ≤ 519 → 1 ≤ key.length ∧ key.length ≤ 520 →
        ∃ ss, serialize E.net (p2pkhScriptSig (toHex (sig ++ [typeByte E.net acp])) (toHex key)) = .ok ss ∧
          SignedSpends E verify t i ss ⟨value, s⟩ (E.hash160 key = E.hash160 pubkey ∧ verify key digest sig = true) := by
  have hx := List.getElem?_eq_getElem hi
  have hm := (C29_templates E hs pubkey [] [] rfl).1
  have hsl : (p2pkhScript (E.hash160 pubkey)).length = 25 := by simp [p2pkhScript, E.hash160_length hH]
  obtain ⟨digest, hdig, core⟩ := signed_spends E hs hz verify t h hw i _ hx value hv acp (p2pkhScript (E.hash160 pubkey)) (by omega)
  refine ⟨_, digest, hm, hdig, fun sig key h1 h2 => ?_⟩
  have hsgl : (sig ++ [typeByte E.net acp]).length = sig.length + 1 := by simp
  have hss := C88_p2pkh_sig E.net hs (sig ++ [typeByte E.net acp]) key ⟨by omega, by omega⟩ ⟨h2.1, by omega⟩
  have l1 := minimalPush_length (sig ++ [typeByte E.net acp])
  have l2 := minimalPush_length key
  refine ⟨_, hss, core _ _ _ (by rw [List.length_append]; omega) fun check hck => ?_⟩
  rw [C103_p2pkh_sig E hs hH check _ hd pubkey _ key _ _ hm ⟨by omega, by omega⟩ h2 hss, hck]

/-- C104, pay to witness public key hash (an input without script sig), and the same nested in pay to script hash (an input whose script sig pushes
the program): any signature and key, put into the witness of the input. -/
theorem C104_p2wpkh (E : Env) (hs : E.net.Supported) (hH : E.H.LengthOK) (hd : E.net.isDecred = false) (hsw : E.net.segwit = true)
    (verify : Bytes → Bytes → Bytes → Bool) (pubkey : Bytes) (ht : truthy (E.hash160 pubkey) = true) (t : Tx) (h : t.Built E) (hw : t.flag ≠ none)
    (i : Nat) (x : TxIn) (hx : t.txIns[i]? = some x) (value : Bytes) (hv : value.length = 8) (acp : Bool) :
    ∃ code s n digest, makeP2pkhOutputScript E pubkey = .ok code ∧ makeP2wpkhOutputScript E pubkey = .ok s ∧
      makeP2shOutputScript E (pystr "OP_0 " ++ toHex (E.hash160 pubkey)) = .ok n ∧
      t.sighashAll E i (varBytes code) (some value) acp = .ok digest ∧
      ∀ sig key : Bytes, sig.length ≤ 519 → key.length ≤ 520 →
        (x.scriptSig = [] → WitnessSpends E verify t i [sig ++ [typeByte E.net acp], key] ⟨value, s⟩
          (E.hash160 key = E.hash160 pubkey ∧ verify key digest sig = true)) ∧
        (serialize E.net (toHex s) = .ok x.scriptSig → WitnessSpends E verify t i [sig ++ [typeByte E.net acp], key] ⟨value, n⟩
          (E.hash160 key = E.hash160 pubkey ∧ verify key digest sig = true)) := by
  have l20 := E.hash160_length hH pubkey
  have tm := C29_templates E hs pubkey [] [] rfl
  have hm := tm.1
  have hm2 := (tm.2.2.1 hsw).1
  have ser : serialize E.net (pystr "OP_0 " ++ toHex (E.hash160 pubkey)) = .ok (p2wpkhScript (E.hash160 pubkey)) := by
    have := (C88_outputs E.net hs (E.hash160 pubkey) (List.replicate 32 0) l20 (by simp)).2.2.1
    simpa [p2w] using this
  have hm3 := (C29_templates E hs [] _ _ ser).2.1
  have len : (p2wpkhScript (E.hash160 pubkey)).length = 22 := by simp [p2wpkhScript, l20]
  have hpush : serialize E.net (toHex (p2wpkhScript (E.hash160 pubkey))) = .ok (minimalPush (p2wpkhScript (E.hash160 pubkey))) := by
    simpa [joinSpace] using serialize_toks [(toHex (p2wpkhScript (E.hash160 pubkey)), minimalPush (p2wpkhScript (E.hash160 pubkey)))]
      (by simpa using tok_hex hs (by omega) (by omega))
  obtain ⟨digest, hdig, core⟩ := witness_spends E hs verify t h hw i x hx value hv acp (p2pkhScript (E.hash160 pubkey))
  refine ⟨_, _, _, digest, hm, hm2, hm3, hdig, fun sig key h1 h2 => ?_⟩
  have hsgl : (sig ++ [typeByte E.net acp]).length = sig.length + 1 := by simp
  have hitems : ∀ d ∈ [sig ++ [typeByte E.net acp], key], d.length < 2 ^ 64 := by
    simp only [List.forall_mem_cons]
    exact ⟨by omega, by omega, by simp⟩
  have one : ∀ check : Bool → Bytes → Bytes → Bytes → Bool,
      (∀ sig key, check true (p2pkhScript (E.hash160 pubkey)) (sig ++ [typeByte E.net acp]) key = verify key digest sig) →
      ((truthy (E.hash160 pubkey) = true ∧ ∃ sig' key', [sig ++ [typeByte E.net acp], key] = [sig', key'] ∧ sig'.length ≤ 520 ∧ key'.length ≤ 520 ∧
        E.hash160 key' = E.hash160 pubkey ∧ check true (p2pkhScript (E.hash160 pubkey)) sig' key' = true) ↔
        E.hash160 key = E.hash160 pubkey ∧ verify key digest sig = true) := by
    intro check hck
    constructor
    · rintro ⟨-, sig', key', e, -, -, a, b⟩
      cases e
      rw [hck] at b
      exact ⟨a, b⟩
    · rintro ⟨a, b⟩
      exact ⟨ht, _, _, rfl, by omega, h2, a, by rw [hck]; exact b⟩
  refine ⟨fun hx0 => core _ _ _ hitems (by simp) fun check hck => ?_, fun hx0 => core _ _ _ hitems (by simp) fun check hck => ?_⟩
  · rw [C103_p2wpkh E hs hH check _ hd pubkey _ hm2, ← one check hck]
    simp only [hx0, true_and]
  · rw [hpush] at hx0
    rw [← Except.ok.inj hx0, C103_nested E hs hH check _ hd hsw pubkey _ hm3, one check hck]

/-- C104, the 2-of-2 multisig template in pay to script hash: both signatures are needed, each for its key. -/
theorem C104_msig (E : Env) (hs : E.net.Supported) (hH : E.H.LengthOK) (hz : E.net.isZcash = false) (hd : E.net.isDecred = false)
    (verify : Bytes → Bytes → Bytes → Bool) (a b : Bytes) (ha : 1 ≤ a.length ∧ a.length ≤ 75) (hb : 1 ≤ b.length ∧ b.length ≤ 75)
    (t : Tx) (h : t.Built E) (hw : t.flag = none ∧ t.txWitnesses = none)
    (i : Nat) (hi : i < t.txIns.length) (value : Bytes) (hv : value.length = 8) (acp : Bool) :
    ∃ r s digest, serialize E.net (msigTwoTwo (toHex a) (toHex b)) = .ok r ∧ makeP2shOutputScript E (msigTwoTwo (toHex a) (toHex b)) = .ok s ∧
      t.sighashAll E i (varBytes r) (some value) acp = .ok digest ∧
      ∀ x y : Bytes, 1 ≤ x.length ∧ x.length ≤ 519 → 1 ≤ y.length ∧ y.length ≤ 519 →
        ∃ ss, makeScriptSig E (msigTwoTwoStackScript (toHex (x ++ [typeByte E.net acp])) (toHex (y ++ [typeByte E.net acp])))
            (msigTwoTwo (toHex a) (toHex b)) = .ok ss ∧
          SignedSpends E verify t i ss ⟨value, s⟩ (verify a digest x = true ∧ verify b digest y = true) := by
  obtain ⟨r, s, h1, h2, h3, -, -⟩ := C103_msig E hs hH (fun _ _ _ _ => true) (fun _ => true) hd a b ha hb
  obtain ⟨digest, hdig, core⟩ := signed_spends E hs hz verify t h hw i _ (List.getElem?_eq_getElem hi) value hv acp r (by omega)
  refine ⟨r, s, digest, h1, h3, hdig, fun x y hx hy => ?_⟩
  have lx : (x ++ [typeByte E.net acp]).length = x.length + 1 := by simp
  have ly : (y ++ [typeByte E.net acp]).length = y.length + 1 := by simp
  obtain ⟨r', hr', hss, -⟩ := C88_msig_spend E hs a b (x ++ [typeByte E.net acp]) (y ++ [typeByte E.net acp]) ha hb ⟨by omega, by omega⟩ ⟨by omega, by omega⟩
  have hrr : r' = r := by
    have := (C88_msig E.net hs a b a b ⟨ha.1, by omega⟩ ⟨hb.1, by omega⟩ ⟨ha.1, by omega⟩ ⟨hb.1, by omega⟩).1
    rw [h1] at this
    rw [hr', ← Except.ok.inj this]
  rw [hrr] at hss
  have l1 := minimalPush_length (x ++ [typeByte E.net acp])
  have l2 := minimalPush_length (y ++ [typeByte E.net acp])
  have l3 := minimalPush_length r
  refine ⟨_, hss, core _ _ _ ?_ fun check hck => ?_⟩
  · simp only [List.length_append, List.length_cons, List.length_nil] at *
    omega
  · obtain ⟨r2, s2, g1, -, g3, g4, -⟩ := C103_msig E hs hH check ((fieldsOf t).lockOK (wireOf t.txIns[i])) hd a b ha hb
    rw [h1] at g1
    cases g1
    rw [h3] at g3
    cases g3
    obtain ⟨ss, e1, e2⟩ := g4 _ _ (show 1 ≤ (x ++ [typeByte E.net acp]).length ∧ _ ≤ 520 by omega)
      (show 1 ≤ (y ++ [typeByte E.net acp]).length ∧ _ ≤ 520 by omega)
    rw [hss] at e1
    cases e1
    rw [e2, hck, hck]

/-- C104, the 2-of-2 multisig template in pay to witness script hash. -/
theorem C104_witness_msig (E : Env) (hs : E.net.Supported) (hH : E.H.LengthOK) (hd : E.net.isDecred = false) (hsw : E.net.segwit = true)
    (verify : Bytes → Bytes → Bytes → Bool) (a b : Bytes) (ha : 1 ≤ a.length ∧ a.length ≤ 75) (hb : 1 ≤ b.length ∧ b.length ≤ 75)
    (t : Tx) (h : t.Built E) (hw : t.flag ≠ none)
    (i : Nat) (x : TxIn) (hx : t.txIns[i]? = some x) (hx0 : x.scriptSig = []) (value : Bytes) (hv : value.length = 8) (acp : Bool) :
    ∃ r s digest, serialize E.net (msigTwoTwo (toHex a) (toHex b)) = .ok r ∧ makeP2wshOutputScript E (msigTwoTwo (toHex a) (toHex b)) = .ok s ∧
      t.sighashAll E i (varBytes r) (some value) acp = .ok digest ∧
      (truthy (E.H.sha256 r) = true → ∀ x y : Bytes, x.length ≤ 519 → y.length ≤ 519 →
        WitnessSpends E verify t i [[], x ++ [typeByte E.net acp], y ++ [typeByte E.net acp], r] ⟨value, s⟩
          (verify a digest x = true ∧ verify b digest y = true)) := by
  have ser := (C88_msig E.net hs a b a b ⟨ha.1, by omega⟩ ⟨hb.1, by omega⟩ ⟨ha.1, by omega⟩ ⟨hb.1, by omega⟩).1
  obtain ⟨r', -, h1, h2, -, -, -⟩ := C103_msig E hs hH (fun _ _ _ _ => true) (fun _ => true) hd a b ha hb
  generalize hr : [0x52] ++ minimalPush a ++ minimalPush b ++ [0x52, 0xae] = r at ser
  rw [ser] at h1
  obtain rfl := Except.ok.inj h1
  have hm := ((C29_templates E hs [] _ _ ser).2.2.1 hsw).2
  obtain ⟨digest, hdig, core⟩ := witness_spends E hs verify t h hw i x hx value hv acp r
  refine ⟨r, _, digest, ser, hm, hdig, fun htr x' y' h3 h4 => core _ _ _ ?_ (by simp) fun check hck => ?_⟩
  · simp only [List.forall_mem_cons, List.length_append, List.length_cons, List.length_nil]
    exact ⟨by omega, by omega, by omega, by omega, by simp⟩
  · rw [C103_p2wsh E hs hH check _ hd _ r _ ser hm]
    have hev := eval_msig (world E check ((fieldsOf t).lockOK (wireOf x))) true ⟨ha.1, by omega⟩ ⟨hb.1, by omega⟩ hr.symm (by omega)
    constructor
    · rintro ⟨-, -, items, r2, z, e1, -, -, e4, e5⟩
      have e1' : [[], x' ++ [typeByte E.net acp], y' ++ [typeByte E.net acp]] ++ [r] = items ++ [r2] := e1
      obtain ⟨rfl, e⟩ := List.append_inj' e1' rfl
      cases e
      rw [hev] at e4
      simp only [List.reverse_cons, List.reverse_nil, List.nil_append, List.cons_append, Option.some.injEq, List.cons.injEq, and_true] at e4
      rw [← e4, truthy_ofBool, Bool.and_eq_true] at e5
      exact ⟨by rw [← hck]; exact e5.2, by rw [← hck]; exact e5.1⟩
    · rintro ⟨g1, g2⟩
      refine ⟨hx0, htr, [[], x' ++ [typeByte E.net acp], y' ++ [typeByte E.net acp]], r, ofBool true, rfl, rfl, ?_, ?_, by decide⟩
      · simp only [List.forall_mem_cons, List.length_append, List.length_cons, List.length_nil]
        exact ⟨by omega, by omega, by omega, by simp⟩
      · rw [hev]
        simp only [List.reverse_cons, List.reverse_nil, List.nil_append, List.cons_append]
        have k1 : (world E check ((fieldsOf t).lockOK (wireOf x))).checkSig true r (y' ++ [typeByte E.net acp]) b = true := (hck _ _).trans g2
        have k2 : (world E check ((fieldsOf t).lockOK (wireOf x))).checkSig true r (x' ++ [typeByte E.net acp]) a = true := (hck _ _).trans g1
        rw [k1, k2]
        rfl

/-- C104, the hash time lock contract: the first key with the secret; or the second key, in a transaction whose lock time has reached the timeout
(both block heights or both times) and whose input is not final. -/
theorem C104_htlc (E : Env) (hs : E.net.Supported) (hH : E.H.LengthOK) (hz : E.net.isZcash = false) (hd : E.net.isDecred = false)
    (verify : Bytes → Bytes → Bytes → Bool) (secret pk0 pk1 timeout : Bytes) (h1 : 1 ≤ secret.length ∧ secret.length ≤ 520)
    (h2 : 1 ≤ pk0.length ∧ pk0.length ≤ 520) (h3 : 1 ≤ pk1.length ∧ pk1.length ≤ 520) (h4 : 1 ≤ timeout.length ∧ timeout.length ≤ 5)
    (v : Int) (hv : 0 ≤ v) (hv' : v < 2 ^ 64) (t : Tx) (h : t.Built E) (hw : t.flag = none ∧ t.txWitnesses = none)
    (i : Nat) (x : TxIn) (hx : t.txIns[i]? = some x) (value : Bytes) (hvl : value.length = 8) (acp : Bool) :
    ∃ redeem a o r digest, htlcOutput E (toHex secret) (toHex pk0) (toHex pk1) (toHex timeout) v = .ok (redeem, some a, .std o) ∧
      serialize E.net redeem = .ok r ∧ t.sighashAll E i (varBytes r) (some value) acp = .ok digest ∧
      ∀ sig : Bytes, 1 ≤ sig.length ∧ sig.length ≤ 400 →
        (∃ ss, makeScriptSig E (htlcExecute (toHex (sig ++ [typeByte E.net acp])) (toHex pk0) (toHex secret)) redeem = .ok ss ∧
          SignedSpends E verify t i ss ⟨value, o.outputScript⟩ (verify pk0 digest sig = true)) ∧
        ∃ ss, makeScriptSig E (htlcRefund (toHex (sig ++ [typeByte E.net acp])) (toHex pk1)) redeem = .ok ss ∧
          SignedSpends E verify t i ss ⟨value, o.outputScript⟩
            ((∃ n, scriptNumber 5 timeout = some n ∧ (n < 500000000 ↔ leValue t.lockTime < 500000000) ∧ n ≤ leValue t.lockTime ∧
              leValue x.sequence ≠ 0xffffffff) ∧ verify pk1 digest sig = true) := by
  obtain ⟨redeem, a, o, r, g1, g2, g3, -, -, -⟩ :=
    C103_htlc E hs hH (fun _ _ _ _ => true) (fun _ => true) hd secret pk0 pk1 timeout h1 h2 h3 h4 v hv hv'
  obtain ⟨digest, hdig, core⟩ := signed_spends E hs hz verify t h hw i x hx value hvl acp r (by omega)
  have lk : (fieldsOf t).lockOK (wireOf x) timeout = true ↔ ∃ n, scriptNumber 5 timeout = some n ∧
      (n < 500000000 ↔ leValue t.lockTime < 500000000) ∧ n ≤ leValue t.lockTime ∧ leValue x.sequence ≠ 0xffffffff := by
    unfold WireTx.lockOK
    cases hn : scriptNumber 5 timeout with
    | none => simp
    | some n =>
      simp only [fieldsOf, wireOf, Option.some.injEq, exists_eq_left']
      exact decide_eq_true_iff
  refine ⟨redeem, a, o, r, digest, g1, g2, hdig, fun sig hsg => ?_⟩
  have lsg : (sig ++ [typeByte E.net acp]).length = sig.length + 1 := by simp
  obtain ⟨redeem', a', o', ho', r', hr', -, -, -, x1, x2⟩ := C102_htlc_partial E hs hH hd secret pk0 pk1 timeout (sig ++ [typeByte E.net acp])
    ⟨h1.1, by omega⟩ ⟨h2.1, by omega⟩ ⟨h3.1, by omega⟩ h4 ⟨by omega, by omega⟩ v hv hv'
  rw [g1] at ho'
  cases ho'
  have l1 := minimalPush_length (sig ++ [typeByte E.net acp])
  have l2 := minimalPush_length pk0
  have l3 := minimalPush_length pk1
  have l4 := minimalPush_length secret
  have l5 := minimalPush_length r'
  have rlen : r'.length ≤ 126 := by
    have m1 : (E.H.sha256 secret).length = 32 := hH.sha256 secret
    have m2 := E.hash160_length hH pk0
    have m3 := E.hash160_length hH pk1
    rw [hr']
    unfold minimalPush
    rw [if_pos (by omega), if_pos (by omega), if_pos (by omega), if_pos (by omega)]
    simp only [List.length_append, List.length_cons, List.length_nil]
    omega
  have all : ∀ check : Bool → Bytes → Bytes → Bytes → Bool, (∀ sig key, check false r (sig ++ [typeByte E.net acp]) key = verify key digest sig) →
      (spends (world E check ((fieldsOf t).lockOK (wireOf x)))
        (minimalPush (sig ++ [typeByte E.net acp]) ++ minimalPush pk0 ++ minimalPush secret ++ [0x51] ++ minimalPush r') [] o.outputScript = true ↔
        verify pk0 digest sig = true) ∧
      (spends (world E check ((fieldsOf t).lockOK (wireOf x)))
        (minimalPush (sig ++ [typeByte E.net acp]) ++ minimalPush pk1 ++ [0x00] ++ minimalPush r') [] o.outputScript = true ↔
        (fieldsOf t).lockOK (wireOf x) timeout = true ∧ verify pk1 digest sig = true) := by
    intro check hck
    obtain ⟨redeem2, a2, o2, r2, f1, f2, -, f4, f5, -⟩ :=
      C103_htlc E hs hH check ((fieldsOf t).lockOK (wireOf x)) hd secret pk0 pk1 timeout h1 h2 h3 h4 v hv hv'
    rw [g1] at f1
    cases f1
    rw [g2] at f2
    cases f2
    obtain ⟨s1, e1, e2⟩ := f4 (sig ++ [typeByte E.net acp]) (by omega)
    obtain ⟨s2, e3, e4⟩ := f5 (sig ++ [typeByte E.net acp]) (by omega)
    rw [x1] at e1
    cases e1
    rw [x2] at e3
    cases e3
    rw [hck] at e2 e4
    exact ⟨e2, e4⟩
  refine ⟨⟨_, x1, core _ _ _ ?_ fun check hck => (all check hck).1⟩, ⟨_, x2, core _ _ _ ?_ fun check hck => ?_⟩⟩
  · simp only [List.length_append, List.length_cons, List.length_nil] at *
    omega
  · simp only [List.length_append, List.length_cons, List.length_nil] at *
    omega
  · rw [(all check hck).2, lk]

/-- C104 for an input without witness in a transaction with witnesses, on a network without fork id: the input is valid exactly if the signature is
good for the original digest; but `sighash_all` returns the digest of BIP 143. -/
theorem C104_mixed (E : Env) (hs : E.net.Supported) (hH : E.H.LengthOK) (hd : E.net.isDecred = false) (hf : E.net.forkid = none)
    (verify : Bytes → Bytes → Bytes → Bool) (pubkey : Bytes) (t : Tx) (h : t.Built E) (hw : t.flag ≠ none) (i : Nat) (x : TxIn)
    (hx : t.txIns[i]? = some x) (hwi : ∀ ws w, t.txWitnesses = some ws → ws[i]? = some w → w.stack = []) (value : Bytes)
    (acp : Bool) (sig key : Bytes) (h1 : 1 ≤ sig.length ∧ sig.length ≤ 519) (h2 : 1 ≤ key.length ∧ key.length ≤ 520)
    (hss : serialize E.net (p2pkhScriptSig (toHex (sig ++ [typeByte E.net acp])) (toHex key)) = .ok x.scriptSig) :
    ∃ s, makeP2pkhOutputScript E pubkey = .ok s ∧
      ((fieldsOf t).validInput (rules E verify) i ⟨value, s⟩ = true ↔ E.hash160 key = E.hash160 pubkey ∧
        verify key (E.hash256 (legacyPreimage t.sig i s (if acp then 0x81 else 0x01))) sig = true) ∧
      t.sighashAll E i (varBytes s) (some value) acp =
        .ok (E.hash256 (bip143 E.hash256 t.sig i (x.outpoint.txId ++ x.outpoint.index) x.sequence (varBytes s) value (if acp then 0x81 else 0x01))) := by
  have hm := (C29_templates E hs pubkey [] [] rfl).1
  refine ⟨_, hm, ?_, C46_all E hf t h (.inl hw) i i x (.inl rfl) hx _ value acp⟩
  have e : (fieldsOf t).ins[i]? = some (wireOf x) := by simp [fieldsOf, hx, wireOf]
  have ew : (((fieldsOf t).wits.getD []).getD i []) = [] := by
    obtain ⟨fl, hfl⟩ := Option.ne_none_iff_exists'.1 hw
    cases hws : t.txWitnesses with
    | none => simp [fieldsOf, hfl, hws]
    | some ws =>
      cases hi : ws[i]? with
      | none => simp [fieldsOf, hfl, hws, hi]
      | some w => simp [fieldsOf, hfl, hws, hi, hwi ws w hws hi]
  unfold WireTx.validInput
  rw [e]
  simp only [ew]
  have hsgl : (sig ++ [typeByte E.net acp]).length = sig.length + 1 := by simp
  refine (C103_p2pkh_sig E hs hH _ _ hd pubkey _ key _ _ hm (by omega) h2 hss).trans ?_
  rw [checkSig_type]
  have hR : (rules E verify).forkid = none := hf
  have hty : (typeByte E.net acp).toNat = if acp then 0x81 else 0x01 := by unfold typeByte; rw [hf]; cases acp <;> rfl
  have hb : ¬ (baseType (if acp then 0x81 else 0x01) = 3 ∧ (fieldsOf t).outs.length ≤ i) := by
    cases acp <;> (intro c; exact absurd c.1 (by decide))
  unfold Rules.digest
  rw [hR]
  simp only [Bool.false_eq_true, if_false]
  rw [hty, if_neg hb, fieldsOf_sig]
  rfl

/-- The digest that `sighash_all` returns for `exMix`. -/
def exMixDigest : Bytes := [2, 0, 0, 0] ++ List.replicate 28 0xaa

/-- An input with this digest as signature, and a key. -/
def exMixIn : TxIn := ⟨exOutpoint, [0x21] ++ exMixDigest ++ [1, 1, 7], [], [0x21] ++ exMixDigest ++ [1, 1, 7], [0xfe, 0xff, 0xff, 0xff],
  exOutpoint.bytes ++ [0x24, 0x21] ++ exMixDigest ++ [1, 1, 7, 0xfe, 0xff, 0xff, 0xff]⟩
theorem exMixIn_built : exMixIn.Built :=
  ⟨exOutpoint, [0x21] ++ exMixDigest ++ [1, 1, 7], [], [0xfe, 0xff, 0xff, 0xff], exOutpoint_built, by decide⟩

def exMix : Tx := txObj toyEnv [2, 0, 0, 0] (some [0, 1]) [exMixIn] [exOut] (some [⟨[], [0]⟩]) [0, 0, 0, 0]
theorem exMix_built : exMix.Built toyEnv := by
  refine ⟨_, _, _, _, _, _, ?_, ?_, ?_, Tx.make_iff.2 ⟨?_, rfl⟩⟩
  · intro i hi; simp at hi; rw [hi]; exact exMixIn_built
  · intro i hi; simp at hi; rw [hi]; exact exOut_built
  · intro i hi; simp at hi; rw [hi]; exact ⟨[], by simp, by decide⟩
  · decide +kernel

/-- C104 is false for inputs without witness in a transaction with witnesses: the digest, a signature that is good for it, the script sig of the
template; and the input is not valid. -/
theorem C104_mixed_false : ∃ (verify : Bytes → Bytes → Bytes → Bool) (pubkey sig digest value s : Bytes) (t : Tx) (x : TxIn),
    t.Built toyEnv ∧ t.flag = some [0x00, 0x01] ∧ t.txIns = [x] ∧ makeP2pkhOutputScript toyEnv pubkey = .ok s ∧
    t.sighashAll toyEnv 0 (varBytes s) (some value) = .ok digest ∧ verify pubkey digest sig = true ∧
    serialize toyEnv.net (p2pkhScriptSig (toHex (sig ++ [0x01])) (toHex pubkey)) = .ok x.scriptSig ∧
    (fieldsOf t).WF ∧ (fieldsOf t).bytes = t.bytes ∧ (fieldsOf t).validInput (rules toyEnv verify) 0 ⟨value, s⟩ = false := by
  have hser : serialize toyEnv.net (p2pkhScriptSig (toHex (exMixDigest ++ [0x01])) (toHex [7])) = .ok exMixIn.scriptSig :=
    (C88_p2pkh_sig toyEnv.net toy_supported (exMixDigest ++ [0x01]) [7] (by unfold Data; decide) (by unfold Data; decide)).trans (by decide +kernel)
  obtain ⟨s, h1, h2, h3⟩ := C104_mixed toyEnv toy_supported toyHashes_ok rfl rfl (fun _ d sig => d == sig) [7] exMix exMix_built (by decide) 0 exMixIn rfl
    (by intro ws w e e'; cases e; cases e'; rfl) (List.replicate 8 0) false exMixDigest [7] (by decide) (by decide) hser
  have hs : s = p2pkhScript (toyEnv.hash160 [7]) := by
    rw [(C29_templates toyEnv toy_supported [7] [] [] rfl).1] at h1
    exact (Except.ok.inj h1).symm
  refine ⟨fun _ d sig => d == sig, [7], exMixDigest, exMixDigest, List.replicate 8 0, s, exMix, exMixIn, exMix_built, rfl, rfl, h1, ?_, by decide +kernel, hser, ?_,
    fieldsOf_bytes toy_supported exMix_built, ?_⟩
  · refine h3.trans ?_
    rw [hs]
    decide +kernel
  · obtain ⟨g1, g2, g3, g4, g5⟩ := fieldsOf_loose exMix_built
    refine ⟨g1, g2, g3, g4, fun ws e => ⟨?_, (g5 ws e).2⟩⟩
    cases e
    rfl
  · rw [← Bool.not_eq_true, h2, hs]
    decide +kernel

/-! ## Examples -/

/-- Any 8 bytes are the amount that is spent. -/
example := C104_p2pkh toyEnv toy_supported toyHashes_ok rfl rfl (fun _ d sig => d == sig) [7] exLegacy exLegacy_built ⟨rfl, rfl⟩ 1 (by decide)
  (List.replicate 8 0) rfl true

/-- A network with a fork id. -/
def exCashEnv : Env := ⟨bitcoinCashMain, toyHashes⟩

example : exCashEnv.net.Supported ∧ exCashEnv.net.isZcash = false ∧ exCashEnv.net.isDecred = false ∧ typeByte exCashEnv.net false = 0x41 := by
  unfold Network.Supported; decide +kernel

example := C104_msig toyEnv toy_supported toyHashes_ok rfl rfl (fun k d sig => sig == k ++ d) [7] [8] (by decide) (by decide) exLegacy exLegacy_built
  ⟨rfl, rfl⟩ 0 (by decide) (List.replicate 8 0) rfl false

example := C104_htlc toyEnv toy_supported toyHashes_ok rfl rfl (fun k d sig => sig == k ++ d) [1, 2] [7] [8] [9] (by decide) (by decide) (by decide)
  (by decide) 5 (by decide) (by decide) exLegacy exLegacy_built ⟨rfl, rfl⟩ 0 exIn rfl (List.replicate 8 0) rfl false

/-- A witness transaction with an input without script sig. -/
def exEmptyIn : TxIn := ⟨exOutpoint, [], [], [], [0xfe, 0xff, 0xff, 0xff], exOutpoint.bytes ++ [0, 0xfe, 0xff, 0xff, 0xff]⟩
def exUnsigned : Tx := txObj toyEnv [2, 0, 0, 0] (some [0, 1]) [exEmptyIn] [exOut] (some [⟨[], [0]⟩]) [0, 0, 0, 0]
theorem exUnsigned_built : exUnsigned.Built toyEnv := by
  refine ⟨_, _, _, _, _, _, ?_, ?_, ?_, Tx.make_iff.2 ⟨?_, rfl⟩⟩
  · intro i hi; simp at hi; rw [hi]; exact ⟨exOutpoint, [], [], [0xfe, 0xff, 0xff, 0xff], exOutpoint_built, by decide⟩
  · intro i hi; simp at hi; rw [hi]; exact exOut_built
  · intro i hi; simp at hi; rw [hi]; exact ⟨[], by simp, by decide⟩
  · decide +kernel

example := C104_p2wpkh toyEnv toy_supported toyHashes_ok rfl rfl (fun _ d sig => d == sig) [7] (by decide +kernel) exUnsigned exUnsigned_built (by decide)
  0 exEmptyIn rfl (List.replicate 8 0) rfl false

example := C104_witness_msig toyEnv toy_supported toyHashes_ok rfl rfl (fun _ d sig => d == sig) [7] [8] (by decide) (by decide) exUnsigned
  exUnsigned_built (by decide) 0 exEmptyIn rfl rfl (List.replicate 8 0) rfl false

/-- The script that the two keys make has a hash that is true. -/
example : truthy (toyEnv.H.sha256 ([0x52] ++ minimalPush [7] ++ minimalPush [8] ++ [0x52, 0xae])) = true := by decide +kernel

/-- Two signed inputs. -/
example : ∃ y, exIn.copy (stackScript := some [1, 8]) (redeemScript := some []) = .ok y ∧ List.Forall₂ Signs exLegacy.txIns [y, y] :=
  ⟨_, rfl, .cons ⟨[1, 8], [], rfl⟩ (.cons ⟨[1, 8], [], rfl⟩ .nil)⟩

end Verif.Props
