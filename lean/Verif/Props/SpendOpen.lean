import Verif.Props.SpendSingle

/-! # C107: a signature stays valid when the parts that it leaves open change

Sign input `i` of one transaction; put the signature into input `i'` of another one that agrees with it in what the hash type covers
(`SameCommitted`): inputs added by others with ANYONECANPAY, other outputs with SINGLE. -/

namespace Verif.Props

open Verif Spec Addresses Builder Examples ExampleScripts

attribute [local irreducible] Env.hash256

/-- The digest for a hash type. -/
def anyDigest (E : Env) (t : Tx) (single acp : Bool) (i : Nat) (value code : Bytes) : Py Bytes :=
  if single then t.sighashSingle E i code (some value) acp else t.sighashAll E i code (some value) acp

/-- The byte for a hash type. -/
def anyByte (net : Network) (single acp : Bool) : UInt8 := if single then singleByte net acp else typeByte net acp

theorem anyDigest_same {E : Env} (hn : E.net.Supported) {single acp : Bool} {t t' : Tx} (h : t.Built E) (h' : t'.Built E)
    (hb : E.net.forkid ≠ none ∨ t.flag ≠ none ∨ t.txWitnesses ≠ none) (hb' : E.net.forkid ≠ none ∨ t'.flag ≠ none ∨ t'.txWitnesses ≠ none)
    {i i' : Nat} (same : SameCommitted single acp t i t' i') {value : Bytes} (hv : value.length = 8) :
    anyDigest E t single acp i value = anyDigest E t' single acp i' value := by
  funext code
  have := C52_bip143 E hn single acp t t' h h' hb hb' i i' same code value hv
  unfold anyDigest
  cases single with
  | true => simpa using this.1 rfl
  | false => simpa using this.2 rfl

/-- C107, witness inputs: what is signed for input `i` of `t` is valid for input `i'` of `t'`. All hash types that the library makes. -/
theorem C107_witness (E : Env) (hs : E.net.Supported) (hH : E.H.LengthOK) (hd : E.net.isDecred = false) (hsw : E.net.segwit = true)
    (verify : Bytes → Bytes → Bytes → Bool) (single acp : Bool) (t t' : Tx) (h : t.Built E) (h' : t'.Built E) (hw : t.flag ≠ none) (hw' : t'.flag ≠ none)
    (i i' : Nat) (same : SameCommitted single acp t i t' i') (x' : TxIn) (hx' : t'.txIns[i']? = some x') (value : Bytes) (hv : value.length = 8) :
    WitnessSignable E verify (anyDigest E t single acp i value) (anyByte E.net single acp) value x'.scriptSig (WitnessSpends E verify t' i') := by
  rw [anyDigest_same hs h h' (.inr (.inl hw)) (.inr (.inl hw')) same hv]
  cases single with
  | true =>
    obtain ⟨o, -, ho⟩ := same.out rfl
    exact C106_witness E hs hH hd hsw verify t' h' hw' i' x' hx' (List.getElem?_eq_some_iff.1 ho).1 value hv acp
  | false =>
    exact witnessSignable_of E hs hH hd hsw verify _ _ _ _ t'.lockTime x'.sequence _ fun code =>
      witness_spends E hs verify t' h' hw' i' x' hx' value hv acp code

/-- C107, networks with fork id: the same for inputs without witness. -/
theorem C107_forkid (E : Env) (hs : E.net.Supported) (hH : E.H.LengthOK) (hd : E.net.isDecred = false) (hz : E.net.isZcash = false)
    (hf : E.net.forkid ≠ none) (verify : Bytes → Bytes → Bytes → Bool) (single acp : Bool) (t t' : Tx) (h : t.Built E) (h' : t'.Built E)
    (hw' : t'.flag = none ∧ t'.txWitnesses = none) (i i' : Nat) (same : SameCommitted single acp t i t' i') (x' : TxIn)
    (hx' : t'.txIns[i']? = some x') (value : Bytes) (hv : value.length = 8) :
    Signable E verify (anyDigest E t single acp i value) (anyByte E.net single acp) value t'.lockTime x'.sequence (SignedSpends E verify t' i') := by
  rw [anyDigest_same hs h h' (.inl hf) (.inl hf) same hv]
  cases single with
  | true =>
    obtain ⟨o, -, ho⟩ := same.out rfl
    exact C106_single_partial E hs hH hz hd verify t' h' hw' i' x' hx' (List.getElem?_eq_some_iff.1 ho).1 (.inl hf) value hv acp
  | false =>
    exact signable_of E hs hH hd verify _ _ _ _ _ _ fun code hc =>
      signed_spends E hs hz verify t' h' hw' i' x' hx' value hv acp code (by omega)

/-- C107, networks without fork id, inputs without witness, type ALL: with ANYONECANPAY others can add inputs before and after the signed one. -/
theorem C107_legacy_partial (E : Env) (hs : E.net.Supported) (hH : E.H.LengthOK) (hd : E.net.isDecred = false) (hz : E.net.isZcash = false)
    (hf : E.net.forkid = none) (verify : Bytes → Bytes → Bytes → Bool) (acp : Bool) (t t' : Tx) (h : t.Built E) (h' : t'.Built E)
    (hw : t.flag = none ∧ t.txWitnesses = none) (hw' : t'.flag = none ∧ t'.txWitnesses = none) (i i' : Nat) (hi : acp = false → i = i')
    (same : SameCommitted false acp t i t' i') (x' : TxIn) (hx' : t'.txIns[i']? = some x') (value : Bytes) (hv : value.length = 8) :
    Signable E verify (anyDigest E t false acp i value) (anyByte E.net false acp) value t'.lockTime x'.sequence (SignedSpends E verify t' i') := by
  apply signable_of E hs hH hd verify
  intro code hc
  have e : anyDigest E t false acp i value (varBytes code) = t'.sighashAll E i' (varBytes code) (some value) acp := by
    show t.sighashAll E i (varBytes code) (some value) acp = _
    obtain ⟨x, y, hx, hy, s1, s2⟩ := same.signed
    obtain ⟨li, rfl⟩ := List.getElem?_eq_some_iff.1 hx
    obtain ⟨li', rfl⟩ := List.getElem?_eq_some_iff.1 hy
    cases acp with
    | false =>
      obtain rfl := hi rfl
      exact (C52_legacy_partial E hf false false t t' h h' hw hw' i same (by simp) code (by omega) (.inl (not_zcash hs hz)) (some value)).2 rfl
    | true =>
      rw [C48_all E hf t h hw i i (.inl rfl) li code (by omega) (.inl (not_zcash hs hz)) (some value) true,
        C48_all E hf t' h' hw' i' i' (.inl rfl) li' code (by omega) (.inl (not_zcash hs hz)) (some value) true]
      simp only [if_true]
      unfold legacyPreimage
      rw [legacyIns_acp h (by decide) li, legacyIns_acp h' (by decide) li', s1, s2]
      have eo : t.sig.outs = t'.sig.outs := by simp [Tx.sig, same.outs rfl]
      have e1 : legacyOuts t.sig i 0x81 = t.sig.outs := rfl
      have e2 : legacyOuts t'.sig i' 0x81 = t'.sig.outs := rfl
      have e3 : t.sig.version = t'.sig.version := same.version
      have e4 : t.sig.lockTime = t'.sig.lockTime := same.lockTime
      rw [e1, e2, e3, e4, eo]
  rw [e]
  exact signed_spends E hs hz verify t' h' hw' i' x' hx' value hv acp code (by omega)

/-- C107, the same for SINGLE: signed as the last input (where the digest is right), then others add inputs after it and outputs after its own. -/
theorem C107_legacy_single_partial (E : Env) (hs : E.net.Supported) (hH : E.H.LengthOK) (hd : E.net.isDecred = false) (hz : E.net.isZcash = false)
    (hf : E.net.forkid = none) (verify : Bytes → Bytes → Bytes → Bool) (acp : Bool) (t t' : Tx) (h : t.Built E) (h' : t'.Built E)
    (hw : t.flag = none ∧ t.txWitnesses = none) (hw' : t'.flag = none ∧ t'.txWitnesses = none) (i : Nat) (hi : i + 1 = t.txIns.length)
    (same : SameCommitted true acp t i t' i) (x' : TxIn) (hx' : t'.txIns[i]? = some x') (value : Bytes) :
    Signable E verify (anyDigest E t true acp i value) (anyByte E.net true acp) value t'.lockTime x'.sequence (SignedSpends E verify t' i) := by
  obtain ⟨o, ho, ho'⟩ := same.out rfl
  apply signable_of E hs hH hd verify
  intro code hc
  refine ⟨E.hash256 (legacyPreimage t'.sig i code (if acp then 0x83 else 0x03)), ?_, fun ss s P hl hP =>
    single_core E hs hf verify t' h' hw' i x' hx' (List.getElem?_eq_some_iff.1 ho').1 value acp code ss s P hl hP⟩
  show t.sighashSingle E i (varBytes code) (some value) acp = _
  rw [C49_last_input_partial E hf t h hw i hi (List.getElem?_eq_some_iff.1 ho).1 code (by omega) (.inl (not_zcash hs hz)) (some value) acp]
  have ty : (if acp then 0x83 else 0x03) = Verif.sigType true acp := by cases acp <;> rfl
  have e1 : legacyOuts t.sig i (Verif.sigType true acp) = legacyOuts t'.sig i (Verif.sigType true acp) := by
    have hb : baseType (Verif.sigType true acp) = 3 := by cases acp <;> rfl
    have g : ∀ l : List TxOut, l[i]? = some o → (((l.map fun o => wireOut o.value o.outputScript).drop i).take 1) = [wireOut o.value o.outputScript] := by
      intro l hl
      obtain ⟨hl', rfl⟩ := List.getElem?_eq_some_iff.1 hl
      rw [List.drop_eq_getElem_cons (by rw [List.length_map]; exact hl')]
      simp
    unfold legacyOuts
    rw [hb, if_neg (by decide), if_pos rfl, if_neg (by decide), if_pos rfl]
    simp only [Tx.sig]
    rw [g _ ho, g _ ho']
  rw [ty]
  unfold legacyPreimage
  have e3 : t.sig.version = t'.sig.version := same.version
  have e4 : t.sig.lockTime = t'.sig.lockTime := same.lockTime
  rw [legacyIns_same h h' same, e1, e3, e4]

/-! ## Examples -/

/-- One input is signed; then it is the second of two. -/
def exOpen : Tx := txObj toyEnv [1, 0, 0, 0] none [exIn] [exOut] none [0, 0, 0, 0]
def exOpen' : Tx := txObj toyEnv [1, 0, 0, 0] none [exMixIn, exIn] [exOut] none [0, 0, 0, 0]
theorem exOpen_built : exOpen.Built toyEnv := by
  refine ⟨_, _, _, _, _, _, ?_, ?_, ?_, Tx.make_iff.2 ⟨?_, rfl⟩⟩
  · intro i hi; simp at hi; rw [hi]; exact exIn_built
  · intro i hi; simp at hi; rw [hi]; exact exOut_built
  · simp
  · decide +kernel
theorem exOpen'_built : exOpen'.Built toyEnv := by
  refine ⟨_, _, _, _, _, _, ?_, ?_, ?_, Tx.make_iff.2 ⟨?_, rfl⟩⟩
  · intro i hi; simp at hi; rcases hi with rfl | rfl; exacts [exMixIn_built, exIn_built]
  · intro i hi; simp at hi; rw [hi]; exact exOut_built
  · simp
  · decide +kernel

def exOpen2 : Tx := txObj toyEnv [1, 0, 0, 0] none [exIn, exMixIn] [exOut, exOut] none [0, 0, 0, 0]
theorem exOpen2_built : exOpen2.Built toyEnv := by
  refine ⟨_, _, _, _, _, _, ?_, ?_, ?_, Tx.make_iff.2 ⟨?_, rfl⟩⟩
  · intro i hi; simp at hi; rcases hi with rfl | rfl; exacts [exIn_built, exMixIn_built]
  · intro i hi; simp at hi; rw [hi]; exact exOut_built
  · simp
  · decide +kernel

example := C107_legacy_partial toyEnv toy_supported toyHashes_ok rfl rfl rfl (fun _ d sig => d == sig) true exOpen exOpen' exOpen_built exOpen'_built
  ⟨rfl, rfl⟩ ⟨rfl, rfl⟩ 0 1 (by decide) ⟨rfl, rfl, ⟨exIn, exIn, rfl, rfl, rfl, rfl⟩, by decide, by decide, fun _ => rfl, by decide⟩ exIn rfl
  (List.replicate 8 0) rfl

/-- One input and one output, then two. -/
example := C107_legacy_single_partial toyEnv toy_supported toyHashes_ok rfl rfl rfl (fun _ d sig => d == sig) true exOpen exOpen2 exOpen_built
  exOpen2_built ⟨rfl, rfl⟩ ⟨rfl, rfl⟩ 0 rfl ⟨rfl, rfl, ⟨exIn, exIn, rfl, rfl, rfl, rfl⟩, by decide, by decide, by decide, fun _ => ⟨exOut, rfl, rfl⟩⟩
  exIn rfl (List.replicate 8 0)

/-- Another input and another output are added. -/
example := C107_witness toyEnv toy_supported toyHashes_ok rfl rfl (fun _ d sig => d == sig) true true exTx exTx' exTx_built exTx'_built (by decide)
  (by decide) 0 0 ⟨rfl, rfl, ⟨exIn, exIn, rfl, rfl, rfl, rfl⟩, by decide, by decide, by decide, fun _ => ⟨exOut, rfl, rfl⟩⟩ exIn rfl (List.replicate 8 0) rfl

def exCash (ins : List TxIn) : Tx := txObj exCashEnv [1, 0, 0, 0] none ins [exOut] none [0, 0, 0, 0]

theorem exCash_built {ins : List TxIn} (h : ∀ i ∈ ins, i.Built) (h' : TxArgsOK exCashEnv [1, 0, 0, 0] none ins [exOut] none [0, 0, 0, 0]) :
    (exCash ins).Built exCashEnv :=
  ⟨_, _, _, _, _, _, h, by intro i hi; simp at hi; rw [hi]; exact exOut_built, by simp, Tx.make_iff.2 ⟨h', rfl⟩⟩

example := C107_forkid exCashEnv (by unfold Network.Supported; decide +kernel) toyHashes_ok rfl rfl (by decide) (fun _ d sig => d == sig) false true _ _
  (exCash_built (ins := [exIn]) (by intro i hi; simp at hi; rw [hi]; exact exIn_built) (by decide +kernel))
  (exCash_built (ins := [exMixIn, exIn]) (by intro i hi; simp at hi; rcases hi with rfl | rfl; exacts [exMixIn_built, exIn_built]) (by decide +kernel))
    ⟨rfl, rfl⟩ 0 1 ⟨rfl, rfl, ⟨exIn, exIn, rfl, rfl, rfl, rfl⟩, by decide, by decide, fun _ => rfl, by decide⟩ exIn rfl (List.replicate 8 0) rfl

end Verif.Props
