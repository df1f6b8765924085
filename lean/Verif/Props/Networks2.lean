import Verif.Props.Sighash2
import Verif.Lemmas.Builder

/-! Properties C92, C93: what depends on the network selected. -/

namespace Verif.Props
open Verif Spec

/-! ## C92 -/

/-- The two networks agree in everything but names, address formats and fork ids. -/
structure Alike (a b : Network) : Prop where
  overwinter : a.isOverwinter = b.isOverwinter
  sapling : a.isSapling = b.isSapling
  opcodes : a.opcodeChanges = b.opcodeChanges
  flag : a.segwitTxFlag = b.segwitTxFlag
  decred : a.isDecred = b.isDecred

/-- All supported networks but Zcash's and Decred's are alike. -/
theorem alike {a b : Network} (ha : a.Supported) (hb : b.Supported) (za : a.isZcash = false) (zb : b.isZcash = false)
    (da : a.isDecred = false) (db : b.isDecred = false) : Alike a b := by
  have key : ∀ n : Network, n.Supported → n.isDecred = false → n.opcodeChanges = [] := by unfold Network.Supported; decide +kernel
  have fa := family ha
  have fb := family hb
  refine ⟨?_, ?_, (key a ha da).trans (key b hb db).symm, fa.2.2.2.2.trans fb.2.2.2.2.symm, da.trans db.symm⟩
  · rw [(fa.2.2.2.1 za).2.1, (fb.2.2.2.1 zb).2.1]
  · rw [(fa.2.2.2.1 za).2.2, (fb.2.2.2.1 zb).2.2]

section
variable {a b : Network}

theorem alike_varint (h : Alike a b) : VarInt.fromBytes a = VarInt.fromBytes b := by
  funext x
  unfold VarInt.fromBytes
  simp only [h.overwinter, h.sapling]

theorem same_serializeToken (h : a.opcodeChanges = b.opcodeChanges) : serializeToken a = serializeToken b := by
  funext x
  unfold serializeToken Network.codeToIntOverwrite
  simp only [h]

theorem same_opName (h : a.opcodeChanges = b.opcodeChanges) : opName a = opName b := by
  funext x
  unfold opName Network.intToCodeOverwrite
  simp only [h]

theorem same_serializeTokens (h : a.opcodeChanges = b.opcodeChanges) : serializeTokens a = serializeTokens b := by
  funext x
  induction x with
  | nil => rfl
  | cons t ts ih => unfold serializeTokens; rw [ih, same_serializeToken h]

theorem same_deserializeLoop (h : a.opcodeChanges = b.opcodeChanges) (n : Nat) : deserializeLoop a n = deserializeLoop b n := by
  induction n with
  | zero => funext x; cases x <;> rfl
  | succ n ih =>
    funext x
    cases x with
    | nil => rfl
    | cons c r => unfold deserializeLoop; rw [ih, same_opName h]

theorem same_serialize (h : a.opcodeChanges = b.opcodeChanges) : serialize a = serialize b := by
  funext x; unfold serialize; rw [same_serializeTokens h]

theorem same_deserialize (h : a.opcodeChanges = b.opcodeChanges) : deserialize a = deserialize b := by
  funext x; unfold deserialize deserializeTokens; rw [same_deserializeLoop h]

theorem same_hexDeserialize (h : a.opcodeChanges = b.opcodeChanges) : hexDeserialize a = hexDeserialize b := by
  funext x; unfold hexDeserialize; rw [same_deserialize h]

theorem alike_parseScriptSig (h : Alike a b) : TxIn.parseScriptSig a = TxIn.parseScriptSig b := by
  funext x; unfold TxIn.parseScriptSig; rw [same_deserialize h.opcodes, same_hexDeserialize h.opcodes, same_serialize h.opcodes]

theorem alike_txIn (h : Alike a b) : TxIn.fromBytes a = TxIn.fromBytes b := by
  funext x; unfold TxIn.fromBytes; rw [alike_varint h, alike_parseScriptSig h]

theorem alike_txOut (h : Alike a b) : TxOut.fromBytes a = TxOut.fromBytes b := by
  funext x; unfold TxOut.fromBytes; rw [alike_varint h]

theorem alike_witness (h : Alike a b) : InputWitness.fromBytes a = InputWitness.fromBytes b := by
  have : WitnessStackItem.fromBytes a = WitnessStackItem.fromBytes b := by
    funext x; unfold WitnessStackItem.fromBytes; rw [alike_varint h]
  funext x; unfold InputWitness.fromBytes; rw [alike_varint h, this]

variable {H : Hashes}

theorem alike_hash256 (h : Alike a b) : (Env.mk a H).hash256 = (Env.mk b H).hash256 := by
  funext x; unfold Env.hash256; simp only [h.decred]

theorem alike_make (h : Alike a b) : Tx.make ⟨a, H⟩ = Tx.make ⟨b, H⟩ := by
  funext v f i o w l; unfold Tx.make Tx.checkFlag; rw [alike_hash256 h]; simp only [h.flag]

theorem alike_fromBytes (h : Alike a b) : Tx.fromBytes ⟨a, H⟩ = Tx.fromBytes ⟨b, H⟩ := by
  funext x; unfold Tx.fromBytes; rw [alike_make h]; simp only [alike_varint h, alike_txIn h, alike_txOut h, alike_witness h, h.flag]

theorem alike_copy (h : Alike a b) (t : Tx) (v f : Option Bytes) (i : Option (List TxIn)) (o : Option (List TxOut))
    (w : Option (List InputWitness)) (l : Option Bytes) : Tx.copy ⟨a, H⟩ t v f i o w l = Tx.copy ⟨b, H⟩ t v f i o w l := by
  unfold Tx.copy; rw [alike_make h]

theorem alike_prep (h : Alike a b) : Tx.sighashPrep ⟨a, H⟩ = Tx.sighashPrep ⟨b, H⟩ := by
  funext t i s; unfold Tx.sighashPrep; simp only [alike_varint h, alike_copy h]

theorem alike_final (h : Alike a b) : Tx.sighashFinalHashing ⟨a, H⟩ = Tx.sighashFinalHashing ⟨b, H⟩ := by
  funext t i; unfold Tx.sighashFinalHashing; rw [alike_hash256 h]

theorem alike_acp (h : Alike a b) : Tx.sighashAnyoneCanPay ⟨a, H⟩ = Tx.sighashAnyoneCanPay ⟨b, H⟩ := by
  funext i t s; unfold Tx.sighashAnyoneCanPay; simp only [alike_copy h, alike_final h]

theorem alike_segwit (h : Alike a b) : Tx.segwitSighash ⟨a, H⟩ = Tx.segwitSighash ⟨b, H⟩ := by
  funext t i s v c p
  unfold Tx.segwitSighash Tx.hashOutputs Tx.hashPrevouts Tx.hashSequence; rw [alike_hash256 h]

theorem alike_forkid (h : Alike a b) : Tx.sighashForkid ⟨a, H⟩ = Tx.sighashForkid ⟨b, H⟩ := by
  funext t k i s v c p
  unfold Tx.sighashForkid Tx.hashOutputs Tx.hashPrevouts Tx.hashSequence; rw [alike_hash256 h]

end

/-- C92, scripts: `serialize` and `deserialize` and their hex variants do the same on all supported networks but Decred's. -/
theorem C92_scripts (a b : Network) (ha : a.Supported) (hb : b.Supported) (da : a.isDecred = false) (db : b.isDecred = false) :
    (∀ s, serialize a s = serialize b s) ∧ (∀ x, deserialize a x = deserialize b x) ∧ (∀ s, hexSerialize a s = hexSerialize b s) ∧
    (∀ s, hexDeserialize a s = hexDeserialize b s) := by
  have key : ∀ n : Network, n.Supported → n.isDecred = false → n.opcodeChanges = [] := by unfold Network.Supported; decide +kernel
  have h : a.opcodeChanges = b.opcodeChanges := (key a ha da).trans (key b hb db).symm
  refine ⟨fun s => by rw [same_serialize h], fun x => by rw [same_deserialize h], fun s => ?_, fun s => by rw [same_hexDeserialize h]⟩
  unfold hexSerialize; rw [same_serialize h]

/-- C92, transactions: any bytes or hex string is read as the same transaction, or refused with the same error, on all supported networks
but Zcash's and Decred's; so are the parts. The constructor and `copy` do the same too. -/
theorem C92_transactions (H : Hashes) (a b : Network) (ha : a.Supported) (hb : b.Supported) (za : a.isZcash = false)
    (zb : b.isZcash = false) (da : a.isDecred = false) (db : b.isDecred = false) :
    (∀ x, Tx.fromBytes ⟨a, H⟩ x = Tx.fromBytes ⟨b, H⟩ x) ∧ (∀ s, Tx.fromHex ⟨a, H⟩ s = Tx.fromHex ⟨b, H⟩ s) ∧
    (∀ x, TxIn.fromBytes a x = TxIn.fromBytes b x) ∧ (∀ x, TxOut.fromBytes a x = TxOut.fromBytes b x) ∧
    (∀ x, InputWitness.fromBytes a x = InputWitness.fromBytes b x) ∧
    (∀ v f i o w l, Tx.make ⟨a, H⟩ v f i o w l = Tx.make ⟨b, H⟩ v f i o w l) ∧
    (∀ t v f i o w l, Tx.copy ⟨a, H⟩ t v f i o w l = Tx.copy ⟨b, H⟩ t v f i o w l) := by
  have h := alike ha hb za zb da db
  refine ⟨fun x => by rw [alike_fromBytes h], fun s => by unfold Tx.fromHex; rw [alike_fromBytes h], fun x => by rw [alike_txIn h],
    fun x => by rw [alike_txOut h], fun x => by rw [alike_witness h], fun v f i o w l => by rw [alike_make h],
    fun t v f i o w l => by rw [alike_copy h]⟩

/-- C92, digests: they depend on the network only through its fork id. -/
theorem C92_digests (H : Hashes) (a b : Network) (ha : a.Supported) (hb : b.Supported) (za : a.isZcash = false) (zb : b.isZcash = false)
    (da : a.isDecred = false) (db : b.isDecred = false) (hf : a.forkid = b.forkid) (t : Tx) (index : Int) (script : Bytes)
    (value : Option Bytes) (acp : Bool) :
    t.sighashAll ⟨a, H⟩ index script value acp = t.sighashAll ⟨b, H⟩ index script value acp ∧
    t.sighashSingle ⟨a, H⟩ index script value acp = t.sighashSingle ⟨b, H⟩ index script value acp := by
  have h := alike ha hb za zb da db
  constructor
  · unfold Tx.sighashAll
    simp only [hf, alike_forkid h, alike_segwit h, alike_prep h, alike_acp h, alike_final h]
  · unfold Tx.sighashSingle Tx.sighashSingleLegacy
    simp only [hf, alike_forkid h, alike_segwit h, alike_prep h, alike_acp h, alike_final h, alike_copy h]

example : bitcoinMain.Supported ∧ bitcoinCashMain.Supported ∧ bitcoinMain.isZcash = false ∧ bitcoinCashMain.isZcash = false ∧
    bitcoinMain.isDecred = false ∧ bitcoinCashMain.isDecred = false :=
  ⟨by unfold Network.Supported; decide +kernel, by unfold Network.Supported; decide +kernel, by decide +kernel, by decide +kernel,
    by decide +kernel, by decide +kernel⟩

/-- C92 does not extend to Decred: byte 0xa8 is another opcode there, and the name OP_SHA256 another byte. -/
theorem C92_decred : deserialize bitcoinMain [0xa8] = .ok (pystr "OP_SHA256") ∧ deserialize decredMain [0xa8] = .ok (pystr "OP_BLAKE256") ∧
    serialize decredMain (pystr "OP_SHA256") = .ok [192] := by
  refine ⟨?_, ?_, ?_⟩ <;> decide +kernel

/-! ## C93 -/

theorem suffix_ne {m m' : Bytes} {x y : Nat} (hx : x < 2 ^ 32) (hy : y < 2 ^ 32) (h : x ≠ y) : m ++ leBytes 4 x ≠ m' ++ leBytes 4 y := by
  intro e
  have := List.append_inj' e (by rw [leBytes_length, leBytes_length])
  exact h (leBytes4_inj hx hy this.2)

/-- Fork ids and hash types are told apart by the type word. -/
theorem typeWord_ne {a b : Network} (h : a.forkid ≠ b.forkid) (s p s' p' : Bool) :
    typeWord a s p ≠ typeWord b s' p' := by
  unfold typeWord forkidType sigType
  cases h1 : a.forkid with
  | none => cases h2 : b.forkid with
    | none => rw [h1, h2] at h; exact absurd rfl h
    | some k => cases s <;> cases p <;> cases s' <;> cases p' <;> simp <;> omega
  | some j => cases h2 : b.forkid with
    | none => cases s <;> cases p <;> cases s' <;> cases p' <;> simp <;> omega
    | some k =>
      have hjk : j ≠ k := fun e => h (by rw [h1, h2, e])
      cases s <;> cases p <;> cases s' <;> cases p' <;> simp <;> omega

/-- C93: a digest made for a network with a fork id is not the digest of any request on a network with another or without one, whatever
the transactions, inputs, scripts, values and hash types, unless the two preimages are a hash collision. Here both requests are answered
with BIP143 preimages. -/
theorem C93_bip143 (H : Hashes) (a b : Network) (ha : a.Supported) (hb : b.Supported) (da : a.isDecred = false) (db : b.isDecred = false)
    (hf : a.forkid ≠ b.forkid) (single acp single' acp' : Bool) (t t' : Tx) (h : t.Built ⟨a, H⟩) (h' : t'.Built ⟨b, H⟩)
    (hp : a.forkid ≠ none ∨ t.flag ≠ none ∨ t.txWitnesses ≠ none) (hp' : b.forkid ≠ none ∨ t'.flag ≠ none ∨ t'.txWitnesses ≠ none)
    (i i' : Nat) (x x' : TxIn) (hx : t.txIns[i]? = some x) (hx' : t'.txIns[i']? = some x') (ho : single = true → i < t.txOuts.length)
    (ho' : single' = true → i' < t'.txOuts.length) (script script' value value' : Bytes) (hv : value.length = 8) (hv' : value'.length = 8)
    (e : (if single then t.sighashSingle ⟨a, H⟩ i script (some value) acp else t.sighashAll ⟨a, H⟩ i script (some value) acp) =
      (if single' then t'.sighashSingle ⟨b, H⟩ i' script' (some value') acp' else t'.sighashAll ⟨b, H⟩ i' script' (some value') acp')) :
    Collision (Env.mk a H).hash256 [(preimage143 ⟨a, H⟩ t i x script value (typeWord a single acp),
      preimage143 ⟨b, H⟩ t' i' x' script' value' (typeWord b single' acp'))] := by
  obtain ⟨hi, rfl⟩ := List.getElem?_eq_some_iff.1 hx
  obtain ⟨hi', rfl⟩ := List.getElem?_eq_some_iff.1 hx'
  have e' : t.digest ⟨a, H⟩ single acp i script (some value) = t'.digest ⟨b, H⟩ single' acp' i' script' (some value') := e
  rw [Tx.digest_bip143 ha h hp single acp hi ho script value hv, Tx.digest_bip143 hb h' hp' single' acp' hi' ho' script' value' hv'] at e'
  injection e' with e'
  have hh : (Env.mk b H).hash256 = (Env.mk a H).hash256 := by funext m; unfold Env.hash256; simp only [da, db]
  refine ⟨_, .head _, ?_, ?_⟩
  · exact suffix_ne (typeWord_facts ha single acp).2.2 (typeWord_facts hb single' acp').2.2 (typeWord_ne hf single acp single' acp')
  · rw [hh] at e'
    simp only [preimage143]
    rw [hh]
    exact e'

/-- The legacy preimage as the library builds it; for SIGHASH_SINGLE it has one output for each input (see C49). -/
def libPreimage (t : Tx) (single acp : Bool) (i : Nat) (script : Bytes) : Bytes :=
  wireLegacy t.version (legacyIns t.sig i (sigType single acp) script)
    (if single then codeSingleOuts t.txIns.length t.sig.outs i else t.sig.outs) t.lockTime ++ leBytes 4 (sigType single acp)

/-- C93 when the second network has no fork id and the transaction there is a legacy one. -/
theorem C93_legacy (H : Hashes) (a b : Network) (ha : a.Supported) (da : a.isDecred = false) (db : b.isDecred = false)
    (hf : a.forkid ≠ none) (hf' : b.forkid = none) (single acp single' acp' : Bool) (t t' : Tx) (h : t.Built ⟨a, H⟩) (h' : t'.Built ⟨b, H⟩)
    (hw' : t'.flag = none ∧ t'.txWitnesses = none) (i i' : Nat) (x : TxIn) (hx : t.txIns[i]? = some x) (hi' : i' < t'.txIns.length)
    (ho : single = true → i < t.txOuts.length) (ho' : single' = true → i' < t'.txOuts.length) (script script' value : Bytes)
    (hv : value.length = 8) (value' : Option Bytes) (hs' : script'.length ≤ 1650)
    (hz' : (b.isOverwinter = false ∧ b.isSapling = false) ∨ ¬ (253 ≤ script'.length ∧ script'.length < 256))
    (e : (if single then t.sighashSingle ⟨a, H⟩ i script (some value) acp else t.sighashAll ⟨a, H⟩ i script (some value) acp) =
      (if single' then t'.sighashSingle ⟨b, H⟩ i' (varBytes script') value' acp' else t'.sighashAll ⟨b, H⟩ i' (varBytes script') value' acp')) :
    Collision (Env.mk a H).hash256 [(preimage143 ⟨a, H⟩ t i x script value (typeWord a single acp), libPreimage t' single' acp' i' script')] := by
  obtain ⟨hi, rfl⟩ := List.getElem?_eq_some_iff.1 hx
  have e' : t.digest ⟨a, H⟩ single acp i script (some value) = t'.digest ⟨b, H⟩ single' acp' i' (varBytes script') value' := e
  rw [Tx.digest_bip143 ha h (.inl hf) single acp hi ho script value hv,
    legacy_digest ⟨b, H⟩ hf' single' acp' t' h' hw' i' hi' ho' script' hs' hz' value'] at e'
  injection e' with e'
  have hh : (Env.mk b H).hash256 = (Env.mk a H).hash256 := by funext m; unfold Env.hash256; simp only [da, db]
  refine ⟨_, .head _, ?_, by rw [hh] at e'; exact e'⟩
  have hb' : typeWord b single' acp' = sigType single' acp' := by unfold typeWord; rw [hf']
  have := typeWord_ne (a := a) (b := b) (by rw [hf']; exact hf) single acp single' acp'
  rw [hb'] at this
  exact suffix_ne (typeWord_facts ha single acp).2.2 (sigType_facts single' acp').2.2.1 this

example : bitcoinCashMain.forkid ≠ bitcoinMain.forkid ∧ bitcoinMain.forkid = none ∧ exTx.Built ⟨bitcoinMain, toyHashes⟩ ∧ exTx.flag ≠ none ∧
    exLegacy.Built ⟨bitcoinMain, toyHashes⟩ ∧ exTx.txIns[0]? = some exIn ∧ 0 < exTx.txOuts.length :=
  ⟨by decide, rfl, exTx_built, by decide, exLegacy_built, rfl, by decide⟩
example : exTx.Built ⟨bitcoinCashMain, toyHashes⟩ := by
  obtain ⟨v, f, i, o, w, l, h1, h2, h3, h4⟩ := exTx_built
  refine ⟨v, f, i, o, w, l, h1, h2, h3, ?_⟩
  rw [← h4]
  rfl

end Verif.Props
