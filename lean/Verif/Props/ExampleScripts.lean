import Verif.Model.ExampleScripts
import Verif.Props.Examples
import Verif.Props.Builder2
import Verif.Props.Workflow
import Verif.Props.Addresses

/-! # C102: the example programs -/

namespace Verif.Props

open Verif Spec Addresses Builder ExampleScripts

/-- Arguments for which examples/p2pkh_op_return.py should work. -/
structure OpReturnOK (p : OpReturnArgs) (sender receiver txid : Bytes) : Prop where
  sender : fromHex p.senderPubkey = .ok sender
  receiver : fromHex p.receiverPubkey = .ok receiver
  txid : fromHex p.txId = .ok txid ∧ txid.length = 32
  index : 0 ≤ p.index ∧ p.index < 2 ^ 32
  sequence : U32 p.sequence
  version : U32 p.version
  locktime : U32 p.locktime
  value : 0 ≤ p.senderValue - p.fee ∧ p.senderValue - p.fee < 2 ^ 64
  note : p.note.length ≤ 77

/-- C102, what examples/p2pkh_op_return.py does: an unsigned transaction that spends the outpoint, pays the rest to the receiver's key and
carries the note. (The hypothesis excludes that a segwit address happens to be a correct Base58Check string.) -/
theorem C102_op_return_partial (H : Hashes) (hH : H.LengthOK) (p : OpReturnArgs) (sender receiver txid : Bytes)
    (ok : OpReturnOK p sender receiver txid)
    (hno : ∀ k ∈ [sender, receiver], ∀ a, makeP2wpkhAddress ⟨bitcoinMain, H⟩ k = .ok (some a) → ∀ d, Base58.decode ⟨bitcoinMain, H⟩ a ≠ .ok d) :
    ∃ t digest, opReturnUnsigned ⟨bitcoinMain, H⟩ p = .ok (t, digest) ∧ t.Built ⟨bitcoinMain, H⟩ ∧ t.flag = none ∧ t.txWitnesses = none ∧
      t.txIns.map (fun i => (i.outpoint.txId, (leValue i.outpoint.index : Int), i.scriptSig, (leValue i.sequence : Int))) =
        [(txid.reverse, p.index, [], p.sequence)] ∧
      t.txOuts.map (fun o => ((leValue o.value : Int), o.outputScript)) =
        [(p.senderValue - p.fee, p2wpkhScript ((⟨bitcoinMain, H⟩ : Env).hash160 receiver)), (0, 0x6a :: minimalPush p.note)] ∧
      (leValue t.version : Int) = p.version ∧ (leValue t.lockTime : Int) = p.locktime ∧
      digest = (⟨bitcoinMain, H⟩ : Env).hash256 (legacyPreimage t.sig 0 (0x14 :: (⟨bitcoinMain, H⟩ : Env).hash160 sender) 0x01) := by
  generalize hE : (⟨bitcoinMain, H⟩ : Env) = E at hno ⊢
  have hnet : E.net = bitcoinMain := by rw [← hE]
  have hHE : E.H.LengthOK := by rw [← hE]; exact hH
  have hs : E.net.Supported := by rw [hnet]; unfold Network.Supported; decide +kernel
  have hd : E.net.isDecred = false := by rw [hnet]; decide
  have hz : E.net.isZcash = false := by rw [hnet]; decide
  have hsw : E.net.segwit = true := by rw [hnet]; decide
  have hf : E.net.forkid = none := by rw [hnet]; decide
  have hov : E.net.isOverwinter = false ∧ E.net.isSapling = false := by rw [hnet]; decide
  have addr : ∀ k ∈ [sender, receiver], ∃ a, makeP2wpkhAddress E k = .ok (some a) ∧ toOutputScript E a = .ok (p2wpkhScript (E.hash160 k)) := by
    intro k hk
    obtain ⟨a, s, h1, h2, h3⟩ := C29_p2wpkh E hs hHE hsw k
    have h4 := ((C29_templates E hs k [] [] rfl).2.2.1 hsw).1
    rw [h4] at h2
    cases h2
    rcases h3 with h3 | ⟨-, ⟨d, hd⟩, -⟩
    · exact ⟨a, h1, h3⟩
    · exact absurd hd (hno k hk a h1 d)
  obtain ⟨sa, hsa, hsa'⟩ := addr sender (by simp)
  obtain ⟨ra, hra, hra'⟩ := addr receiver (by simp)
  obtain ⟨o, ho, bo, o1, o2, -⟩ := (C68_outpoint E hd p.txId p.index none).1 _ ok.txid.1 ok.txid.2 ok.index.1 ok.index.2
  obtain ⟨i, hi, bi, i1, -, -, i2, i3, -⟩ := (C68_unsigned_input E hd o bo p.sequence).1 ok.sequence.1 ok.sequence.2
  obtain ⟨x, hx, bx, x1, x2, -⟩ := (C68_output E hs hd (p.senderValue - p.fee) ra).1 _ hra' ok.value.1 ok.value.2
  obtain ⟨y, hy, by', y1, y2, -⟩ := (C67_accepts E hd p.note).1 ok.note
  obtain ⟨t, ht, t1, t2, t3, t4, t5, t6, t7⟩ := (C68_unsigned_legacy_tx E hs hz [i] [x, y] (by simp) (by simp)
    { version := some p.version, lockTime := some p.locktime }).1 ok.version ok.locktime (by simp) (by simp)
  have bt : t.Built E := t7 (by simpa using bi) (by simpa using ⟨bx, by'⟩)
  have dig := C91_unprefixed_false E hf t bt ⟨t3, t4⟩ 0 (by rw [t1]; simp) 0x00 (by decide) (0x14 :: E.hash160 sender)
    (by rw [List.length_cons, E.hash160_length hHE]; omega) (.inl hov) none false
  have hsig : t.sighashAll E 0 (p2wpkhScript (E.hash160 sender)) = _ := dig.1
  refine ⟨t, E.hash256 (legacyPreimage t.sig 0 (0x14 :: E.hash160 sender) 0x01), ?_, bt, t3, t4, ?_, ?_, t5, t6, rfl⟩
  · simp only [opReturnUnsigned, ok.sender, ok.receiver, hsa, hra, ho, hi, hx, hy, ht, ok_bind, stdIn, stdOut, stdTx, scriptOf, hsa', hsig]
    rfl
  · rw [t1]; simp [i1, i2, i3, o1, o2]
  · rw [t2]; simp [x1, x2, y1, y2]

/-- The hypotheses of `C102_op_return_partial` can be met. -/
def exOpReturn : OpReturnArgs where
  senderPubkey := toHex (List.replicate 33 2)
  receiverPubkey := toHex (List.replicate 33 3)
  txId := toHex (List.replicate 32 9)
  note := [0x68, 0x69]

example : OpReturnOK exOpReturn (List.replicate 33 2) (List.replicate 33 3) (List.replicate 32 9) :=
  ⟨fromHex_toHex _, fromHex_toHex _, ⟨fromHex_toHex _, by simp⟩, by decide, by unfold U32; decide, by unfold U32; decide, by unfold U32; decide,
    by decide, by decide⟩

example : ∀ k ∈ [List.replicate 33 (2 : UInt8), List.replicate 33 3], ∀ a, makeP2wpkhAddress ⟨bitcoinMain, toyHashes⟩ k = .ok (some a) →
    ∀ d, Base58.decode ⟨bitcoinMain, toyHashes⟩ a ≠ .ok d := by
  have key : ∀ k ∈ [List.replicate 33 (2 : UInt8), List.replicate 33 3],
      (match makeP2wpkhAddress ⟨bitcoinMain, toyHashes⟩ k with
        | .ok (some a) => (match Base58.decode ⟨bitcoinMain, toyHashes⟩ a with | .ok _ => false | .error _ => true)
        | _ => true) = true := by decide +kernel
  intro k hk a ha d hd
  have := key k hk
  simp [ha, hd] at this

/-- C102 fails for the digest: what examples/p2pkh_op_return.py signs is the digest for neither kind of output of the sender's key, nor for
any other standard one. -/
theorem C102_op_return_digest_false (H : Hashes) (hH : H.LengthOK) (p : OpReturnArgs) (sender receiver txid : Bytes)
    (ok : OpReturnOK p sender receiver txid)
    (hno : ∀ k ∈ [sender, receiver], ∀ a, makeP2wpkhAddress ⟨bitcoinMain, H⟩ k = .ok (some a) → ∀ d, Base58.decode ⟨bitcoinMain, H⟩ a ≠ .ok d) :
    ∃ t preimage, opReturnUnsigned ⟨bitcoinMain, H⟩ p = .ok (t, (⟨bitcoinMain, H⟩ : Env).hash256 preimage) ∧
      ∀ h k : Bytes, h.length = 20 → k.length = 32 → ∀ script ∈ [p2pkhScript h, p2shScript h, p2wpkhScript h, p2wshScript k],
        preimage ≠ legacyPreimage t.sig 0 script 0x01 := by
  obtain ⟨t, _, h1, bt, hf, hw, hi, -, -, -, rfl⟩ := C102_op_return_partial H hH p sender receiver txid ok hno
  refine ⟨t, _, h1, fun h k hh hk script hsc => ?_⟩
  have hlen : 0 < t.txIns.length := by
    have := congrArg List.length hi
    simp only [List.length_map, List.length_cons, List.length_nil] at this
    omega
  have hl := (⟨bitcoinMain, H⟩ : Env).hash160_length hH sender
  refine legacyPreimage_ne ⟨bitcoinMain, H⟩ t bt ⟨hf, hw⟩ 0 hlen (s := 0x14 :: (⟨bitcoinMain, H⟩ : Env).hash160 sender) (s' := script)
    (by rw [List.length_cons, hl]; omega) ?_ ?_ false
  · simp only [List.mem_cons, List.not_mem_nil, or_false] at hsc
    rcases hsc with rfl | rfl | rfl | rfl <;>
      simp only [p2pkhScript, p2shScript, p2wpkhScript, p2wshScript, List.length_append, List.length_cons, List.length_nil, hh, hk] <;> omega
  · simp only [List.mem_cons, List.not_mem_nil, or_false] at hsc
    rcases hsc with rfl | rfl | rfl | rfl <;> simp [p2pkhScript, p2shScript, p2wpkhScript, p2wshScript]

/-- C102 fails: examples/p2pkh_op_return.py never prints a transaction. -/
theorem C102_op_return_false (E : Env) (p : OpReturnArgs) (s : PyStr) : opReturn E p ≠ .ok s := by
  unfold opReturn
  cases opReturnUnsigned E p <;> simp [bind, Except.bind]

/-- C102 fails: examples/sapling_example.py never gets past the construction of the transaction, whatever the addresses, ids, amounts; if they
are all right it raises TypeError. -/
theorem C102_sapling_false (E : Env) (hs : E.net.Supported) (hsp : E.net.isSapling = true) (a1 a2 id1 id2 : PyStr) (n1 n2 v : Int)
    (a : PyStr) :
    (∀ t, saplingExample E a1 a2 id1 id2 n1 n2 v a ≠ .ok t) ∧
    ∀ s1 s2 s b1 b2, toOutputScript E a1 = .ok s1 → toOutputScript E a2 = .ok s2 → toOutputScript E a = .ok s →
      fromHex id1 = .ok b1 → b1.length = 32 → fromHex id2 = .ok b2 → b2.length = 32 → 0 ≤ n1 → n1 < 2 ^ 32 → 0 ≤ n2 → n2 < 2 ^ 32 →
      0 ≤ v → v < 2 ^ 64 → saplingExample E a1 a2 id1 id2 n1 n2 v a = .error .typeError := by
  have hd : E.net.isDecred = false := by
    have key : ∀ n : Network, n.Supported → n.isSapling = true → n.isDecred = false := by unfold Network.Supported; decide +kernel
    exact key _ hs hsp
  constructor
  · intro t h
    unfold saplingExample at h
    simp only [bind_ok_iff] at h
    obtain ⟨_, -, _, -, _, -, _, -, i1, -, _, -, _, -, i2, -, _, -, o, -, h⟩ := h
    exact (C69_sapling_false E hs hsp [i1, i2] [o] {}).1 t h
  · intro s1 s2 s b1 b2 h1 h2 h3 h4 h5 h6 h7 h8 h9 h10 h11 h12 h13
    obtain ⟨o1, ho1, bo1, -⟩ := (C68_outpoint E hd id1 n1 none).1 _ h4 h5 h8 h9
    obtain ⟨o2, ho2, bo2, -⟩ := (C68_outpoint E hd id2 n2 none).1 _ h6 h7 h10 h11
    obtain ⟨i1, hi1, -⟩ := (C68_unsigned_input E hd o1 bo1 0xFFFFFFFE).2.2
    obtain ⟨i2, hi2, -⟩ := (C68_unsigned_input E hd o2 bo2 0xFFFFFFFE).2.2
    obtain ⟨x, hx, -⟩ := (C68_output E hs hd v a).1 _ h3 h12 h13
    have := (C69_sapling_false E hs hsp [i1, i2] [x] {}).2 (by unfold U32; decide) (by decide) (by decide)
    simp only [saplingExample, h1, h2, ho1, ho2, hi1, hi2, hx, ok_bind, stdIn, stdOut, this]

example : ∃ E : Env, E.net.Supported ∧ E.net.isSapling = true := ⟨sapEnv, zcash_supported.2.2, by decide⟩

/-- C102, what examples/sapling_htlc_example.py does, on any network but Decred and for any keys, secret, time and amount: the address pays to
the hash of the redeem script; the redeem script has the two branches; and the script sigs that `make_script_sig` makes of the filled-in
stack scripts push the secret (or not), the branch, and that same redeem script. -/
theorem C102_htlc_partial (E : Env) (hs : E.net.Supported) (hH : E.H.LengthOK) (hd : E.net.isDecred = false)
    (secret pk0 pk1 timeout sig : Bytes) (h1 : Data secret) (h2 : Data pk0) (h3 : Data pk1) (h4 : 1 ≤ timeout.length ∧ timeout.length ≤ 5)
    (h5 : Data sig) (v : Int) (hv : 0 ≤ v) (hv' : v < 2 ^ 64) :
    ∃ redeem a o, htlcOutput E (toHex secret) (toHex pk0) (toHex pk1) (toHex timeout) v = .ok (redeem, some a, .std o) ∧
      ∃ r, r = [0x63, 0xa8] ++ minimalPush (E.H.sha256 secret) ++ [0x88, 0x76, 0xa9] ++ minimalPush (E.hash160 pk0) ++
        [0x67] ++ minimalPush timeout ++ [0xb1, 0x75, 0x76, 0xa9] ++ minimalPush (E.hash160 pk1) ++ [0x68, 0x88, 0xac] ∧
      toOutputScript E a = .ok (p2shScript (E.hash160 r)) ∧ o.outputScript = p2shScript (E.hash160 r) ∧ (leValue o.value : Int) = v ∧
      makeScriptSig E (htlcExecute (toHex sig) (toHex pk0) (toHex secret)) redeem =
        .ok (minimalPush sig ++ minimalPush pk0 ++ minimalPush secret ++ [0x51] ++ minimalPush r) ∧
      makeScriptSig E (htlcRefund (toHex sig) (toHex pk1)) redeem =
        .ok (minimalPush sig ++ minimalPush pk1 ++ [0x00] ++ minimalPush r) := by
  have l1 : (E.H.sha256 secret).length = 32 := hH.sha256 secret
  have l2 := E.hash160_length hH pk0
  have l3 := E.hash160_length hH pk1
  have ser := C88_htlc E.net hs (E.H.sha256 secret) (E.hash160 pk0) timeout (E.hash160 pk1) ⟨by omega, by omega⟩ ⟨by omega, by omega⟩
    ⟨h4.1, by omega⟩ ⟨by omega, by omega⟩
  rw [hd, if_neg (by simp)] at ser
  have fold : ([0x63] ++ [0xa8] ++ minimalPush (E.H.sha256 secret) ++ [0x88, 0x76, 0xa9] ++ minimalPush (E.hash160 pk0) ++
        [0x67] ++ minimalPush timeout ++ [0xb1, 0x75, 0x76, 0xa9] ++ minimalPush (E.hash160 pk1) ++ [0x68, 0x88, 0xac] : Bytes) =
      [0x63, 0xa8] ++ minimalPush (E.H.sha256 secret) ++ [0x88, 0x76, 0xa9] ++ minimalPush (E.hash160 pk0) ++
        [0x67] ++ minimalPush timeout ++ [0xb1, 0x75, 0x76, 0xa9] ++ minimalPush (E.hash160 pk1) ++ [0x68, 0x88, 0xac] := by simp
  rw [fold] at ser
  generalize hr : [0x63, 0xa8] ++ minimalPush (E.H.sha256 secret) ++ [0x88, 0x76, 0xa9] ++ minimalPush (E.hash160 pk0) ++
        [0x67] ++ minimalPush timeout ++ [0xb1, 0x75, 0x76, 0xa9] ++ minimalPush (E.hash160 pk1) ++ [0x68, 0x88, 0xac] = r at ser
  have hlen : 1 ≤ r.length ∧ r.length ≤ 1000 := by
    rw [← hr]
    unfold minimalPush
    rw [if_pos (by omega), if_pos (by omega), if_pos (by omega), if_pos (by omega)]
    simp only [List.length_append, List.length_cons, List.length_nil]
    omega
  obtain ⟨a, _, s, ha, -, hsc, hto, -⟩ := C29_p2sh E hs hH _ r ser
  rw [(C29_templates E hs [] _ r ser).2.1] at hsc
  cases hsc
  obtain ⟨o, ho, -, o1, o2, -⟩ := (C68_output E hs hd v a).1 _ hto hv hv'
  have ser1 : serialize E.net (htlcExecute (toHex sig) (toHex pk0) (toHex secret)) =
      .ok (minimalPush sig ++ minimalPush pk0 ++ minimalPush secret ++ [0x51]) := by
    have o1' := tok_op hs (t := pystr "OP_1") (b := 0x51) (by decide +kernel)
    have := serialize_toks [(toHex sig, minimalPush sig), (toHex pk0, minimalPush pk0), (toHex secret, minimalPush secret),
      (pystr "OP_1", [0x51])] (net := E.net) (by
        simp only [List.forall_mem_cons]
        exact ⟨tok_hex hs h5.1 h5.2, tok_hex hs h2.1 h2.2, tok_hex hs h1.1 h1.2, o1', by simp⟩)
    simpa [joinSpace, htlcExecute] using this
  have ser2 : serialize E.net (htlcRefund (toHex sig) (toHex pk1)) = .ok (minimalPush sig ++ minimalPush pk1 ++ [0x00]) := by
    have o1' := tok_op hs (t := pystr "OP_0") (b := 0x00) (by decide +kernel)
    have := serialize_toks [(toHex sig, minimalPush sig), (toHex pk1, minimalPush pk1), (pystr "OP_0", [0x00])] (net := E.net) (by
        simp only [List.forall_mem_cons]
        exact ⟨tok_hex hs h5.1 h5.2, tok_hex hs h3.1 h3.2, o1', by simp⟩)
    simpa [joinSpace, htlcRefund] using this
  refine ⟨_, a, o, ?_, r, rfl, hto, o2, o1, C70_script_sig E hs _ _ _ r ser1 ser hlen.1 hlen.2,
    C70_script_sig E hs _ _ _ r ser2 ser hlen.1 hlen.2⟩
  have ha' : makeShAddress E (Examples.htlcRedeemScript (toHex (E.H.sha256 secret)) (toHex (E.hash160 pk0)) (toHex timeout)
      (toHex (E.hash160 pk1))) = .ok (some a) := ha
  simp only [htlcOutput, fromHex_toHex, ok_bind, ha', ho]

example : ∃ E : Env, E.net.Supported ∧ E.H.LengthOK ∧ E.net.isDecred = false := ⟨sapEnv, zcash_supported.2.2, toyHashes_ok, by decide⟩

/-- C102 fails: examples/sapling_htlc_example.py never makes an input. -/
theorem C102_htlc_false (E : Env) (secret pk0 pk1 timeout : PyStr) (v : Int) (t : AnyTxIn) :
    htlcExample E secret pk0 pk1 timeout v ≠ .ok t := by
  unfold htlcExample
  cases htlcOutput E secret pk0 pk1 timeout v <;> simp [bind, Except.bind]

end Verif.Props
