import Verif.Lemmas.Standard
import Verif.Props.Tx
import Verif.Props.Builder

/-! C71–C73, C80: networks/standard.py. -/

namespace Verif.Props

open Verif Spec Addresses Builder Standard

theorem le2i_eq (b : Bytes) : le2i b = leValue b := leToNat_eq_leValue b

theorem opReturn_std {E : Env} {d : Bytes} {o : TxOut} (h : makeOpReturnOutput E d = .ok (.std o)) :
    d.length ≤ 77 ∧ o.Built ∧ leValue o.value = 0 ∧ o.outputScript = 0x6a :: minimalPush d := by
  have hd : E.net.isDecred = false := by
    cases hd : E.net.isDecred
    · rfl
    · exfalso
      unfold makeOpReturnOutput makeOutput at h
      simp only [bind_ok_iff, hd, if_true] at h
      obtain ⟨_, _, _, _, _, _, _, _, h⟩ := h
      cases h
  have hl : d.length ≤ 77 := by
    rcases Nat.lt_or_ge 77 d.length with h' | h'
    · rw [(C67_accepts E hd d).2 h'] at h; cases h
    · exact h'
  obtain ⟨o', h1, h3, h4, h2, -⟩ := (C67_accepts E hd d).1 hl
  rw [h1] at h
  cases h
  exact ⟨hl, h3, h4, h2⟩

/-! ### C71 -/

/-- **C71**, the half that holds: every push-only script is accepted. -/
theorem C71_accepts_partial {net : Network} (hs : net.Supported) {s : Bytes} (h : PushOnly s) : isPushOnly net s = .ok true := by
  have key : ∃ ts, deserializeTokens net s = .ok ts := by
    induction h with
    | nil => exact ⟨_, deserializeTokens_nil net⟩
    | direct n d rest h1 h2 hd _ ih =>
      obtain ⟨ts, ih⟩ := ih
      have e : UInt8.ofNat n :: (d ++ rest) = minimalPush d ++ rest := by
        unfold minimalPush; rw [if_pos (by omega), hd]; rfl
      rw [e, deserializeTokens_push net d rest (by omega) (by omega), ih]
      exact ⟨_, rfl⟩
    | pushdata1 l d rest hd _ ih =>
      obtain ⟨ts, ih⟩ := ih
      rw [deserializeTokens_cons, if_neg (by decide), if_neg (by decide), if_pos rfl]
      simp only [← hd, List.drop_left, ih]
      exact ⟨_, rfl⟩
    | pushdata2 lo hi d rest hd _ ih =>
      obtain ⟨ts, ih⟩ := ih
      rw [deserializeTokens_cons, if_neg (by decide), if_neg (by decide), if_neg (by decide), if_pos rfl]
      have e1 : leToNat ((lo :: hi :: (d ++ rest)).take 2) = d.length := by simp [leToNat, hd]
      have e2 : (lo :: hi :: (d ++ rest)).drop (2 + d.length) = rest := by rw [Nat.add_comm]; simp
      rw [e1, e2, ih]
      exact ⟨_, rfl⟩
    | op b rest hb _ ih =>
      obtain ⟨ts, ih⟩ := ih
      have hop : IsOpByte net.isDecred b := by
        refine ⟨?_, ?_⟩
        · rcases hb with h | h
          · exact .inl h
          · exact .inr (.inl ⟨h.1, by omega⟩)
        · rintro rfl
          revert hb; decide
      obtain ⟨t, ht, -⟩ := opName_isOk hs hop
      rw [deserializeTokens_op net b rest _ hop, ht, ih]
      exact ⟨_, rfl⟩
  obtain ⟨ts, hts⟩ := key
  rw [isPushOnly_eq, deserialize_of_tokens hts]
  rfl

example : PushOnly [0, 2, 0xaa, 0xbb, 0x51, 0x4c, 1, 7] :=
  .op 0 _ (by decide) (.direct 2 [0xaa, 0xbb] _ (by decide) (by decide) rfl (.op 0x51 _ (by decide) (.pushdata1 1 [7] [] rfl .nil)))

theorem not_pushOnly_checksig : ¬ PushOnly [0xac] := by
  intro h
  generalize hb : ([0xac] : Bytes) = b at h
  cases h with
  | nil => cases hb
  | direct n d rest h1 h2 =>
    have := congrArg UInt8.toNat (List.cons.inj hb).1
    simp at this
    omega
  | pushdata1 => cases hb
  | pushdata2 => cases hb
  | op b rest hop =>
    obtain ⟨rfl, -⟩ := List.cons.inj hb
    revert hop; decide

/-- **C71**, the half that fails: `is_push_only` answers True for every script that can be written as text, and never answers False; so
it accepts `OP_CHECKSIG`. -/
theorem C71_false (net : Network) (hs : net.Supported) :
    (∀ s b, isPushOnly net s = .ok b ↔ b = true ∧ ∃ text, deserialize net s = .ok text) ∧
    ∃ s, ¬ PushOnly s ∧ isPushOnly net s = .ok true := by
  have h1 : ∀ s b, isPushOnly net s = .ok b ↔ b = true ∧ ∃ text, deserialize net s = .ok text := by
    intro s b
    rw [isPushOnly_eq, bind_ok_iff]
    constructor
    · rintro ⟨t, ht, h⟩; cases h; exact ⟨rfl, t, ht⟩
    · rintro ⟨rfl, t, ht⟩; exact ⟨t, ht, rfl⟩
  refine ⟨h1, [0xac], not_pushOnly_checksig, (h1 _ _).2 ⟨rfl, ?_⟩⟩
  obtain ⟨-, -, -, -, -, hac, -⟩ := opName_template hs
  refine ⟨_, deserialize_of_tokens (ts := [pystr "OP_CHECKSIG"]) ?_⟩
  rw [deserializeTokens_op net 0xac _ false (by decide), hac, deserializeTokens_nil]
  rfl

/-! ### C72 -/

/-- Output scripts with an address: the four templates, the segwit ones only where the network has them. -/
def HasAddress (net : Network) (s : Bytes) : Prop :=
  ∃ h : Bytes, (h.length = 20 ∧ (s = p2pkhScript h ∨ s = p2shScript h)) ∨
    (net.segwit = true ∧ ((h.length = 20 ∧ s = p2wpkhScript h) ∨ (h.length = 32 ∧ s = p2wshScript h)))

theorem hasAddress_ok (E : Env) (hs : E.net.Supported) (hH : E.H.LengthOK) {s : Bytes} (h : HasAddress E.net s) :
    (∃ a, fromOutputScript E s = .ok a) ∧ (∃ ts, deserializeTokens E.net s = .ok ts ∧ ∃ a l, ts = a :: l ∧ a ≠ [] ∧ a ≠ pystr "OP_RETURN") := by
  obtain ⟨x, ⟨hl, rfl | rfl⟩ | ⟨hsw, ⟨hl, rfl⟩ | ⟨hl, rfl⟩⟩⟩ := h
  · obtain ⟨a, ha, -⟩ := C27_p2pkh E hs hH x hl true
    exact ⟨⟨_, ha⟩, _, tokens_p2pkh hs hl, _, _, rfl, by decide, by decide⟩
  · obtain ⟨a, ha, -⟩ := C27_p2sh E hs hH x hl true
    exact ⟨⟨_, ha⟩, _, tokens_p2sh hs hl, _, _, rfl, by decide, by decide⟩
  · obtain ⟨a, ha, -⟩ := C28_p2wpkh E hs hH hsw x hl true
    exact ⟨⟨_, ha⟩, _, tokens_p2wpkh hs hl, _, _, rfl, by decide, by decide⟩
  · obtain ⟨a, ha, -⟩ := C28_p2wsh E hs hH hsw x hl true
    exact ⟨⟨_, ha⟩, _, tokens_p2wsh hs hl, _, _, rfl, by decide, by decide⟩

/-- m-of-n with 1 ≤ m ≤ n ≤ 3 and keys of 33 or 65 bytes. -/
def StandardMultisig (s : Bytes) : Prop :=
  ∃ m keys, 1 ≤ m ∧ m ≤ keys.length ∧ keys.length ≤ 3 ∧ (∀ k ∈ keys, k.length = 33 ∨ k.length = 65) ∧ s = multisigScript m keys

theorem tokens_keys (net : Network) (keys : List Bytes) (hk : ∀ k ∈ keys, k.length = 33 ∨ k.length = 65) (rest : Bytes) (ts : List PyStr)
    (h : deserializeTokens net rest = .ok ts) :
    deserializeTokens net (keys.flatMap minimalPush ++ rest) = .ok (keys.map toHex ++ ts) := by
  induction keys with
  | nil => simpa using h
  | cons k keys ih =>
    have hl := hk k (by simp)
    rw [List.flatMap_cons, List.append_assoc, deserializeTokens_push net k _ (by omega) (by omega),
      ih (fun k hk' => hk k (by simp [hk']))]
    rfl

/-- the token of a small number -/
def opNum : Nat → PyStr
  | 1 => pystr "OP_1"
  | 2 => pystr "OP_2"
  | _ => pystr "OP_3"

theorem opNum_name {net : Network} (hs : net.Supported) {m : Nat} (h1 : 1 ≤ m) (h2 : m ≤ 3) :
    opName net (UInt8.ofNat (80 + m)) = .ok (opNum m) ∧ IsOpByte false (UInt8.ofNat (80 + m)) ∧ opNum m ≠ [] ∧
    (∃ c, getItem (opNum m) (-1) = .ok c ∧ intOfChar c = .ok m) ∧
    (opNum m = pystr "OP_1" ∨ opNum m = pystr "OP_2" ∨ opNum m = pystr "OP_3") ∧ opNum m ≠ pystr "OP_RETURN" := by
  obtain ⟨-, -, -, -, -, -, -, -, n1, n2, n3⟩ := opName_template hs
  obtain rfl | rfl | rfl : m = 1 ∨ m = 2 ∨ m = 3 := by omega
  · exact ⟨n1, by decide, by decide, ⟨'1', by decide, by decide⟩, by decide, by decide⟩
  · exact ⟨n2, by decide, by decide, ⟨'2', by decide, by decide⟩, by decide, by decide⟩
  · exact ⟨n3, by decide, by decide, ⟨'3', by decide, by decide⟩, by decide, by decide⟩

theorem tokens_multisig {net : Network} (hs : net.Supported) {m : Nat} {keys : List Bytes} (h1 : 1 ≤ m) (h2 : m ≤ keys.length)
    (h3 : keys.length ≤ 3) (hk : ∀ k ∈ keys, k.length = 33 ∨ k.length = 65) :
    deserializeTokens net (multisigScript m keys) =
      .ok (opNum m :: (keys.map toHex ++ [opNum keys.length, pystr "OP_CHECKMULTISIG"])) := by
  obtain ⟨-, -, -, -, -, -, -, hae, -⟩ := opName_template hs
  obtain ⟨m1, m2, -⟩ := opNum_name hs h1 (by omega : m ≤ 3)
  obtain ⟨k1, k2, -⟩ := opNum_name hs (by omega : 1 ≤ keys.length) h3
  unfold multisigScript
  rw [deserializeTokens_op net _ _ false m2, m1, tokens_keys net keys hk _ [opNum keys.length, pystr "OP_CHECKMULTISIG"]]
  · rfl
  · rw [deserializeTokens_op net _ _ false k2, k1, deserializeTokens_op net 0xae _ false (by decide), hae, deserializeTokens_nil]
    rfl

theorem pySplit_of_tokens {net : Network} (hs : net.Supported) {b : Bytes} {ts : List PyStr} (h : deserializeTokens net b = .ok ts)
    (hne : ∀ t ∈ ts, t ≠ []) : pySplit (joinSpace ts) = ts := by
  rw [pySplit_joinSpace_filter ts (deserialized_noSpace hs h), List.filter_eq_self]
  intro t ht
  simp [hne t ht]

theorem isOther_multisig {net : Network} (hs : net.Supported) {s : Bytes} (h : StandardMultisig s) :
    isOtherStandard net s = .ok true ∧ ∃ ts, deserializeTokens net s = .ok ts ∧ ∃ a l, ts = a :: l ∧ a ≠ [] ∧ a ≠ pystr "OP_RETURN" := by
  obtain ⟨m, keys, h1, h2, h3, hk, rfl⟩ := h
  have ht := tokens_multisig hs h1 h2 h3 hk
  obtain ⟨-, -, m3, ⟨cm, m4, m5⟩, -, m6⟩ := opNum_name hs h1 (by omega : m ≤ 3)
  obtain ⟨-, -, k3, ⟨ck, k4, k5⟩, k6, -⟩ := opNum_name hs (by omega : 1 ≤ keys.length) h3
  refine ⟨?_, _, ht, _, _, rfl, m3, m6⟩
  have hsp := pySplit_of_tokens hs ht (by
    intro t h
    simp only [List.mem_cons, List.mem_append, List.mem_map, List.not_mem_nil, or_false] at h
    obtain rfl | ⟨k, hk', rfl⟩ | rfl | rfl := h
    · exact m3
    · exact toHex_ne_nil (by have := hk k hk'; omega)
    · exact k3
    · decide)
  have g1 : getItem (opNum m :: (keys.map toHex ++ [opNum keys.length, pystr "OP_CHECKMULTISIG"])) (-1) = .ok (pystr "OP_CHECKMULTISIG") := by
    have := getItem_last1 (opNum m :: (keys.map toHex ++ [opNum keys.length])) (pystr "OP_CHECKMULTISIG")
    simpa using this
  have g2 : getItem (opNum m :: (keys.map toHex ++ [opNum keys.length, pystr "OP_CHECKMULTISIG"])) (-2) = .ok (opNum keys.length) :=
    getItem_last2 (opNum m :: keys.map toHex) (opNum keys.length) (pystr "OP_CHECKMULTISIG")
  have hp : isPubkeyScript (opNum m :: (keys.map toHex ++ [opNum keys.length, pystr "OP_CHECKMULTISIG"])) = .ok false := by
    unfold isPubkeyScript
    rw [g1, ok_bind, if_neg (by rintro ⟨h, -⟩; revert h; decide)]
  unfold isOtherStandard
  rw [deserialize_of_tokens ht, ok_bind]
  simp only [hsp, hp, ok_bind, Bool.false_eq_true, if_false]
  unfold isMultisigScript
  rw [g1, ok_bind, if_pos rfl, g2, ok_bind, if_pos k6]
  unfold multisigOk
  rw [k4, ok_bind, k5, ok_bind, getItem_zero, ok_bind, m4, ok_bind, m5, ok_bind, if_neg (by
    simp only [List.length_cons, List.length_append, List.length_map, List.length_nil]; omega)]
  have e : dropLastN ((opNum m :: (keys.map toHex ++ [opNum keys.length, pystr "OP_CHECKMULTISIG"])).drop 1) 2 = keys.map toHex := by
    simp [dropLastN]
  rw [e, pubkeysOk_true]
  intro k hk'
  obtain ⟨k, hk'', rfl⟩ := List.mem_map.1 hk'
  exact ⟨k, fromHex_toHex k, hk k hk''⟩

/-- **C72**, what holds: a transaction with one output is accepted when the output is one of the address templates or a standard
multisig script, and worth at least 550 (any value for P2WPKH). -/
theorem C72_single_partial (E : Env) (hs : E.net.Supported) (hH : E.H.LengthOK) (t : Tx) (o : TxOut) (ho : t.txOuts = [o])
    (hscript : HasAddress E.net o.outputScript ∨ StandardMultisig o.outputScript)
    (hv : 550 ≤ leValue o.value ∨ ∃ h, o.outputScript = p2wpkhScript h) : checkIsStandard E t = .ok true := by
  have key : isStandardOutputType E o = .ok true ∧ ∃ ts, deserializeTokens E.net o.outputScript = .ok ts ∧
      ∃ a l, ts = a :: l ∧ a ≠ [] ∧ a ≠ pystr "OP_RETURN" := by
    rcases hscript with h | h
    · obtain ⟨⟨a, ha⟩, h2⟩ := hasAddress_ok E hs hH h
      exact ⟨isStandardOutputType_ok E o a ha, h2⟩
    · obtain ⟨h1, h2⟩ := isOther_multisig hs h
      refine ⟨?_, h2⟩
      obtain ⟨m, keys, g1, g2, g3, -, g⟩ := h
      rw [isStandardOutputType_other E hs o _ _ g (by
        obtain rfl | rfl | rfl : m = 1 ∨ m = 2 ∨ m = 3 := by omega
        all_goals decide) (by
        obtain rfl | rfl | rfl : m = 1 ∨ m = 2 ∨ m = 3 := by omega
        all_goals decide) (by
        obtain rfl | rfl | rfl : m = 1 ∨ m = 2 ∨ m = 3 := by omega
        all_goals decide)]
      exact h1
  obtain ⟨k1, ts, k2, a, l, rfl, ha, hr⟩ := key
  have hop : ∃ b, isOpReturn E.net o = .ok b := by
    unfold isOpReturn
    rw [deserialize_of_tokens k2, ok_bind]
    simp only
    split
    · have hsp := pySplit_joinSpace_filter (a :: l) (deserialized_noSpace hs k2)
      rw [hsp, List.filter_cons, if_pos (by simp [ha]), getItem_zero]
      exact ⟨_, rfl⟩
    · exact ⟨_, rfl⟩
  obtain ⟨b, hb⟩ := hop
  have hout : outputsOk E [o] = .ok true := by
    rw [outputsOk_true]
    intro o' ho'
    obtain rfl : o' = o := by simpa using ho'
    refine ⟨k1, ?_⟩
    rintro ⟨h1, h2⟩
    rcases hv with hv | ⟨h, hv⟩
    · rw [le2i_eq] at h1
      omega
    · apply h2; rw [hv]; rfl
  unfold checkIsStandard
  rw [ho, hout, ok_bind]
  simp only [mapPy, hb, ok_bind]
  rfl

example : ∃ (E : Env) (t : Tx) (o : TxOut), E.net.Supported ∧ E.H.LengthOK ∧ t.txOuts = [o] ∧ StandardMultisig o.outputScript ∧
    550 ≤ leValue o.value :=
  ⟨toyEnv, txObj toyEnv [2, 0, 0, 0] none [exIn] [⟨[0, 4, 0, 0, 0, 0, 0, 0], multisigScript 1 [List.replicate 33 2], []⟩] none [0, 0, 0, 0],
    _, btc_supported, toyHashes_ok, rfl, ⟨1, [List.replicate 33 2], by decide, by decide, by decide, by decide, rfl⟩, by decide⟩
example : HasAddress bitcoinMain (p2wpkhScript (List.replicate 20 7)) := ⟨List.replicate 20 7, .inr ⟨by decide, .inl ⟨by decide, rfl⟩⟩⟩

/-- **C72**, the failure: no transaction with two outputs or more passes either test, whatever the outputs are. -/
theorem C72_false (E : Env) (t : Tx) (h : 2 ≤ t.txOuts.length) : checkIsStandard E t ≠ .ok true ∧ checkIsStandardTx E t ≠ .ok true := by
  have key : checkIsStandard E t ≠ .ok true := by
    intro hc
    unfold checkIsStandard at hc
    simp only [bind_ok_iff] at hc
    obtain ⟨b, -, hc⟩ := hc
    split at hc
    · cases hc
    · simp only [bind_ok_iff] at hc
      obtain ⟨l, hl, hc⟩ := hc
      have := mapPy_length hl
      rw [show decide (¬ l.length > 1) = false from by simp; omega] at hc
      cases hc
  refine ⟨key, ?_⟩
  intro hc
  unfold checkIsStandardTx at hc
  simp only [bind_ok_iff] at hc
  obtain ⟨v, -, hc⟩ := hc
  split at hc
  · cases hc
  · simp only [bind_ok_iff] at hc
    obtain ⟨nw, -, hc⟩ := hc
    split at hc
    · cases hc
    · split at hc
      · exact key hc
      · cases hc

/-- ... in particular a built transaction paying two P2PKH outputs is refused. -/
theorem C72_false_witness : ∃ t : Tx, t.Built toyEnv ∧ (∀ o ∈ t.txOuts, HasAddress bitcoinMain o.outputScript ∧ 550 ≤ leValue o.value) ∧
    checkIsStandard toyEnv t = .ok false := by
  have ho : TxOut.Built ⟨[0, 4, 0, 0, 0, 0, 0, 0], p2pkhScript (List.replicate 20 7),
      wireOut [0, 4, 0, 0, 0, 0, 0, 0] (p2pkhScript (List.replicate 20 7))⟩ :=
    ⟨_, _, TxOut.make_iff.2 ⟨by decide, by decide, rfl⟩⟩
  generalize hoe : (⟨[0, 4, 0, 0, 0, 0, 0, 0], p2pkhScript (List.replicate 20 7),
      wireOut [0, 4, 0, 0, 0, 0, 0, 0] (p2pkhScript (List.replicate 20 7))⟩ : TxOut) = o at ho
  refine ⟨txObj toyEnv [2, 0, 0, 0] none [exIn] [o, o] none [0, 0, 0, 0], ⟨[2, 0, 0, 0], none, [exIn], [o, o], none, [0, 0, 0, 0],
    by simpa using exIn_built, by simpa using ho, by simp, Tx.make_iff.2 ⟨⟨rfl, rfl, .inl rfl, by simp, by simp, by simp, by simp, by simp⟩, rfl⟩⟩,
    ?_, ?_⟩
  · intro o' ho'
    obtain rfl : o' = o := by simpa [txObj] using ho'
    rw [← hoe]
    exact ⟨⟨List.replicate 20 7, .inl ⟨by decide, .inl rfl⟩⟩, by decide⟩
  · obtain ⟨⟨a, ha⟩, ts, k2, x, l, rfl, hx, hr⟩ := hasAddress_ok toyEnv btc_supported toyHashes_ok (s := o.outputScript)
      (by rw [← hoe]; exact ⟨List.replicate 20 7, .inl ⟨by decide, .inl rfl⟩⟩)
    have hv : le2i o.value = 1024 := by rw [← hoe]; rfl
    have hop : isOpReturn toyEnv.net o = .ok false := by
      unfold isOpReturn
      rw [deserialize_of_tokens k2, ok_bind, if_neg (by rw [hv]; decide)]
    have hout : outputsOk toyEnv [o, o] = .ok true := by
      rw [outputsOk_true]
      intro o' ho'
      obtain rfl : o' = o := by simpa using ho'
      exact ⟨isStandardOutputType_ok _ _ a ha, by rw [hv]; rintro ⟨h, -⟩; revert h; decide⟩
    unfold checkIsStandard
    simp only [txObj, hout, ok_bind, mapPy, hop]
    rfl

example : ∃ t : Tx, 2 ≤ t.txOuts.length := ⟨exTx, by decide⟩

/-- **C72**, the failure for pay-to-pubkey: the test raises ValueError instead of accepting (the opcode's name is read as the key). -/
theorem C72_p2pk_false (E : Env) (hs : E.net.Supported) (o : TxOut) (key : Bytes) (hk : key.length = 33 ∨ key.length = 65)
    (ho : o.outputScript = p2pkScript key) : isStandardOutputType E o = .error .valueError := by
  obtain ⟨-, -, -, -, -, hac, -⟩ := opName_template hs
  have ht : deserializeTokens E.net (p2pkScript key) = .ok [toHex key, pystr "OP_CHECKSIG"] := by
    unfold p2pkScript
    rw [deserializeTokens_push E.net key _ (by omega) (by omega), deserializeTokens_op E.net 0xac _ false (by decide), hac,
      deserializeTokens_nil]
    rfl
  have hcons : o.outputScript = UInt8.ofNat key.length :: (key ++ [0xac]) := by
    rw [ho, p2pkScript, minimalPush, if_pos (by omega)]; rfl
  have hne : ∀ x : UInt8, x.toNat ≠ 33 → x.toNat ≠ 65 → UInt8.ofNat key.length ≠ x := by
    rintro x h1 h2 rfl
    rcases hk with h | h <;> rw [h] at h1 h2 <;> simp at h1 h2
  rw [isStandardOutputType_other E hs o _ _ hcons (hne _ (by decide) (by decide)) (hne _ (by decide) (by decide))
    (hne _ (by decide) (by decide)), ho]
  unfold isOtherStandard
  rw [deserialize_of_tokens ht, ok_bind]
  have hsp := pySplit_of_tokens hs ht (by
    intro t h
    simp only [List.mem_cons, List.not_mem_nil, or_false] at h
    rcases h with rfl | rfl
    · exact toHex_ne_nil (by omega)
    · decide)
  simp only [hsp]
  have g1 : getItem [toHex key, pystr "OP_CHECKSIG"] (-1) = .ok (pystr "OP_CHECKSIG") := getItem_last1 [toHex key] _
  have g2 : getItem [toHex key, pystr "OP_CHECKSIG"] 1 = .ok (pystr "OP_CHECKSIG") := by unfold getItem pyIndex; simp
  have : isPubkeyScript [toHex key, pystr "OP_CHECKSIG"] = .error .valueError := by
    unfold isPubkeyScript
    rw [g1, ok_bind, if_pos ⟨rfl, rfl⟩, g2, ok_bind]
    decide
  rw [this]
  rfl

example : ∃ (o : TxOut) (key : Bytes), key.length = 33 ∧ o.outputScript = p2pkScript key :=
  ⟨⟨[], p2pkScript (List.replicate 33 2), []⟩, List.replicate 33 2, by decide, rfl⟩

/-- **C72**, the failure for data outputs: an output made by `make_op_return_output` is never of a standard type, so a transaction having
one is refused. -/
theorem C72_op_return_false (E : Env) (hs : E.net.Supported) (d : Bytes) (o : TxOut) (h : makeOpReturnOutput E d = .ok (.std o)) (t : Tx)
    (ho : o ∈ t.txOuts) : isStandardOutputType E o = .ok false ∧ checkIsStandard E t ≠ .ok true := by
  obtain ⟨hl, -, -, h2⟩ := opReturn_std h
  have ht : ∃ x, deserializeTokens E.net o.outputScript = .ok [pystr "OP_RETURN", x] ∧ x ≠ [] ∧ x ≠ pystr "OP_CHECKSIG" ∧
      x ≠ pystr "OP_CHECKMULTISIG" := by
    rw [h2]
    cases d with
    | nil => exact ⟨_, tokens_opReturn_empty hs, by decide, by decide, by decide⟩
    | cons a d =>
      refine ⟨_, tokens_opReturn hs (by simp) (by omega), toHex_ne_nil (by simp), ?_, ?_⟩ <;> intro hh <;>
        exact toHex_head (a :: d) (by rw [hh]; rfl)
  obtain ⟨x, hx, hx1, hx2, hx3⟩ := ht
  have key : isStandardOutputType E o = .ok false := by
    rw [isStandardOutputType_other E hs o _ _ h2 (by decide) (by decide) (by decide)]
    unfold isOtherStandard
    rw [deserialize_of_tokens hx, ok_bind]
    have hsp := pySplit_of_tokens hs hx (by
      intro t h
      simp only [List.mem_cons, List.not_mem_nil, or_false] at h
      rcases h with rfl | rfl
      · decide
      · exact hx1)
    simp only [hsp]
    have g1 : getItem [pystr "OP_RETURN", x] (-1) = .ok x := getItem_last1 [pystr "OP_RETURN"] x
    have : isPubkeyScript [pystr "OP_RETURN", x] = .ok false := by
      unfold isPubkeyScript
      rw [g1, ok_bind, if_neg (fun h => hx2 h.1)]
    rw [this, ok_bind, if_neg (by decide)]
    unfold isMultisigScript
    rw [g1, ok_bind, if_neg hx3]
  refine ⟨key, ?_⟩
  intro hc
  unfold checkIsStandard at hc
  simp only [bind_ok_iff] at hc
  obtain ⟨b, hb, hc⟩ := hc
  cases b with
  | false => simp at hc
  | true =>
    have := (outputsOk_true.1 hb o ho).1
    rw [key] at this
    cases this

example : ∃ (E : Env) (d : Bytes) (o : TxOut), E.net.Supported ∧ makeOpReturnOutput E d = .ok (.std o) :=
  ⟨toyEnv, [], _, btc_supported, rfl⟩

/-- **C72**: `is_op_return` recognises an output of `make_op_return_output` exactly when it carries at most 34 bytes (the length
compared with 80 is that of the text). -/
theorem C72_is_op_return_false (E : Env) (hs : E.net.Supported) (d : Bytes) (o : TxOut) (h : makeOpReturnOutput E d = .ok (.std o)) :
    isOpReturn E.net o = .ok (decide (d.length ≤ 34)) := by
  have htext := C67_text E hs d o h
  have hv : le2i o.value = 0 := by rw [le2i_eq]; exact (opReturn_std h).2.2.1
  unfold isOpReturn
  rw [htext, ok_bind]
  simp only [hv, if_true]
  by_cases hd : d = []
  · subst hd
    rfl
  · rw [if_neg hd]
    have hd1 : 1 ≤ d.length := by cases d <;> simp_all
    have hsp : pySplit (pystr "OP_RETURN " ++ toHex d) = [pystr "OP_RETURN", toHex d] := by
      have := pySplit_joinSpace_filter [pystr "OP_RETURN", toHex d] (by
        intro t ht
        simp only [List.mem_cons, List.not_mem_nil, or_false] at ht
        rcases ht with rfl | rfl
        · decide
        · intro c hc
          exact toHex_noSpace d c hc)
      rw [List.filter_eq_self.2] at this
      · exact this
      · intro t ht
        simp only [List.mem_cons, List.not_mem_nil, or_false] at ht
        rcases ht with rfl | rfl
        · decide
        · simp [toHex_ne_nil hd1]
    rw [hsp, getItem_zero, ok_bind]
    have : (pystr "OP_RETURN " ++ toHex d).length = 10 + 2 * d.length := by
      rw [List.length_append, toHex_length]; rfl
    rw [this]
    congr 1
    by_cases h34 : d.length ≤ 34
    · simp [h34]; omega
    · simp [h34]; omega

example : ∃ (d : Bytes) (o : TxOut), d.length = 40 ∧ makeOpReturnOutput toyEnv d = .ok (.std o) :=
  ⟨List.replicate 40 7, _, by decide, (((C67_accepts toyEnv rfl (List.replicate 40 7)).1 (by decide)).choose_spec).1⟩

theorem getItem_getLast {α : Type} {l : List α} {c : α} (h : getItem l (-1) = .ok c) : l.getLast? = some c := by
  rcases List.eq_nil_or_concat l with rfl | ⟨l', x, rfl⟩
  · cases h
  · rw [List.concat_eq_append, getItem_last1] at h
    cases h
    simp

theorem intOfChar_ok {c : Char} {m : Nat} (h : intOfChar c = .ok m) : c = Char.ofNat (48 + m) := by
  unfold intOfChar at h
  split at h
  · rename_i hc
    cases h
    have h1 : 48 ≤ c.toNat := hc.1
    have : 48 + (c.toNat - '0'.toNat) = c.toNat := by show 48 + (c.toNat - 48) = _; omega
    rw [this, Char.ofNat_toNat]
  · cases h

/-- **C72**, soundness of what is accepted: at most one output; it has one of the address shapes (with any bytes in place of the last
opcodes) or reads as `x keys… OP_n OP_CHECKMULTISIG` with n ≤ 3 keys of 33 or 65 bytes, x ending in a digit of at most n; and it is
worth 550 or starts with the bytes of P2WPKH. -/
theorem C72_sound (E : Env) (hs : E.net.Supported) (t : Tx) (h : checkIsStandard E t = .ok true) :
    t.txOuts.length ≤ 1 ∧ ∀ o ∈ t.txOuts, (550 ≤ leValue o.value ∨ o.outputScript.take 2 = [0x00, 0x14]) ∧
      ((∃ x y, x.length = 20 ∧ y.length = 2 ∧ o.outputScript = [0x76, 0xa9, 0x14] ++ x ++ y) ∨
       (∃ x y, x.length = 20 ∧ y.length = 1 ∧ o.outputScript = [0xa9, 0x14] ++ x ++ y) ∨
       (∃ x, x.length = 20 ∧ o.outputScript = p2wpkhScript x) ∨ (∃ x, x.length = 32 ∧ o.outputScript = p2wshScript x) ∨
       ∃ text x keys n, deserialize E.net o.outputScript = .ok text ∧
         pySplit text = x :: (keys ++ [n, pystr "OP_CHECKMULTISIG"]) ∧
         (n = pystr "OP_1" ∨ n = pystr "OP_2" ∨ n = pystr "OP_3") ∧ 1 ≤ keys.length ∧ keys.length ≤ 3 ∧ n = opNum keys.length ∧
         (∃ m ≤ keys.length, x.getLast? = some (Char.ofNat (48 + m))) ∧
         (∀ k ∈ keys, ∃ b, fromHex k = .ok b ∧ (b.length = 33 ∨ b.length = 65))) := by
  have hlen : t.txOuts.length ≤ 1 := by
    rcases Nat.lt_or_ge 1 t.txOuts.length with h' | h'
    · exact absurd h (C72_false E t h').1
    · exact h'
  refine ⟨hlen, ?_⟩
  intro o ho
  unfold checkIsStandard at h
  simp only [bind_ok_iff] at h
  obtain ⟨b, hb, h⟩ := h
  cases b with
  | false => simp at h
  | true =>
    obtain ⟨h1, h2⟩ := outputsOk_true.1 hb o ho
    constructor
    · by_cases hv : 550 ≤ leValue o.value
      · exact .inl hv
      · right
        have : le2i o.value < 550 := by rw [le2i_eq]; omega
        by_contra hc
        exact h2 ⟨this, by simpa [slice] using hc⟩
    · unfold isStandardOutputType at h1
      cases hf : fromOutputScript E o.outputScript with
      | ok a =>
        rcases C31_from E hs _ _ _ hf with h | h | h | h
        · exact .inl h
        · exact .inr (.inl h)
        · exact .inr (.inr (.inl h))
        · exact .inr (.inr (.inr (.inl h)))
      | error e =>
        right; right; right; right
        rw [hf] at h1
        have h1 : isOtherStandard E.net o.outputScript = .ok true := by
          by_cases he : e = .valueError
          · subst he; exact h1
          · simp [tryCatchPy, Except.map, he] at h1
        unfold isOtherStandard at h1
        simp only [bind_ok_iff] at h1
        obtain ⟨text, ht, p, hp, h1⟩ := h1
        rw [isPubkeyScript_false hp] at h1
        simp only [Bool.false_eq_true, if_false] at h1
        unfold isMultisigScript at h1
        simp only [bind_ok_iff] at h1
        obtain ⟨last, hl, h1⟩ := h1
        split at h1
        case isFalse => cases h1
        rename_i hlast
        simp only [bind_ok_iff] at h1
        obtain ⟨n, hn, h1⟩ := h1
        split at h1
        case isFalse => cases h1
        rename_i hn3
        unfold multisigOk at h1
        simp only [bind_ok_iff] at h1
        obtain ⟨c, hc, np, hnp, f, hfst, dd, hdd, ns, hns, h1⟩ := h1
        split at h1
        · cases h1
        rename_i hcond
        have hdig : ns ≤ np := by omega
        have hcond : (pySplit text).length = np + 3 := by omega
        have hnp' : 1 ≤ np ∧ np ≤ 3 ∧ n = opNum np := by
          rcases hn3 with rfl | rfl | rfl
          · rw [show getItem (pystr "OP_1") (-1) = .ok '1' by decide] at hc; cases hc
            rw [show intOfChar '1' = .ok 1 by decide] at hnp; cases hnp; decide
          · rw [show getItem (pystr "OP_2") (-1) = .ok '2' by decide] at hc; cases hc
            rw [show intOfChar '2' = .ok 2 by decide] at hnp; cases hnp; decide
          · rw [show getItem (pystr "OP_3") (-1) = .ok '3' by decide] at hc; cases hc
            rw [show intOfChar '3' = .ok 3 by decide] at hnp; cases hnp; decide
        -- the token list
        generalize hsp : pySplit text = sp at hl hn hfst hcond h1
        obtain ⟨a, l, rfl⟩ : ∃ a l, sp = a :: l := by cases sp <;> simp_all
        obtain ⟨l', y, z, rfl⟩ : ∃ l' y z, l = l' ++ [y, z] := by
          have h2 : 2 ≤ l.length := by simp at hcond; omega
          refine ⟨l.take (l.length - 2), l[l.length - 2], l[l.length - 1], ?_⟩
          conv => lhs; rw [← List.take_append_drop (l.length - 2) l]
          congr 1
          rw [List.drop_eq_getElem_cons (by omega), List.drop_eq_getElem_cons (by omega), List.drop_eq_nil_of_le (by omega)]
          congr 2
          congr 1
          omega
        have e1 : getItem (a :: (l' ++ [y, z])) (-1) = .ok z := by
          simpa using getItem_last1 (a :: (l' ++ [y])) z
        have e2 : getItem (a :: (l' ++ [y, z])) (-2) = .ok y := getItem_last2 (a :: l') y z
        rw [e1] at hl
        rw [e2] at hn
        cases hl
        cases hn
        have e3 : dropLastN ((a :: (l' ++ [n, last])).drop 1) 2 = l' := by simp [dropLastN]
        rw [e3, pubkeysOk_true] at h1
        have hl' : l'.length = np := by simp at hcond; omega
        rw [getItem_zero] at hfst
        cases hfst
        exact ⟨text, f, l', n, ht, by rw [hsp, hlast], hn3, by omega, by omega, by rw [hl']; exact hnp'.2.2,
          ⟨ns, by omega, by rw [getItem_getLast hdd, intOfChar_ok hns]⟩, h1⟩

/-- **C72**: the last bytes of a P2PKH output are not looked at, and 11-of-1 multisig passes for 1-of-1. -/
theorem C72_template_false (E : Env) (hs : E.net.Supported) (hH : E.H.LengthOK) :
    (∀ h y v w : Bytes, h.length = 20 → y.length = 2 → isStandardOutputType E ⟨v, [0x76, 0xa9, 0x14] ++ h ++ y, w⟩ = .ok true) ∧
    (∀ k v w : Bytes, k.length = 33 → isStandardOutputType E ⟨v, 0x5b :: (minimalPush k ++ [0x51, 0xae]), w⟩ = .ok true) := by
  constructor
  · intro h y v w hl hy
    obtain ⟨a, ha, -⟩ := C27_p2pkh E hs hH h hl true
    refine isStandardOutputType_ok E _ (some a) ?_
    rw [← ha]
    have nf := netFacts hs
    have e1 : slice ([0x76, 0xa9, 0x14] ++ h ++ y) 3 23 = h := by
      simp [slice, hl]
    have e2 : slice (p2pkhScript h) 3 23 = h := by
      simp [slice, p2pkhScript, hl]
    have l1 : ([0x76, 0xa9, 0x14] ++ h ++ y : Bytes).length = 25 := by simp [hl, hy]
    have l2 : (p2pkhScript h).length = 25 := by simp [p2pkhScript, hl]
    have s1 : startsWith ([0x76, 0xa9, 0x14] ++ h ++ y) [0x76, 0xa9, 0x14] = true := (startsWith_iff _ _).2 ⟨h ++ y, by simp⟩
    have s2 : startsWith (p2pkhScript h) [0x76, 0xa9, 0x14] = true := (startsWith_iff _ _).2 ⟨h ++ [0x88, 0xac], by simp [p2pkhScript]⟩
    show fromOutputScript E ([0x76, 0xa9, 0x14] ++ h ++ y) = _
    unfold fromOutputScript
    simp only [l1, l2, e1, e2, s1, s2, nf.wsh, nf.wpkh]
    rfl
  · intro k v w hk
    have ht : deserializeTokens E.net (0x5b :: (minimalPush k ++ [0x51, 0xae])) =
        .ok [pystr "OP_11", toHex k, pystr "OP_1", pystr "OP_CHECKMULTISIG"] := by
      have h11 : opName E.net 0x5b = .ok (pystr "OP_11") := by
        rcases changes_cases E.net hs with ⟨h, -⟩ | ⟨h, -⟩
        · rw [opName_congr (m := bitcoinMain) h]; decide +kernel
        · rw [opName_congr (m := decredMain) h]; decide +kernel
      obtain ⟨-, -, -, -, -, -, -, hae, h1, -⟩ := opName_template hs
      rw [deserializeTokens_op E.net 0x5b _ false (by decide), h11, deserializeTokens_push E.net k _ (by omega) (by omega),
        deserializeTokens_op E.net 0x51 _ false (by decide), h1, deserializeTokens_op E.net 0xae _ false (by decide), hae,
        deserializeTokens_nil]
      rfl
    rw [isStandardOutputType_other E hs _ _ _ rfl (by decide) (by decide) (by decide)]
    unfold isOtherStandard
    show (deserialize E.net (0x5b :: (minimalPush k ++ [0x51, 0xae])) >>= _) = _
    rw [deserialize_of_tokens ht, ok_bind]
    have hsp := pySplit_of_tokens hs ht (by
      intro t h
      simp only [List.mem_cons, List.not_mem_nil, or_false] at h
      rcases h with rfl | rfl | rfl | rfl
      · decide
      · exact toHex_ne_nil (by omega)
      · decide
      · decide)
    simp only [hsp]
    have g1 : getItem [pystr "OP_11", toHex k, pystr "OP_1", pystr "OP_CHECKMULTISIG"] (-1) = .ok (pystr "OP_CHECKMULTISIG") :=
      getItem_last1 [_, _, _] _
    have g2 : getItem [pystr "OP_11", toHex k, pystr "OP_1", pystr "OP_CHECKMULTISIG"] (-2) = .ok (pystr "OP_1") := getItem_last2 [_, _] _ _
    have hp : isPubkeyScript [pystr "OP_11", toHex k, pystr "OP_1", pystr "OP_CHECKMULTISIG"] = .ok false := by
      unfold isPubkeyScript
      rw [g1, ok_bind, if_neg (by rintro ⟨h, -⟩; revert h; decide)]
    rw [hp, ok_bind, if_neg (by decide)]
    unfold isMultisigScript
    rw [g1, ok_bind, if_pos rfl, g2, ok_bind, if_pos (by decide)]
    unfold multisigOk
    rw [show getItem (pystr "OP_1") (-1) = .ok '1' by decide, ok_bind, show intOfChar '1' = .ok 1 by decide, ok_bind, getItem_zero, ok_bind,
      show getItem (pystr "OP_11") (-1) = .ok '1' by decide, ok_bind, show intOfChar '1' = .ok 1 by decide, ok_bind,
      if_neg (by simp)]
    rw [show dropLastN ([pystr "OP_11", toHex k, pystr "OP_1", pystr "OP_CHECKMULTISIG"].drop 1) 2 = [toHex k] from rfl, pubkeysOk_true]
    intro x hx
    obtain rfl : x = toHex k := by simpa using hx
    exact ⟨k, fromHex_toHex k, .inl hk⟩

example : ∃ (E : Env) (h y k : Bytes), E.net.Supported ∧ E.H.LengthOK ∧ h.length = 20 ∧ y.length = 2 ∧ y ≠ [0x88, 0xac] ∧ k.length = 33 :=
  ⟨toyEnv, List.replicate 20 1, [0xff, 0xff], List.replicate 33 2, btc_supported, toyHashes_ok, by decide, by decide, by decide, by decide⟩

/-! ### C73 -/

/-- **C73**: `check_final` is the absolute lock-time test on the little-endian value of the lock time. -/
theorem C73_decision (t : Tx) (height time : Int) :
    checkFinal t height time = true ↔
      ((leValue t.lockTime : Int) < 500000000 ∧ (leValue t.lockTime : Int) ≤ height) ∨
      (500000000 ≤ (leValue t.lockTime : Int) ∧ (leValue t.lockTime : Int) ≤ time) := by
  unfold checkFinal
  simp only [le2i_eq]
  split <;> simp <;> omega

/-- **C73** for a transaction made by the constructor with the 4 bytes of an integer as lock time. -/
theorem C73_built (E : Env) (v : Bytes) (f : Option Bytes) (ins : List TxIn) (outs : List TxOut) (ws : Option (List InputWitness))
    (lock : Int) (lt : Bytes) (hlt : i2lePadded lock 4 = .ok lt) (t : Tx) (ht : Tx.make E v f ins outs ws lt = .ok t) (height time : Int) :
    checkFinal t height time = if lock < 500000000 then decide (lock ≤ height) else decide (lock ≤ time) := by
  obtain ⟨-, rfl⟩ := Tx.make_iff.1 ht
  have hv := (i2le_iff.1 hlt).2
  rw [Bool.eq_iff_iff, C73_decision]
  simp only [txObj, hv]
  split <;> simp <;> omega

example : ∃ lt t, i2lePadded 500000001 4 = .ok lt ∧ Tx.make toyEnv [2, 0, 0, 0] none [exIn] [exOut] none lt = .ok t :=
  ⟨[1, 0x65, 0xcd, 0x1d], _, by decide, Tx.make_iff.2 ⟨by decide, rfl⟩⟩

/-- **C73**: final once, final at every later height and time. -/
theorem C73_monotone (t : Tx) (height height' time time' : Int) (h1 : height ≤ height') (h2 : time ≤ time')
    (h : checkFinal t height time = true) : checkFinal t height' time' = true := by
  rw [C73_decision] at h ⊢
  omega

example : checkFinal exTx 0 0 = true := by decide

/-- **C73**: a lock time of zero is final from the first block; a lock time is never final before its height or time. -/
theorem C73_bounds (t : Tx) (height time : Int) :
    (leValue t.lockTime = 0 → 0 ≤ height → checkFinal t height time = true) ∧
    (checkFinal t height time = true → (leValue t.lockTime : Int) ≤ height ∨ (leValue t.lockTime : Int) ≤ time) := by
  constructor
  · intro h h'; rw [C73_decision]; omega
  · intro h; rw [C73_decision] at h; omega

/-! ### C80 -/

/-- The serialization without witness, from the fields. -/
def strippedWire (t : Tx) : Bytes :=
  wireLegacy t.version (t.txIns.map fun i => wireIn i.outpoint.txId i.outpoint.index i.scriptSig i.sequence)
    (t.txOuts.map fun o => wireOut o.value o.outputScript) t.lockTime

/-- BIP141 weight. -/
def weight (t : Tx) : Nat := 3 * (strippedWire t).length + t.bytes.length

theorem noWitness_eq {E : Env} {t : Tx} (h : t.Built E) : t.noWitness = .ok (strippedWire t) := by
  have f := h.facts
  obtain ⟨-, -, -, -, -, -, h1, h2⟩ := f.args
  unfold Tx.noWitness Tx.noWitness'
  rw [VarInt.make_len h1, VarInt.make_len h2]
  simp only [ok_bind, strippedWire, wireLegacy, vector, List.length_map]
  have e1 : t.txIns.flatMap (·.bytes) = (t.txIns.map fun i => wireIn i.outpoint.txId i.outpoint.index i.scriptSig i.sequence).flatten := by
    rw [List.flatMap_def]
    congr 1
    apply List.map_congr_left
    intro i hi
    exact (f.ins i hi).wire
  have e2 : t.txOuts.flatMap (·.bytes) = (t.txOuts.map fun o => wireOut o.value o.outputScript).flatten := by
    rw [List.flatMap_def]
    congr 1
    apply List.map_congr_left
    intro o ho
    exact (f.outs o ho).eq.2.2
  rw [e1, e2]
  simp

theorem inputOk_iff (E : Env) (i : TxIn) : inputOk E i = true ↔ i.scriptSig.length ≤ 1650 ∧ ∃ text, deserialize E.net i.scriptSig = .ok text := by
  unfold inputOk
  rw [isPushOnly_eq]
  split
  · simp; omega
  · cases h : deserialize E.net i.scriptSig with
    | ok a => simp [ok_bind]; omega
    | error e => simp [error_bind]

/-- **C80**: `check_is_standard_tx` on a built transaction: the first byte of the version is 1 or 2, the weight is at most 400000, every
script_sig is at most 1650 bytes and readable; then it is `check_is_standard`, otherwise False. It raises only if `check_is_standard` does. -/
theorem C80_decision (E : Env) (t : Tx) (h : t.Built E) :
    (((t.version.head? = some 1 ∨ t.version.head? = some 2) ∧ weight t ≤ 400000 ∧
        (∀ i ∈ t.txIns, i.scriptSig.length ≤ 1650 ∧ ∃ text, deserialize E.net i.scriptSig = .ok text)) →
      checkIsStandardTx E t = checkIsStandard E t) ∧
    (¬ ((t.version.head? = some 1 ∨ t.version.head? = some 2) ∧ weight t ≤ 400000 ∧
        (∀ i ∈ t.txIns, i.scriptSig.length ≤ 1650 ∧ ∃ text, deserialize E.net i.scriptSig = .ok text)) →
      checkIsStandardTx E t = .ok false) := by
  have hv := h.facts.args.1
  obtain ⟨v0, vr, hvr⟩ : ∃ a l, t.version = a :: l := by
    cases hh : t.version with
    | nil => rw [hh] at hv; cases hv
    | cons a l => exact ⟨a, l, rfl⟩
  have hall : t.txIns.all (inputOk E) = true ↔
      ∀ i ∈ t.txIns, i.scriptSig.length ≤ 1650 ∧ ∃ text, deserialize E.net i.scriptSig = .ok text := by
    rw [List.all_eq_true]
    constructor
    · intro h i hi; exact (inputOk_iff E i).1 (h i hi)
    · intro h i hi; exact (inputOk_iff E i).2 (h i hi)
  unfold checkIsStandardTx
  rw [noWitness_eq h, hvr, getItem_zero]
  simp only [ok_bind, List.head?_cons, Option.some.injEq, ← hall]
  have hw : ((strippedWire t).length * 3 + t.bytes.length > MAX_STANDARD_TX_WEIGHT) ↔ ¬ weight t ≤ 400000 := by
    unfold weight MAX_STANDARD_TX_WEIGHT; omega
  constructor
  · rintro ⟨h1, h2, h3⟩
    rw [if_neg (fun hn => hn h1), if_neg (by rw [hw]; simpa using h2), if_pos h3]
  · intro hc
    by_cases h1 : v0 = 1 ∨ v0 = 2
    case neg => rw [if_pos h1]
    rw [if_neg (fun hn => hn h1)]
    by_cases h2 : weight t ≤ 400000
    case neg => rw [if_pos (hw.2 h2)]
    rw [if_neg (by rw [hw]; simpa using h2), if_neg (fun h3 => hc ⟨h1, h2, h3⟩)]

example : exTx.Built toyEnv ∧ (exTx.version.head? = some 1 ∨ exTx.version.head? = some 2) ∧ weight exTx ≤ 400000 :=
  ⟨exTx_built, by decide, by decide⟩

/-- **C80**, the failure: only the first byte of the version counts, so version 257 passes for version 1. -/
theorem C80_version_false : ∃ t : Tx, t.Built toyEnv ∧ leValue t.version = 257 ∧ checkIsStandardTx toyEnv t = .ok true := by
  have ho : TxOut.Built ⟨[0, 4, 0, 0, 0, 0, 0, 0], p2pkhScript (List.replicate 20 7),
      wireOut [0, 4, 0, 0, 0, 0, 0, 0] (p2pkhScript (List.replicate 20 7))⟩ :=
    ⟨_, _, TxOut.make_iff.2 ⟨by decide, by decide, rfl⟩⟩
  have hb : (txObj toyEnv [1, 1, 0, 0] none [exIn] [⟨[0, 4, 0, 0, 0, 0, 0, 0], p2pkhScript (List.replicate 20 7),
      wireOut [0, 4, 0, 0, 0, 0, 0, 0] (p2pkhScript (List.replicate 20 7))⟩] none [0, 0, 0, 0]).Built toyEnv :=
    ⟨_, _, _, _, _, _, by simpa using exIn_built, by simpa using ho, by simp, Tx.make_iff.2 ⟨by decide, rfl⟩⟩
  refine ⟨_, hb, by show leValue [1, 1, 0, 0] = 257; decide, ?_⟩
  rw [(C80_decision toyEnv _ hb).1 ⟨.inl rfl, by decide, ?_⟩]
  · exact C72_single_partial toyEnv btc_supported toyHashes_ok _ _ rfl
      (.inl ⟨List.replicate 20 7, .inl ⟨by decide, .inl rfl⟩⟩) (.inl (by decide))
  · intro i hi
    obtain rfl : i = exIn := by simpa [txObj] using hi
    exact ⟨by decide, _, rfl⟩

/-- **C80**: `check_tx_size_small` compares the length of the serialization without witness with 82. -/
theorem C80_size (E : Env) (t : Tx) (h : t.Built E) : checkTxSizeSmall t = .ok (decide (82 ≤ (strippedWire t).length)) := by
  unfold checkTxSizeSmall
  rw [noWitness_eq h]
  rfl

/-- **C80**: the weight of a transaction without witness data is four times its size. -/
theorem C80_legacy_weight (E : Env) (t : Tx) (h : t.Built E) (hf : t.flag = none) : weight t = 4 * t.bytes.length := by
  unfold weight strippedWire
  rw [← C41_wire_legacy E t h hf]
  omega

example : exLegacy.Built toyEnv ∧ exLegacy.flag = none := ⟨exLegacy_built, rfl⟩

end Verif.Props
