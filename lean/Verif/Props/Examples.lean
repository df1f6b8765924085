import Verif.Model.Examples
import Verif.Props.Script
import Verif.Props.Builder

/-! C88: the script templates of script/examples.py. -/

namespace Verif.Props

open Verif Spec Addresses Builder Examples

/-- A token and its bytes. -/
def TokOK (net : Network) (p : PyStr × Bytes) : Prop :=
  p.1 ≠ [] ∧ (∀ c ∈ p.1, isPySpace c = false) ∧ serializeToken net p.1 = .ok p.2

theorem serialize_toks {net : Network} (ts : List (PyStr × Bytes)) (h : ∀ p ∈ ts, TokOK net p) :
    serialize net (joinSpace (ts.map (·.1))) = .ok (ts.flatMap (·.2)) := by
  unfold serialize
  rw [pySplit_joinSpace _ (fun t ht => by obtain ⟨p, hp, rfl⟩ := List.mem_map.1 ht; exact (h p hp).1)
    (fun t ht => by obtain ⟨p, hp, rfl⟩ := List.mem_map.1 ht; exact (h p hp).2.1)]
  induction ts with
  | nil => rfl
  | cons p ps ih =>
    simp only [List.map_cons, serializeTokens, (h p (by simp)).2.2, ih (fun q hq => h q (by simp [hq])), ok_bind, List.flatMap_cons]

theorem tok_hex {net : Network} (hn : net.Supported) {d : Bytes} (h1 : 1 ≤ d.length) (h2 : d.length ≤ 1000) :
    TokOK net (toHex d, minimalPush d) :=
  ⟨toHex_ne_nil h1, toHex_noSpace d, by rw [serializeToken_toHex hn, if_neg (by omega), if_pos h2]⟩

theorem tok_op {net : Network} (hn : net.Supported) {t : PyStr} {b : UInt8} (h : t ≠ [] ∧ (∀ c ∈ t, isPySpace c = false) ∧
    serializeToken bitcoinMain t = .ok [b] ∧ serializeToken decredMain t = .ok [b]) : TokOK net (t, [b]) := by
  refine ⟨h.1, h.2.1, ?_⟩
  rcases changes_cases net hn with ⟨h', -⟩ | ⟨h', -⟩
  · rw [serializeToken_congr (m := bitcoinMain) h']; exact h.2.2.1
  · rw [serializeToken_congr (m := decredMain) h']; exact h.2.2.2

theorem tok_sha {net : Network} (hn : net.Supported) : TokOK net (pystr "OP_SHA256", [if net.isDecred then 0xc0 else 0xa8]) := by
  refine ⟨show pystr "OP_SHA256" ≠ [] by decide, show ∀ c ∈ pystr "OP_SHA256", isPySpace c = false by decide, ?_⟩
  rcases changes_cases net hn with ⟨h', h''⟩ | ⟨h', h''⟩
  · rw [serializeToken_congr (m := bitcoinMain) h', h'']; decide +kernel
  · rw [serializeToken_congr (m := decredMain) h', h'']; decide +kernel

/-- Data that the serializer accepts. -/
def Data (d : Bytes) : Prop := 1 ≤ d.length ∧ d.length ≤ 1000

/-- **C88**: the 2-of-2 multisig template and its stack template. -/
theorem C88_msig (net : Network) (hn : net.Supported) (a b s t : Bytes) (ha : Data a) (hb : Data b) (hs : Data s) (ht : Data t) :
    serialize net (msigTwoTwo (toHex a) (toHex b)) = .ok ([0x52] ++ minimalPush a ++ minimalPush b ++ [0x52, 0xae]) ∧
    serialize net (msigTwoTwoStackScript (toHex s) (toHex t)) = .ok ([0x00] ++ minimalPush s ++ minimalPush t) := by
  have o0 := tok_op hn (t := pystr "OP_0") (b := 0x00) (by decide +kernel)
  have o2 := tok_op hn (t := pystr "OP_2") (b := 0x52) (by decide +kernel)
  have oc := tok_op hn (t := pystr "OP_CHECKMULTISIG") (b := 0xae) (by decide +kernel)
  constructor
  · have := serialize_toks [(pystr "OP_2", [0x52]), (toHex a, minimalPush a), (toHex b, minimalPush b), (pystr "OP_2", [0x52]),
      (pystr "OP_CHECKMULTISIG", [0xae])] (net := net) (by
        simp only [List.forall_mem_cons]
        exact ⟨o2, tok_hex hn ha.1 ha.2, tok_hex hn hb.1 hb.2, o2, oc, by simp⟩)
    simpa [joinSpace, msigTwoTwo] using this
  · have := serialize_toks [(pystr "OP_0", [0x00]), (toHex s, minimalPush s), (toHex t, minimalPush t)] (net := net) (by
        simp only [List.forall_mem_cons]
        exact ⟨o0, tok_hex hn hs.1 hs.2, tok_hex hn ht.1 ht.2, by simp⟩)
    simpa [joinSpace, msigTwoTwoStackScript] using this

/-- **C88**: the output script templates around a hash are the standard output scripts. -/
theorem C88_outputs (net : Network) (hn : net.Supported) (h k : Bytes) (hh : h.length = 20) (hk : k.length = 32) :
    serialize net (p2pkhScriptPubkey (toHex h)) = .ok (p2pkhScript h) ∧ serialize net (p2shScriptPubkey (toHex h)) = .ok (p2shScript h) ∧
    serialize net (p2w (toHex h)) = .ok (p2wpkhScript h) ∧ serialize net (p2w (toHex k)) = .ok (p2wshScript k) := by
  have o0 := tok_op hn (t := pystr "OP_0") (b := 0x00) (by decide +kernel)
  have od := tok_op hn (t := pystr "OP_DUP") (b := 0x76) (by decide +kernel)
  have oh := tok_op hn (t := pystr "OP_HASH160") (b := 0xa9) (by decide +kernel)
  have ov := tok_op hn (t := pystr "OP_EQUALVERIFY") (b := 0x88) (by decide +kernel)
  have oc := tok_op hn (t := pystr "OP_CHECKSIG") (b := 0xac) (by decide +kernel)
  have oe := tok_op hn (t := pystr "OP_EQUAL") (b := 0x87) (by decide +kernel)
  have th := tok_hex hn (d := h) (by omega) (by omega)
  have tk := tok_hex hn (d := k) (by omega) (by omega)
  have mh : minimalPush h = 0x14 :: h := by unfold minimalPush; rw [hh]; rfl
  have mk : minimalPush k = 0x20 :: k := by unfold minimalPush; rw [hk]; rfl
  rw [mh] at th
  rw [mk] at tk
  refine ⟨?_, ?_, ?_, ?_⟩
  · have := serialize_toks [(pystr "OP_DUP", [0x76]), (pystr "OP_HASH160", [0xa9]), (toHex h, 0x14 :: h), (pystr "OP_EQUALVERIFY", [0x88]),
      (pystr "OP_CHECKSIG", [0xac])] (net := net) (by
        simp only [List.forall_mem_cons]
        exact ⟨od, oh, th, ov, oc, by simp⟩)
    simpa [joinSpace, p2pkhScriptPubkey, p2pkhScript] using this
  · have := serialize_toks [(pystr "OP_HASH160", [0xa9]), (toHex h, 0x14 :: h), (pystr "OP_EQUAL", [0x87])] (net := net) (by
        simp only [List.forall_mem_cons]
        exact ⟨oh, th, oe, by simp⟩)
    simpa [joinSpace, p2shScriptPubkey, p2shScript] using this
  · have := serialize_toks [(pystr "OP_0", [0x00]), (toHex h, 0x14 :: h)] (net := net) (by
        simp only [List.forall_mem_cons]
        exact ⟨o0, th, by simp⟩)
    simpa [joinSpace, p2w, p2wpkhScript] using this
  · have := serialize_toks [(pystr "OP_0", [0x00]), (toHex k, 0x20 :: k)] (net := net) (by
        simp only [List.forall_mem_cons]
        exact ⟨o0, tk, by simp⟩)
    simpa [joinSpace, p2w, p2wshScript] using this

/-- **C88**: the script_sig template for P2PKH pushes the signature and the key. -/
theorem C88_p2pkh_sig (net : Network) (hn : net.Supported) (sig pk : Bytes) (h1 : Data sig) (h2 : Data pk) :
    serialize net (p2pkhScriptSig (toHex sig) (toHex pk)) = .ok (minimalPush sig ++ minimalPush pk) := by
  have := serialize_toks [(toHex sig, minimalPush sig), (toHex pk, minimalPush pk)] (net := net) (by
        simp only [List.forall_mem_cons]
        exact ⟨tok_hex hn h1.1 h1.2, tok_hex hn h2.1 h2.2, by simp⟩)
  simpa [joinSpace, p2pkhScriptSig] using this

/-- **C88** fails for the P2PKH template as its comment has it ("Needs one pubkey"): filled with a key of 33 or 65 bytes instead of the hash
of one, it is a script that is not the P2PKH script of any hash. -/
theorem C88_p2pkh_pubkey_false (net : Network) (hn : net.Supported) (pk : Bytes) (hp : pk.length = 33 ∨ pk.length = 65) :
    ∃ s, serialize net (p2pkhScriptPubkey (toHex pk)) = .ok s ∧ ∀ h : Bytes, h.length = 20 → s ≠ p2pkhScript h := by
  have od := tok_op hn (t := pystr "OP_DUP") (b := 0x76) (by decide +kernel)
  have oh := tok_op hn (t := pystr "OP_HASH160") (b := 0xa9) (by decide +kernel)
  have ov := tok_op hn (t := pystr "OP_EQUALVERIFY") (b := 0x88) (by decide +kernel)
  have oc := tok_op hn (t := pystr "OP_CHECKSIG") (b := 0xac) (by decide +kernel)
  have := serialize_toks [(pystr "OP_DUP", [0x76]), (pystr "OP_HASH160", [0xa9]), (toHex pk, minimalPush pk),
      (pystr "OP_EQUALVERIFY", [0x88]), (pystr "OP_CHECKSIG", [0xac])] (net := net) (by
        simp only [List.forall_mem_cons]
        exact ⟨od, oh, tok_hex hn (by omega) (by omega), ov, oc, by simp⟩)
  refine ⟨_, by simpa [joinSpace, p2pkhScriptPubkey] using this, ?_⟩
  intro h hh e
  have := congrArg List.length e
  simp only [p2pkhScript, minimalPush, List.length_append, List.length_cons, List.length_nil, hh] at this
  rw [if_pos (by omega)] at this
  simp only [List.length_cons] at this
  omega

/-- **C88**: the hash time-lock template, opcode by opcode. (OP_SHA256 is another byte on Decred.) -/
theorem C88_htlc (net : Network) (hn : net.Supported) (secretHash pkh0 timeout pkh1 : Bytes) (h1 : Data secretHash) (h2 : Data pkh0)
    (h3 : Data timeout) (h4 : Data pkh1) :
    serialize net (htlcRedeemScript (toHex secretHash) (toHex pkh0) (toHex timeout) (toHex pkh1)) =
      .ok ([0x63] ++ [if net.isDecred then 0xc0 else 0xa8] ++ minimalPush secretHash ++ [0x88, 0x76, 0xa9] ++ minimalPush pkh0 ++
        [0x67] ++ minimalPush timeout ++ [0xb1, 0x75, 0x76, 0xa9] ++ minimalPush pkh1 ++ [0x68, 0x88, 0xac]) := by
  have od := tok_op hn (t := pystr "OP_DUP") (b := 0x76) (by decide +kernel)
  have oh := tok_op hn (t := pystr "OP_HASH160") (b := 0xa9) (by decide +kernel)
  have ov := tok_op hn (t := pystr "OP_EQUALVERIFY") (b := 0x88) (by decide +kernel)
  have oc := tok_op hn (t := pystr "OP_CHECKSIG") (b := 0xac) (by decide +kernel)
  have oif := tok_op hn (t := pystr "OP_IF") (b := 0x63) (by decide +kernel)
  have oel := tok_op hn (t := pystr "OP_ELSE") (b := 0x67) (by decide +kernel)
  have oen := tok_op hn (t := pystr "OP_ENDIF") (b := 0x68) (by decide +kernel)
  have ocl := tok_op hn (t := pystr "OP_CHECKLOCKTIMEVERIFY") (b := 0xb1) (by decide +kernel)
  have odr := tok_op hn (t := pystr "OP_DROP") (b := 0x75) (by decide +kernel)
  have := serialize_toks [(pystr "OP_IF", [0x63]), (pystr "OP_SHA256", [if net.isDecred then 0xc0 else 0xa8]),
      (toHex secretHash, minimalPush secretHash), (pystr "OP_EQUALVERIFY", [0x88]), (pystr "OP_DUP", [0x76]), (pystr "OP_HASH160", [0xa9]),
      (toHex pkh0, minimalPush pkh0), (pystr "OP_ELSE", [0x67]), (toHex timeout, minimalPush timeout),
      (pystr "OP_CHECKLOCKTIMEVERIFY", [0xb1]), (pystr "OP_DROP", [0x75]), (pystr "OP_DUP", [0x76]), (pystr "OP_HASH160", [0xa9]),
      (toHex pkh1, minimalPush pkh1), (pystr "OP_ENDIF", [0x68]), (pystr "OP_EQUALVERIFY", [0x88]), (pystr "OP_CHECKSIG", [0xac])]
      (net := net) (by
        simp only [List.forall_mem_cons]
        exact ⟨oif, tok_sha hn, tok_hex hn h1.1 h1.2, ov, od, oh, tok_hex hn h2.1 h2.2, oel, tok_hex hn h3.1 h3.2, ocl, odr, od, oh,
          tok_hex hn h4.1 h4.2, oen, ov, oc, by simp⟩)
  simpa [joinSpace, htlcRedeemScript] using this

/-- **C88** fails for the two stack templates of the hash time-lock: OP_TRUE and OP_FALSE are not in the opcode table, so that whatever data
is filled in, the script is refused. -/
theorem C88_htlc_stack_false (net : Network) (hn : net.Supported) (sig pk secret : Bytes) (h1 : Data sig) (h2 : Data pk)
    (h3 : Data secret) :
    serialize net (htlcStackScriptExecute (toHex sig) (toHex pk) (toHex secret)) = .error .valueError ∧
    serialize net (htlcStackScriptRefund (toHex sig) (toHex pk)) = .error .valueError := by
  have bad : ∀ t : PyStr, serializeToken bitcoinMain t = .error .valueError → serializeToken decredMain t = .error .valueError →
      t ≠ [] → (∀ c ∈ t, isPySpace c = false) → serialize net t = .error .valueError := by
    intro t t1 t2 t3 t4
    have e : pySplit t = [t] := pySplit_token t t3 t4
    unfold serialize
    rw [e, serializeTokens]
    rcases changes_cases net hn with ⟨h', -⟩ | ⟨h', -⟩
    · rw [serializeToken_congr (m := bitcoinMain) h', t1]; rfl
    · rw [serializeToken_congr (m := decredMain) h', t2]; rfl
  have key : ∀ (x : PyStr) (b : Bytes) (t : PyStr), serialize net x = .ok b → serialize net t = .error .valueError →
      serialize net (x ++ ' ' :: t) = .error .valueError := by
    intro x b t hx ht
    rw [C12_homomorphism net x t ' ' (by decide), hx, ok_bind, ht]; rfl
  constructor
  · have := serialize_toks [(toHex sig, minimalPush sig), (toHex pk, minimalPush pk), (toHex secret, minimalPush secret)] (net := net) (by
        simp only [List.forall_mem_cons]
        exact ⟨tok_hex hn h1.1 h1.2, tok_hex hn h2.1 h2.2, tok_hex hn h3.1 h3.2, by simp⟩)
    have := key _ _ (pystr "OP_TRUE") this (bad _ (by decide +kernel) (by decide +kernel) (by decide) (by decide))
    simpa [joinSpace, htlcStackScriptExecute] using this
  · have := serialize_toks [(toHex sig, minimalPush sig), (toHex pk, minimalPush pk)] (net := net) (by
        simp only [List.forall_mem_cons]
        exact ⟨tok_hex hn h1.1 h1.2, tok_hex hn h2.1 h2.2, by simp⟩)
    have := key _ _ (pystr "OP_FALSE") this (bad _ (by decide +kernel) (by decide +kernel) (by decide) (by decide))
    simpa [joinSpace, htlcStackScriptRefund] using this

/-- **C88**: the 2-of-2 multisig end to end. The script_sig made from the two templates ends in the push of the very script whose hash the
P2SH output made from the template pays to. -/
theorem C88_msig_spend (E : Env) (hn : E.net.Supported) (a b s t : Bytes) (ha : 1 ≤ a.length ∧ a.length ≤ 75)
    (hb : 1 ≤ b.length ∧ b.length ≤ 75) (hs : Data s) (ht : Data t) :
    ∃ r, r = [0x52] ++ minimalPush a ++ minimalPush b ++ [0x52, 0xae] ∧
      makeScriptSig E (msigTwoTwoStackScript (toHex s) (toHex t)) (msigTwoTwo (toHex a) (toHex b)) =
        .ok ([0x00] ++ minimalPush s ++ minimalPush t ++ minimalPush r) ∧
      makeP2shOutputScript E (msigTwoTwo (toHex a) (toHex b)) = .ok (p2shScript (E.hash160 r)) := by
  obtain ⟨m1, m2⟩ := C88_msig E.net hn a b s t ⟨ha.1, by omega⟩ ⟨hb.1, by omega⟩ hs ht
  refine ⟨_, rfl, ?_, (C29_templates E hn [] _ _ m1).2.1⟩
  unfold makeScriptSig hexSerialize
  rw [m1]
  generalize hr : [0x52] ++ minimalPush a ++ minimalPush b ++ [0x52, 0xae] = r
  have hl : 1 ≤ r.length ∧ r.length ≤ 1000 := by
    rw [← hr]
    unfold minimalPush
    rw [if_pos ha.2, if_pos hb.2]
    simp only [List.length_append, List.length_cons, List.length_nil]
    omega
  have hx := serialize_toks [(toHex r, minimalPush r)] (net := E.net) (by simpa using tok_hex hn hl.1 hl.2)
  simp only [ok_bind]
  show serialize E.net (msigTwoTwoStackScript (toHex s) (toHex t) ++ ' ' :: toHex r) = _
  rw [C12_homomorphism E.net _ _ ' ' (by decide), m2, ok_bind]
  simp only [List.map_cons, List.map_nil, joinSpace, List.flatMap_cons, List.flatMap_nil, List.append_nil] at hx
  rw [hx, ok_bind]

example : bitcoinMain.Supported ∧ Data (List.replicate 33 2) ∧ Data [0x01] ∧
    serialize bitcoinMain (msigTwoTwo (toHex [1, 2]) (toHex [3])) = .ok [0x52, 2, 1, 2, 1, 3, 0x52, 0xae] :=
  ⟨btc_supported, ⟨by simp, by simp⟩, ⟨by simp, by simp⟩, by decide +kernel⟩

end Verif.Props
