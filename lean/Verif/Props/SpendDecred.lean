import Verif.Spec.SpendDecred
import Verif.Props.SpendZcash
import Verif.Props.Decred

/-! # C108: what is signed with the digests of `DecredTx` is valid

As C104, for pay to public key hash. -/

namespace Verif.Props

open Verif Spec Addresses Builder Examples ExampleScripts

attribute [local irreducible] blake256

/-- The rules of Decred, with any signature scheme. -/
def dcrRules (E : Env) (verify : Bytes → Bytes → Bytes → Bool) : DcrRules := ⟨blake256, E.hash160, verify⟩

/-- The fields of a transaction. -/
def dcrFields (t : DecredTx) : DcrTx :=
  ⟨t.version, t.txIns.map fun i => ⟨i.outpoint.txId, i.outpoint.index, i.outpoint.tree, i.sequence⟩,
    t.txOuts.map fun o => ⟨o.value, o.version, o.outputScript⟩, t.lockTime, t.expiry,
    t.txWitnesses.map fun w => ⟨w.value, w.height, w.index, w.scriptSig⟩⟩

theorem dcrFields_sig (t : DecredTx) : (dcrFields t).sig = t.sig := by
  simp [DcrTx.sig, DecredTx.sig, dcrFields, Function.comp_def]

theorem dcrFields_bytes {net : Network} {t : DecredTx} (h : t.Built net) : (dcrFields t).bytes = t.bytes := by
  rw [(C63_serialize net t h).1]
  unfold DcrTx.bytes
  simp only [dcrFields, List.map_map, Function.comp_def]
  congr 1
  apply List.map_congr_left
  intro w hw
  rw [(h.facts.wits w hw).script.1]

theorem dcrFields_wf {net : Network} {t : DecredTx} (h : t.Built net) (hw : t.txWitnesses.length = t.txIns.length) : (dcrFields t).WF := by
  have f := h.facts
  refine ⟨f.args.v4, f.args.lt4, f.args.ex4, ⟨?_, ?_, ?_⟩, ⟨?_, ?_, ?_⟩, ⟨by simpa [dcrFields] using hw, ?_⟩⟩
  · simpa [dcrFields] using f.args.ins0
  · simpa [dcrFields] using f.args.li
  · simp only [dcrFields, List.mem_map]
    rintro _ ⟨x, hx, rfl⟩
    obtain ⟨o, s, ho, hm⟩ := f.ins x hx
    obtain ⟨-, -, h2, rfl⟩ := DecredTxIn.make_iff.1 hm
    exact ⟨ho.eq.1, ho.eq.2.1, ho.eq.2.2.1, h2⟩
  · simpa [dcrFields] using f.args.outs0
  · simpa [dcrFields] using f.args.lo
  · simp only [dcrFields, List.mem_map]
    rintro _ ⟨x, hx, rfl⟩
    have e := (f.outs x hx).eq
    exact ⟨e.1, e.2.1, e.2.2.1⟩
  · simp only [dcrFields, List.mem_map]
    rintro _ ⟨x, hx, rfl⟩
    have e := (f.wits x hx).eq
    exact ⟨e.1, e.2.1, e.2.2.1, (f.wits x hx).script.2.2⟩

/-- The script sig of the template, for any world. -/
theorem spends_p2pkh_sig (w : World) {h : Bytes} (hl : h.length = 20) {sig key : Bytes} (h1 : 1 ≤ sig.length ∧ sig.length ≤ 520)
    (h2 : 1 ≤ key.length ∧ key.length ≤ 520) :
    spends w (minimalPush sig ++ minimalPush key) [] (p2pkhScript h) = true ↔ w.hash160 key = h ∧ w.checkSig false (p2pkhScript h) sig key = true := by
  have l1 := minimalPush_length sig
  have l2 := minimalPush_length key
  have := (eval_pushes w false _ [sig, key] (by simpa using ⟨h1, h2⟩) (by simp) (show (minimalPush sig ++ minimalPush key).length ≤ 10000 by
    rw [List.length_append]; omega)).1
  rw [spends_p2pkh w hl, this]
  simp only [List.reverse_cons, List.reverse_nil, List.nil_append, List.cons_append, Option.some.injEq, List.cons.injEq, true_and]
  constructor
  · rintro ⟨_, _, _, ⟨rfl, rfl, -⟩, h, h'⟩
    exact ⟨h, h'⟩
  · rintro ⟨h, h'⟩
    exact ⟨_, _, _, ⟨rfl, rfl, rfl⟩, h, h'⟩

/-- `y` is `x` with another script. -/
def DSigns (net : Network) (x y : DecredInputWitness) : Prop :=
  ∃ stack redeem, x.copy net (stackScript := some stack) (redeemScript := some redeem) = .ok y

/-- Input `i` can be given the script sig `ss`, and then it spends the output exactly if `P`: whatever script sigs the other inputs are given, the copy
with the new witnesses has the bytes of a well-formed transaction, whose input is valid iff `P`; it is refused exactly if it has more than 100000
bytes. -/
def DSpends (E : Env) (verify : Bytes → Bytes → Bytes → Bool) (t : DecredTx) (i : Nat) (ss script : Bytes) (P : Prop) : Prop :=
  (∃ x y, t.txWitnesses[i]? = some x ∧ x.copy E.net (stackScript := some ss) (redeemScript := some []) = .ok y ∧ y.scriptSig = ss) ∧
  ∀ signed y, List.Forall₂ (DSigns E.net) t.txWitnesses signed → signed[i]? = some y → y.scriptSig = ss →
    ∃ w : DcrTx, (do let t' ← t.copy E.net (txWitnesses := some signed); .ok t'.bytes) =
        (if w.bytes.length ≤ 100000 then Except.ok w.bytes else Except.error PyErr.valueError) ∧
      w.sig = t.sig ∧ w.wits.map (·.script) = signed.map (·.scriptSig) ∧
      (w.bytes.length ≤ 100000 → w.WF ∧ (w.validInput (dcrRules E verify) i script = true ↔ P))

/-- Which signatures are good, whatever the library's digest. -/
theorem dcr_core (E : Env) (hs : E.net.Supported) (hH : E.H.LengthOK) (verify : Bytes → Bytes → Bytes → Bool) (pubkey : Bytes) (t : DecredTx)
    (h : t.Built E.net) (hw : t.txWitnesses.length = t.txIns.length) (i : Nat) (hi : i < t.txIns.length) (ty : UInt8)
    (ho : baseType ty.toNat = 3 → i < t.txOuts.length) (sig key : Bytes) (h1 : 1 ≤ sig.length ∧ sig.length ≤ 519) (h2 : 1 ≤ key.length ∧ key.length ≤ 520) :
    ∃ ss, serialize E.net (p2pkhScriptSig (toHex (sig ++ [ty])) (toHex key)) = .ok ss ∧
      DSpends E verify t i ss (p2pkhScript (E.hash160 pubkey))
        (E.hash160 key = E.hash160 pubkey ∧ verify key (dcrSighash blake256 t.sig i (p2pkhScript (E.hash160 pubkey)) ty.toNat) sig = true) := by
  have hsgl : (sig ++ [ty]).length = sig.length + 1 := by simp
  have hss := C88_p2pkh_sig E.net hs (sig ++ [ty]) key ⟨by omega, by omega⟩ ⟨h2.1, by omega⟩
  have l1 := minimalPush_length (sig ++ [ty])
  have l2 := minimalPush_length key
  have f := h.facts
  have hwi := List.getElem?_eq_getElem (show i < t.txWitnesses.length by omega)
  refine ⟨_, hss, ⟨?_, fun signed y hsg hy hys => ?_⟩⟩
  · have e := (f.wits _ (List.mem_of_getElem? hwi)).eq
    exact ⟨_, _, hwi, DecredInputWitness.make_iff.2 ⟨f.args.net, e.1, e.2.1, e.2.2.1, by
      simp only [Option.getD_some, List.length_append, List.length_nil]; omega, rfl⟩, by simp⟩
  · have hb : ∀ y ∈ signed, y.Built E.net := by
      intro y hy
      obtain ⟨j, hj⟩ := List.getElem?_of_mem hy
      obtain ⟨x, -, st, rd, hc⟩ := forall₂_get hsg hj
      exact ⟨_, _, _, _, _, hc⟩
    have hm := DecredTx.make_eq f.args (ws' := signed) (by rw [← hsg.length_eq]; exact f.args.lw)
    have hmb : (dcrFull t.version (t.txIns.map (·.bytes)) (t.txOuts.map (·.bytes)) t.lockTime t.expiry (signed.map (·.bytes))) =
        (dcrFields (decredObj t.version t.txIns t.txOuts t.lockTime t.expiry signed)).bytes := by
      unfold DcrTx.bytes
      simp only [dcrFields, decredObj, List.map_map, Function.comp_def]
      have e1 : t.txIns.map (·.bytes) = t.txIns.map fun i => dcrIn i.outpoint.txId i.outpoint.index i.outpoint.tree i.sequence :=
        List.map_congr_left fun x hx => (f.ins x hx).wire
      have e2 : t.txOuts.map (·.bytes) = t.txOuts.map fun o => dcrOut o.value o.version o.outputScript :=
        List.map_congr_left fun x hx => (f.outs x hx).wire
      have e3 : signed.map (·.bytes) = signed.map fun w => dcrWitness w.value w.height w.index w.scriptSig :=
        List.map_congr_left fun x hx => (hb x hx).wire
      rw [e1, e2, e3]
    refine ⟨dcrFields (decredObj t.version t.txIns t.txOuts t.lockTime t.expiry signed), ?_, dcrFields_sig _, by simp [dcrFields, decredObj], fun hl => ?_⟩
    · show (do let t' ← DecredTx.make E.net t.version t.txIns t.txOuts t.lockTime t.expiry signed; .ok t'.bytes) = _
      rw [hm, hmb]
      split
      · show Except.ok _ = _
        rw [← hmb]
        rfl
      · rfl
    · rw [hmb, if_pos hl] at hm
      have hb' : (decredObj t.version t.txIns t.txOuts t.lockTime t.expiry signed).Built E.net := ⟨_, _, _, _, _, _, f.ins, f.outs, hb, hm⟩
      refine ⟨dcrFields_wf hb' (hsg.length_eq.symm.trans hw), ?_⟩
      have ei : (dcrFields (decredObj t.version t.txIns t.txOuts t.lockTime t.expiry signed)).ins[i]? =
          some ⟨t.txIns[i].outpoint.txId, t.txIns[i].outpoint.index, t.txIns[i].outpoint.tree, t.txIns[i].sequence⟩ := by
        simp [dcrFields, decredObj, List.getElem?_eq_getElem hi]
      have ew : (dcrFields (decredObj t.version t.txIns t.txOuts t.lockTime t.expiry signed)).wits[i]? =
          some ⟨y.value, y.height, y.index, y.scriptSig⟩ := by
        simp [dcrFields, decredObj, hy]
      unfold DcrTx.validInput
      rw [ei, ew]
      simp only [hys]
      rw [spends_p2pkh_sig _ (E.hash160_length hH pubkey) ⟨by omega, by omega⟩ h2]
      have hc : (dcrRules E verify).checkSig (dcrFields (decredObj t.version t.txIns t.txOuts t.lockTime t.expiry signed)) i
          (p2pkhScript (E.hash160 pubkey)) (sig ++ [ty]) key =
          verify key (dcrSighash blake256 t.sig i (p2pkhScript (E.hash160 pubkey)) ty.toNat) sig := by
        unfold DcrRules.checkSig
        have hb : (baseType ty.toNat == 3 && decide ((dcrFields (decredObj t.version t.txIns t.txOuts t.lockTime t.expiry signed)).outs.length ≤ i)) = false := by
          cases hc : baseType ty.toNat == 3 with
          | false => rfl
          | true =>
            have := ho (by simpa using hc)
            simp [dcrFields, decredObj]
            omega
        rw [dcrFields_sig]
        simp only [List.getLast?_concat, List.dropLast_concat, hb, Bool.not_false, Bool.true_and]
        rfl
      show E.hash160 key = _ ∧ (dcrRules E verify).checkSig _ i _ _ _ = true ↔ _
      rw [hc]

/-- C108: signing input `i` of a Decred transaction whose output pays to `pubkey`. `sighash_all` on the output's script gives a digest `d`; the script
sig of the library's template, put into the witness, spends the output exactly if the key has the hash that the output names and the signature is good
for `d`. -/
theorem C108_p2pkh (E : Env) (hs : E.net.Supported) (hH : E.H.LengthOK) (verify : Bytes → Bytes → Bytes → Bool) (pubkey : Bytes) (t : DecredTx)
    (h : t.Built E.net) (hw : t.txWitnesses.length = t.txIns.length) (i : Nat) (hi : i < t.txIns.length)
    (hsz : DecredTx.signedSize t (t.txIns.map (·.bytes)) (t.txOuts.map (·.bytes)) i (p2pkhScript (E.hash160 pubkey)) ≤ 100000) :
    ∃ s d, makeP2pkhOutputScript E pubkey = .ok s ∧ t.sighashAll E.net i (some s) false = .ok d ∧
      ∀ sig key : Bytes, 1 ≤ sig.length ∧ sig.length ≤ 519 → 1 ≤ key.length ∧ key.length ≤ 520 →
        ∃ ss, serialize E.net (p2pkhScriptSig (toHex (sig ++ [1])) (toHex key)) = .ok ss ∧
          DSpends E verify t i ss s (E.hash160 key = E.hash160 pubkey ∧ verify key d sig = true) := by
  refine ⟨_, _, (C29_templates E hs pubkey [] [] rfl).1, C64_all E.net t h hw i i (pyIndex_nat hi) (some _) hsz, fun sig key h1 h2 => ?_⟩
  exact dcr_core E hs hH verify pubkey t h hw i hi 1 (fun e => absurd e (by decide)) sig key h1 h2

/-- C108 with ANYONECANPAY, for a transaction with one input. The full statement — for any number of inputs — fails: `C108_false`. -/
theorem C108_acp_partial (E : Env) (hs : E.net.Supported) (hH : E.H.LengthOK) (verify : Bytes → Bytes → Bytes → Bool) (pubkey : Bytes) (t : DecredTx)
    (h : t.Built E.net) (hw : t.txWitnesses.length = 1) (hi : t.txIns.length = 1)
    (hsz : DecredTx.signedSize t (t.txIns.map (·.bytes)) (t.txOuts.map (·.bytes)) 0 (p2pkhScript (E.hash160 pubkey)) ≤ 100000) :
    ∃ s d, makeP2pkhOutputScript E pubkey = .ok s ∧ t.sighashAll E.net 0 (some s) true = .ok d ∧
      ∀ sig key : Bytes, 1 ≤ sig.length ∧ sig.length ≤ 519 → 1 ≤ key.length ∧ key.length ≤ 520 →
        ∃ ss, serialize E.net (p2pkhScriptSig (toHex (sig ++ [0x81])) (toHex key)) = .ok ss ∧
          DSpends E verify t 0 ss s (E.hash160 key = E.hash160 pubkey ∧ verify key d sig = true) := by
  refine ⟨_, _, (C29_templates E hs pubkey [] [] rfl).1, C64_acp_partial E.net t h hw hi (some _) hsz, fun sig key h1 h2 => ?_⟩
  exact dcr_core E hs hH verify pubkey t h (hw.trans hi.symm) 0 (by omega) 0x81 (fun e => absurd e (by decide)) sig key h1 h2

/-- C108 with SINGLE, for the last input, if the outputs before the one at its index have version 0. The full statement — for every input that has an
output of the same index — fails: `C108_false`. -/
theorem C108_single_partial (E : Env) (hs : E.net.Supported) (hH : E.H.LengthOK) (verify : Bytes → Bytes → Bytes → Bool) (pubkey : Bytes) (t : DecredTx)
    (h : t.Built E.net) (hw : t.txWitnesses.length = t.txIns.length) (i : Nat) (hi : t.txIns.length = i + 1) (ho : i < t.txOuts.length)
    (hv : ∀ o ∈ t.txOuts.take i, o.version = [0, 0])
    (hsz : DecredTx.signedSize t (t.txIns.map (·.bytes)) (t.txOuts.map (·.bytes)) i (p2pkhScript (E.hash160 pubkey)) ≤ 100000)
    (hsz' : DecredTx.signedSize t (dcrSigIns t.sig i 3) (dcrSigOuts t.sig i 3) i (p2pkhScript (E.hash160 pubkey)) ≤ 100000) :
    ∃ s d, makeP2pkhOutputScript E pubkey = .ok s ∧ t.sighashSingle E.net i (some s) false = .ok d ∧
      ∀ sig key : Bytes, 1 ≤ sig.length ∧ sig.length ≤ 519 → 1 ≤ key.length ∧ key.length ≤ 520 →
        ∃ ss, serialize E.net (p2pkhScriptSig (toHex (sig ++ [3])) (toHex key)) = .ok ss ∧
          DSpends E verify t i ss s (E.hash160 key = E.hash160 pubkey ∧ verify key d sig = true) := by
  refine ⟨_, _, (C29_templates E hs pubkey [] [] rfl).1, C64_single_partial E.net t h i hw hi ho hv (some _) hsz hsz', fun sig key h1 h2 => ?_⟩
  exact dcr_core E hs hH verify pubkey t h hw i (by omega) 3 (fun _ => ho) sig key h1 h2

/-- Decred's main network. -/
def dcrEnv : Env := ⟨decredMain, toyHashes⟩

theorem dcrEnv_ok : dcrEnv.net.Supported ∧ dcrEnv.H.LengthOK := ⟨by unfold Network.Supported; decide +kernel, toyHashes_ok⟩

/-- C108, violated: with ANYONECANPAY, and with SINGLE, there is a transaction with two inputs for which the library returns a digest `d`, but for every
signature scheme a signature spends the output exactly if it is good for another digest. -/
theorem C108_false : ∃ (t : DecredTx) (pubkey s d d' e e' : Bytes), t.Built dcrEnv.net ∧ t.txWitnesses.length = t.txIns.length ∧
    makeP2pkhOutputScript dcrEnv pubkey = .ok s ∧
    t.sighashAll dcrEnv.net 0 (some s) true = .ok d ∧ d ≠ d' ∧ t.sighashSingle dcrEnv.net 0 (some s) false = .ok e ∧ e ≠ e' ∧
    ∀ (verify : Bytes → Bytes → Bytes → Bool) (sig key : Bytes), 1 ≤ sig.length ∧ sig.length ≤ 519 → 1 ≤ key.length ∧ key.length ≤ 520 →
      (∃ ss, serialize dcrEnv.net (p2pkhScriptSig (toHex (sig ++ [0x81])) (toHex key)) = .ok ss ∧
        DSpends dcrEnv verify t 0 ss s (dcrEnv.hash160 key = dcrEnv.hash160 pubkey ∧ verify key d' sig = true)) ∧
      (∃ ss, serialize dcrEnv.net (p2pkhScriptSig (toHex (sig ++ [3])) (toHex key)) = .ok ss ∧
        DSpends dcrEnv verify t 0 ss s (dcrEnv.hash160 key = dcrEnv.hash160 pubkey ∧ verify key e' sig = true)) := by
  obtain ⟨d, h1, h2⟩ : ∃ d, (exDTx 2 1).sighashAll decredMain 0 (some (p2pkhScript (dcrEnv.hash160 [2, 3]))) true = .ok d ∧
    d ≠ dcrSighash blake256 (exDTx 2 1).sig 0 (p2pkhScript (dcrEnv.hash160 [2, 3])) 0x81 := ok_ne (by decide +kernel)
  obtain ⟨e, h3, h4⟩ : ∃ d, (exDTx 2 1).sighashSingle decredMain 0 (some (p2pkhScript (dcrEnv.hash160 [2, 3]))) false = .ok d ∧
    d ≠ dcrSighash blake256 (exDTx 2 1).sig 0 (p2pkhScript (dcrEnv.hash160 [2, 3])) 3 := ok_ne (by decide +kernel)
  have hb := exDTx_built (n := 2) (m := 1) (by decide) (by decide)
  refine ⟨exDTx 2 1, [2, 3], _, d, _, e, _, hb, rfl, (C29_templates dcrEnv dcrEnv_ok.1 _ [] [] rfl).1, h1, h2, h3, h4, fun verify sig key k1 k2 => ⟨?_, ?_⟩⟩
  · exact dcr_core dcrEnv dcrEnv_ok.1 dcrEnv_ok.2 verify [2, 3] _ hb rfl 0 (by decide) 0x81 (by decide) sig key k1 k2
  · exact dcr_core dcrEnv dcrEnv_ok.1 dcrEnv_ok.2 verify [2, 3] _ hb rfl 0 (by decide) 3 (by decide) sig key k1 k2

example : (exDTx 2 2).Built dcrEnv.net ∧ (exDTx 2 2).txWitnesses.length = (exDTx 2 2).txIns.length ∧ 0 < (exDTx 2 2).txIns.length ∧
    (exDTx 2 2).txIns.length = 1 + 1 ∧ 1 < (exDTx 2 2).txOuts.length ∧ (∀ o ∈ (exDTx 2 2).txOuts.take 1, o.version = [0, 0]) ∧
    (∀ i < 2, DecredTx.signedSize (exDTx 2 2) ((exDTx 2 2).txIns.map (·.bytes)) ((exDTx 2 2).txOuts.map (·.bytes)) i (List.replicate 25 0) ≤ 100000) ∧
    DecredTx.signedSize (exDTx 2 2) (dcrSigIns (exDTx 2 2).sig 1 3) (dcrSigOuts (exDTx 2 2).sig 1 3) 1 (List.replicate 25 0) ≤ 100000 :=
  ⟨exDTx_built (by decide) (by decide), rfl, by decide, rfl, by decide, by decide, by decide +kernel, by decide +kernel⟩

example : (p2pkhScript (dcrEnv.hash160 [2, 3])).length = 25 ∧ (exDTx 1 1).Built dcrEnv.net ∧ (exDTx 1 1).txWitnesses.length = 1 ∧
    DecredTx.signedSize (exDTx 1 1) ((exDTx 1 1).txIns.map (·.bytes)) ((exDTx 1 1).txOuts.map (·.bytes)) 0 (p2pkhScript (dcrEnv.hash160 [2, 3])) ≤
      100000 :=
  ⟨by decide +kernel, exDTx_built (by decide) (by decide), rfl, by decide +kernel⟩

/-- The signed witnesses that `DSpends` speaks of exist. -/
example : ∃ y z, List.Forall₂ (DSigns dcrEnv.net) (exDTx 2 2).txWitnesses [y, z] ∧ y.scriptSig = [1, 2] ∧ z.scriptSig = [1, 3] :=
  ⟨⟨exDWit.value, exDWit.height, exDWit.index, 2, [1, 2], [], [1, 2], dcrWitness exDWit.value exDWit.height exDWit.index [1, 2]⟩,
    ⟨exDWit.value, exDWit.height, exDWit.index, 2, [1], [3], [1, 3], dcrWitness exDWit.value exDWit.height exDWit.index [1, 3]⟩,
    .cons ⟨[1, 2], [], by decide⟩ (.cons ⟨[1], [3], by decide⟩ .nil), rfl, rfl⟩

end Verif.Props
