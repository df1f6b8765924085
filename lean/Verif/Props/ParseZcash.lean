import Verif.Lemmas.ParseZcash2
import Verif.Props.ZcashTx

/-! # C83, C84 for the Zcash classes -/

namespace Verif.Props
open Verif Spec

/-! ## C83 -/

/-- `OverwinterTx.from_bytes` on arbitrary bytes: ValueError, IndexError or NotImplementedError, or a transaction that the constructor
builds, at most one byte longer than what was read. -/
theorem C83_overwinter (E : Env) (hn : E.net.Supported) (b : Bytes) :
    (∀ e, OverwinterTx.fromBytes E b = .error e → e = .valueError ∨ e = .indexError ∨ e = .notImplementedError) ∧
    ∀ t, OverwinterTx.fromBytes E b = .ok t → t.Built E ∧ OverwinterTx.make E t.txIns t.txOuts t.lockTime t.expiryHeight t.txJoinsplits
      t.joinsplitPubkey t.joinsplitSig = .ok t ∧ t.bytes.length ≤ b.length + 1 := by
  refine ⟨fun e h => OverwinterTx.fromBytes_error hn h, fun t h => ?_⟩
  obtain ⟨h1, h2⟩ := OverwinterTx.fromBytes_ok hn h
  exact ⟨h1, OverwinterTx.make_iff.2 ⟨h1.facts.args, h1.facts.obj⟩, h2⟩

/-- `SaplingTx.from_bytes` on arbitrary bytes. -/
theorem C83_sapling (E : Env) (hn : E.net.Supported) (b : Bytes) :
    (∀ e, SaplingTx.fromBytes E b = .error e → e = .valueError ∨ e = .indexError ∨ e = .notImplementedError) ∧
    ∀ t, SaplingTx.fromBytes E b = .ok t → t.Built E ∧ SaplingTx.make E t.txIns t.txOuts t.lockTime t.expiryHeight t.valueBalance
      t.txShieldedSpends t.txShieldedOutputs t.txJoinsplits t.joinsplitPubkey t.joinsplitSig t.bindingSig = .ok t ∧ t.bytes.length ≤ b.length := by
  refine ⟨fun e h => SaplingTx.fromBytes_error hn h, fun t h => ?_⟩
  obtain ⟨h1, h2⟩ := SaplingTx.fromBytes_ok hn h
  exact ⟨h1, SaplingTx.make_iff.2 ⟨h1.facts.args, h1.facts.obj⟩, h2⟩

/-- `SproutTx.from_bytes` on arbitrary bytes: TypeError occurs as well, on bytes that begin like version 1. What is accepted has version 2. -/
theorem C83_sprout (E : Env) (hn : E.net.Supported) (b : Bytes) :
    (∀ e, SproutTx.fromBytes E b = .error e → (e = .valueError ∨ e = .indexError ∨ e = .notImplementedError) ∨
      (e = .typeError ∧ b.take 4 = [0x01, 0x00, 0x00, 0x00])) ∧
    ∀ t, SproutTx.fromBytes E b = .ok t → t.Built E ∧ t.version = [0x02, 0x00, 0x00, 0x00] ∧ SproutTx.make E t.version t.txIns t.txOuts t.lockTime
      (some t.txJoinsplits) t.joinsplitPubkey t.joinsplitSig = .ok t ∧ t.bytes.length ≤ b.length := by
  refine ⟨fun e h => SproutTx.fromBytes_error hn h, fun t h => ?_⟩
  obtain ⟨h1, h2, h3⟩ := SproutTx.fromBytes_ok hn h
  exact ⟨h1, h2, SproutTx.make_iff.2 ⟨h1.facts.args, h1.facts.obj⟩, h3⟩

/-! ## C84 -/

/-- No proper prefix of a serialized Sapling transaction is accepted (fewer than 253 outputs, or nothing shielded). -/
theorem C84_sapling (E : Env) (hn : E.net.Supported) (t : SaplingTx) (h : t.Built E) (hs : InsOutsStable E.net t.txIns t.txOuts)
    (hss : LenOK E.net t.txShieldedSpends.length)
    (hc : (t.txJoinsplits = [] ∧ t.txShieldedSpends = [] ∧ t.txShieldedOutputs = []) ∨ t.txOuts.length < 253)
    (p : Bytes) (hp : p <+: t.bytes) (hne : p ≠ t.bytes) : ∃ e, SaplingTx.fromBytes E p = .error e := by
  cases ht : SaplingTx.fromBytes E p with
  | error e => exact ⟨e, rfl⟩
  | ok t' => exact (SaplingTx.cut hn h.facts hs hss hc hp (prefix_lt hp hne) ht).elim

/-- A proper prefix of a serialized Overwinter transaction is refused, unless it ends with the expiry height. -/
theorem C84_overwinter_partial (E : Env) (hn : E.net.Supported) (t : OverwinterTx) (h : t.Built E)
    (hs : InsOutsStable E.net t.txIns t.txOuts) (hc : t.txJoinsplits = [] ∨ t.txOuts.length < 253) (p : Bytes) (hp : p <+: t.bytes)
    (hne : p ≠ t.bytes) (hx : ∀ q, p ≠ q ++ t.lockTime ++ t.expiryHeight) : ∃ e, OverwinterTx.fromBytes E p = .error e := by
  cases ht : OverwinterTx.fromBytes E p with
  | error e => exact ⟨e, rfl⟩
  | ok t' =>
    have := OverwinterTx.cut hn h.facts hs hc hp (prefix_lt hp hne) ht
    exact absurd (by rw [this]; simp only [List.append_assoc]) (hx (overHeader ++ (vector (t.txIns.map (·.bytes)) ++
      vector (t.txOuts.map (·.bytes)))))

/-- Every Overwinter transaction with an input has a proper prefix that is accepted: the joinsplits are gone. -/
theorem C84_overwinter_false (E : Env) (hn : E.net.Supported) (t : OverwinterTx) (h : t.Built E)
    (hs : InsOutsStable E.net t.txIns t.txOuts) (hi : t.txIns ≠ []) :
    ∃ p t', p <+: t.bytes ∧ p ≠ t.bytes ∧ OverwinterTx.fromBytes E p = .ok t' ∧ t'.txJoinsplits = [] ∧ t'.txOuts = t.txOuts ∧
      t'.txIns.map (·.bytes) = t.txIns.map (·.bytes) ∧ t'.lockTime = t.lockTime ∧ t'.expiryHeight = t.expiryHeight := by
  have hf := h.facts
  have a := hf.args
  obtain ⟨ins', -, hb, h1⟩ := OverwinterTx.fromBytes_start hn hf.ins hf.outs hs a.li a.lo a.lt4 a.ex4 []
  have h1 := h1 _ rfl
  have hsz := a.size
  rw [wireOverwinter_eq] at hsz
  have hjp : 0 < (wireJoinsplits (t.txJoinsplits.map (·.bytes)) (t.joinsplitPubkey.getD []) (t.joinsplitSig.getD [])).length := by
    unfold wireJoinsplits vector
    have := compactSize_pos (t.txJoinsplits.map (·.bytes)).length
    simp only [List.length_append] at this ⊢
    omega
  have hlen : ins'.length = t.txIns.length := by simpa using congrArg List.length hb
  have hm := OverwinterTx.make_iff (E := E) (ins := ins') (outs := t.txOuts) (lt := t.lockTime) (ex := t.expiryHeight) (js := []) (pk := none)
    (sig := none) |>.2 ⟨⟨a.zc, a.ow, a.lt4, a.ex4, a.expiry, by simp, by simp, by
      rintro ⟨-, e⟩; rw [e] at hlen; exact hi (List.length_eq_zero_iff.1 hlen.symm), by rw [hlen]; exact a.li, a.lo, by
      rw [wireOverwinter_eq, hb]
      simp only [List.length_append] at hsz ⊢
      have : (wireJoinsplits (([] : List SproutJoinsplit).map (·.bytes)) ((none : Option Bytes).getD []) ((none : Option Bytes).getD [])).length = 1 :=
        rfl
      omega⟩, rfl⟩
  unfold OverwinterTx.parseJs at h1
  rw [if_pos (by simp), ok_bind] at h1
  refine ⟨_, _, ?_, ?_, h1.trans hm, rfl, rfl, hb, rfl, rfl⟩
  · rw [hf.bytes, wireOverwinter_eq]
    simp only [List.append_nil, List.prefix_append_right_inj]
    exact List.prefix_append _ _
  · intro e
    have l := congrArg List.length e
    rw [hf.bytes, wireOverwinter_eq] at l
    simp only [List.length_append, List.length_nil] at l
    omega

/-- A proper prefix of a serialized Sprout transaction is refused, unless exactly the joinsplit signature is missing. -/
theorem C84_sprout_partial (E : Env) (hn : E.net.Supported) (t : SproutTx) (h : t.Built E) (hs : InsOutsStable E.net t.txIns t.txOuts)
    (p : Bytes) (hp : p <+: t.bytes) (hne : p ≠ t.bytes) (hx : ∀ s, t.joinsplitSig = some s → s.length = 64 → t.bytes ≠ p ++ s) :
    ∃ e, SproutTx.fromBytes E p = .error e := by
  cases ht : SproutTx.fromBytes E p with
  | error e => exact ⟨e, rfl⟩
  | ok t' =>
    obtain ⟨hv, hl, s, hs1, hs2⟩ := SproutTx.cut hn h.facts hs hp (prefix_lt hp hne) ht
    have hb := h.facts.bytes
    rw [hv, sproutBytes_v2 rfl, hs1, Option.getD_some, ← List.append_assoc, ← List.append_assoc] at hb
    obtain ⟨r, hr⟩ := hp
    rw [← hr] at hb
    have hlr : r.length = s.length := by
      have := congrArg List.length hr
      rw [List.length_append] at this
      omega
    have := List.append_inj_right' hb hlr
    exact absurd (by rw [← hr, this]) (hx s hs1 hs2)

/-- Every version 2 transaction with a joinsplit signature has a proper prefix that is accepted: the signature is gone. -/
theorem C84_sprout_false (E : Env) (hn : E.net.Supported) (t : SproutTx) (h : t.Built E) (hs : InsOutsStable E.net t.txIns t.txOuts)
    (hv : t.version = [0x02, 0x00, 0x00, 0x00]) (s : Bytes) (hsig : t.joinsplitSig = some s) (h64 : s.length = 64) :
    ∃ p t', t.bytes = p ++ s ∧ SproutTx.fromBytes E p = .ok t' ∧ t'.joinsplitSig = some [] ∧ t'.txJoinsplits = t.txJoinsplits ∧
      t'.joinsplitPubkey = t.joinsplitPubkey ∧ t'.txOuts = t.txOuts ∧ t'.txIns.map (·.bytes) = t.txIns.map (·.bytes) := by
  have hf := h.facts
  have a := hf.args
  rcases a.ver with ⟨x, -⟩ | ⟨-, ⟨l, hjs, hl5⟩, ⟨pk, x1, k1⟩, -⟩
  · rw [hv] at x; cases x
  cases hjs
  have hsz := a.size
  rw [hv, sproutBytes_v2 rfl, hsig] at hsz
  have hm := SproutTx.make_iff (E := E) (v := t.version) (ins := t.txIns) (outs := t.txOuts) (lt := t.lockTime) (js := some t.txJoinsplits)
    (pk := t.joinsplitPubkey) (sig := some []) |>.2 ⟨⟨a.zc, a.sp, a.v4, a.lt4, .inr ⟨hv, ⟨_, rfl, hl5⟩, ⟨pk, x1, k1⟩, ⟨[], rfl, .inl rfl⟩⟩, a.li, a.lo, by
      rw [hv, sproutBytes_v2 rfl]
      simp only [List.length_append, Option.getD_some, List.length_nil] at hsz ⊢
      omega⟩, rfl⟩
  simp only [Option.getD_some] at hm
  have hB : (sproutObj E t.version t.txIns t.txOuts t.lockTime t.txJoinsplits t.joinsplitPubkey (some [])).Built E :=
    ⟨_, _, _, _, some t.txJoinsplits, _, _, hf.ins, hf.outs, hf.js, hm⟩
  have e2 : (sproutObj E t.version t.txIns t.txOuts t.lockTime t.txJoinsplits t.joinsplitPubkey (some [])).joinsplitSig = some [] := by
    simp only [sproutObj]; rw [if_pos hv]
  obtain ⟨ins', -, hb, h1⟩ := SproutTx.fromBytes_bytes hn hB.facts hs hv e2 [] (.inr ⟨rfl, rfl⟩)
  rw [List.append_nil] at h1
  refine ⟨_, _, ?_, h1, ?_, rfl, ?_, rfl, hb⟩
  · rw [hf.bytes]
    simp only [sproutObj]
    rw [hv, sproutBytes_v2 rfl, sproutBytes_v2 rfl, hsig]
    simp
  · simp only [sproutObj]; rw [if_pos hv]; exact if_pos hv
  · simp only [sproutObj]; rw [if_pos hv]; exact if_pos hv

example : ∃ p t', exSprout2.bytes = p ++ List.replicate 64 8 ∧ SproutTx.fromBytes sproutEnv p = .ok t' := by
  obtain ⟨p, t', h1, h2, -⟩ := C84_sprout_false sproutEnv zcash_supported.1 exSprout2 exSprout2_built (ex_stable _ (n := 2) (by omega)) rfl _ rfl
    List.length_replicate
  exact ⟨p, t', h1, h2⟩

example : ∃ p t', p <+: (exOver 3).bytes ∧ p ≠ (exOver 3).bytes ∧ OverwinterTx.fromBytes overEnv p = .ok t' := by
  obtain ⟨p, t', h1, h2, h3, -⟩ := C84_overwinter_false overEnv zcash_supported.2.1 (exOver 3) (exOver_built (by omega)) (ex_stable _ (by omega))
    (List.cons_ne_nil _ _)
  exact ⟨p, t', h1, h2, h3⟩

theorem sapling_nonempty {E : Env} {t : SaplingTx} (h : t.Built E) : 0 < t.bytes.length := by
  rw [h.facts.bytes, saplingBytes_wire, List.length_append]
  have : saplingHeader.length = 8 := rfl
  omega

example : ∃ e, SaplingTx.fromBytes sapEnv (exSap 3).bytes.dropLast = .error e :=
  C84_sapling sapEnv zcash_supported.2.2 (exSap 3) (exSap_built (by omega)) (ex_stable _ (by omega))
    (.inr (by show ¬ (253 ≤ [exSpend].length ∧ _); rw [List.length_singleton]; omega))
    (.inr (by show (List.replicate 3 exOut).length < 253; rw [List.length_replicate]; omega)) _
    (List.dropLast_prefix _) (by
      intro e
      have l := congrArg List.length e
      have := sapling_nonempty (exSap_built (n := 3) (by omega))
      generalize (exSap 3).bytes = x at *
      rw [List.length_dropLast] at l
      omega)

end Verif.Props
