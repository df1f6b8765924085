import Verif.Model.ExampleScripts
import Verif.Props.DynCopy2
import Verif.Lemmas.ParseZcash2
import Verif.Props.ZcashTx

/-! # C102: examples/sapling_tx_parsing.py -/

namespace Verif.Props

open Verif Spec Dyn ExampleScripts

theorem getItem_first {α : Type} {l : List α} (h : l ≠ []) : ∃ a, getItem l 0 = .ok a := by
  cases l with
  | nil => exact absurd rfl h
  | cons a l => exact ⟨a, by simp [getItem, pyIndex]⟩

/-- C102 fails: examples/sapling_tx_parsing.py never gets past its line 19, whatever transaction is filled in; with one that has a shielded output and
a joinsplit it stops there with a ValueError, since the expiry height is given as a number. -/
theorem C102_parsing_false (E : Env) (hn : E.net.Supported) (txHex : PyStr) (n : Int) :
    (∀ v, saplingParsing E txHex (.int n) ≠ .ok v) ∧
    ∀ b t, fromHex txHex = .ok b → SaplingTx.fromBytes E b = .ok t → t.txShieldedOutputs ≠ [] → t.txJoinsplits ≠ [] →
      saplingParsing E txHex (.int n) = .error .valueError := by
  have key : ∀ b t, SaplingTx.fromBytes E b = .ok t →
      copySapling E (embSap t) .none .none .none (.int n) .none .none .none .none .none .none .none = .error .valueError := by
    intro b t ht
    have f := (SaplingTx.fromBytes_ok hn ht).1.facts.args
    show Dyn.saplingTx E _ _ (.bytes t.lockTime) (.int n) _ _ _ _ _ _ _ = _
    unfold Dyn.saplingTx zcashGate
    rw [validate_bytes, validateBytes_eq, if_pos f.lt4]
    simp only [check_bind, if_pos f.zc, if_pos f.sp, ok_bind]
    rfl
  constructor
  · intro v h
    unfold saplingParsing at h
    simp only [bind_ok_iff] at h
    obtain ⟨b, _, t, ht, _, _, _, _, h⟩ := h
    rw [key b t ht] at h
    cases h
  · intro b t hb ht h1 h2
    unfold saplingParsing
    obtain ⟨o, ho⟩ := getItem_first h1
    obtain ⟨j, hj⟩ := getItem_first h2
    rw [hb, ok_bind, ht, ok_bind, key b t ht, ho, hj]
    rfl

/-- C102, what the program does if it is given four bytes instead (of at most 499999999): a transaction that differs from the one read in its expiry
height only, and so in its id. -/
theorem C102_parsing_partial (E : Env) (hn : E.net.Supported) (txHex : PyStr) (b : Bytes) (t : SaplingTx) (hb : fromHex txHex = .ok b)
    (ht : SaplingTx.fromBytes E b = .ok t) (h1 : t.txShieldedOutputs ≠ []) (h2 : t.txJoinsplits ≠ []) (e : Bytes) (he : e.length = 4)
    (hv : leValue e ≤ 499999999) :
    ∃ t', saplingParsing E txHex (.bytes e) = .ok (embSap t') ∧ t'.Built E ∧
      t' = { t with expiryHeight := e, bytes := t'.bytes, txIdLe := E.hash256 t'.bytes, txId := (E.hash256 t'.bytes).reverse } ∧
      ∃ p q, t.bytes = p ++ t.expiryHeight ++ q ∧ t'.bytes = p ++ e ++ q := by
  have bt := (SaplingTx.fromBytes_ok hn ht).1
  have f := bt.facts
  have bytes : ∀ x, saplingBytes t.txIns t.txOuts t.lockTime x t.valueBalance t.txShieldedSpends t.txShieldedOutputs t.txJoinsplits t.joinsplitPubkey
      t.joinsplitSig t.bindingSig =
        ([0x04, 0x00, 0x00, 0x80] ++ [0x85, 0x20, 0x2f, 0x89] ++ vector (t.txIns.map (·.bytes)) ++ vector (t.txOuts.map (·.bytes)) ++ t.lockTime) ++ x ++
        (t.valueBalance ++ vector (t.txShieldedSpends.map (·.bytes)) ++ vector (t.txShieldedOutputs.map (·.bytes)) ++
          wireJoinsplits (t.txJoinsplits.map (·.bytes)) (t.joinsplitPubkey.getD []) (t.joinsplitSig.getD []) ++
          (if t.txShieldedSpends.map (·.bytes) = [] ∧ t.txShieldedOutputs.map (·.bytes) = [] then [] else t.bindingSig.getD [])) := by
    intro x
    unfold saplingBytes wireSapling
    simp only [List.append_assoc]
  have a := f.args
  have args : SaplingArgs E t.txIns t.txOuts t.lockTime e t.valueBalance t.txShieldedSpends t.txShieldedOutputs t.txJoinsplits t.joinsplitPubkey t.joinsplitSig
      t.bindingSig := by
    refine { a with ex4 := he, expiry := ?_, size := ?_ }
    · rw [show le2i e = leValue e from leToNat_eq_leValue e]; exact hv
    · have := a.size
      have l4 := a.ex4
      rw [bytes] at this ⊢
      simp only [List.length_append] at this ⊢
      omega
  have hm := SaplingTx.make_iff.2 ⟨args, rfl⟩
  refine ⟨_, ?_, ⟨_, _, _, _, _, _, _, _, _, _, _, f.ins, f.outs, f.ss, f.so, f.js, hm⟩, ?_, _, _, f.bytes.trans (bytes _), bytes _⟩
  · obtain ⟨o, ho⟩ := getItem_first h1
    obtain ⟨j, hj⟩ := getItem_first h2
    have hc := (C118_typed E).2.2.2.1 t none none none (some e) none none none none none none none .none .none .none .none .none rfl rfl rfl rfl rfl
    have hc' : t.copy E (expiryHeight := some e) = _ := hm
    rw [hc'] at hc
    unfold saplingParsing
    rw [hb, ok_bind, ht, ok_bind, ho, hj]
    exact hc
  · obtain ⟨txIns, txOuts, lt, ex, vb, ss, so, js, pk, sig, bs, hd, gid, hs, pi, idl, id, by'⟩ := t
    have ob := f.obj
    simp only [saplingObj, SaplingTx.mk.injEq] at ob ⊢
    obtain ⟨_, _, _, _, _, _, _, _, o1, o2, o3, o4, o5, o6, o7, _⟩ := ob
    exact ⟨trivial, trivial, trivial, trivial, trivial, trivial, trivial, trivial, o1.symm, o2.symm, o3.symm, o4.symm, o5.symm, o6.symm, o7.symm, trivial, trivial, trivial⟩

/-- A transaction that can be filled in. -/
example : sapEnv.net.Supported ∧ ∃ t, fromHex (toHex (exSap 1).bytes) = .ok (exSap 1).bytes ∧ SaplingTx.fromBytes sapEnv (exSap 1).bytes = .ok t ∧
    t.txShieldedOutputs ≠ [] ∧ t.txJoinsplits ≠ [] ∧ leValue [77, 0, 0, 0] ≤ 499999999 := by
  obtain ⟨t', h, -, -, -, -, -, h1, -, -, h2, -⟩ := C58_roundtrip_partial sapEnv zcash_supported.2.2 (exSap 1) (exSap_built (by omega)) (ex_stable _ (by omega))
    (by rw [show (exSap 1).txShieldedSpends = [exSpend] from rfl]; decide) (.inr (by rw [show (exSap 1).txOuts = List.replicate 1 exOut from rfl]; decide)) []
  refine ⟨zcash_supported.2.2, t', fromHex_toHex _, by simpa using h, ?_, ?_, by decide⟩
  · rw [h1]; exact List.cons_ne_nil _ _
  · rw [h2]; exact List.cons_ne_nil _ _

end Verif.Props
