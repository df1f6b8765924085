import Verif.Model.DynAddr
import Verif.Props.DynSafe
import Verif.Props.DynBuilder2
import Verif.Props.FromScript
import Verif.Props.BlakeText

/-! Property C129: addresses and scripts from arguments of any type. -/

namespace Verif.Props
open Verif Spec

/-! ### from_output_script -/

theorem found_some {v : Val} {b : Bytes} (h : v.content = some b) (n : Nat) (p : Bytes) :
    v.found n p = .ok (if b.length = n ∧ startsWith b p then some b else none) := by
  cases v <;> simp [Val.content] at h <;> subst h <;> simp only [Val.found, Val.len, ok_bind]
  all_goals
    split
    · next h => simp only [h, true_and]
    · next h => simp only [h, false_and, if_false]

theorem orElse_some {x : Py (Option PyStr)} {rest : Py (Option PyStr)} : Dyn.orElse (x.map some) rest = tryCatchPy x (· = .typeError) rest := by
  cases x with
  | ok a => rfl
  | error e => simp only [Dyn.orElse, Except.map, tryCatchPy, decide_eq_true_eq]

/-- The value counts as the given truth value. -/
def Truth (v : Val) (t : Bool) : Prop := t = true ↔ ¬ IsFalse v

theorem Truth.eq {v : Val} {t : Bool} (h : Truth v t) : v.truthy = t := by
  rw [Bool.eq_iff_iff, truthy_iff]
  exact h.symm

/-- C129: `from_output_script` reads bytes, bytearrays and all objects of the library alike, as the bytes that they hold. -/
theorem C129_from_script (E : Env) (v c : Val) (b : Bytes) (t : Bool) (hb : Byteslike v b) (ht : Truth c t) :
    Dyn.fromOutputScript E v c = Addresses.fromOutputScript E b t := by
  unfold Dyn.fromOutputScript Addresses.fromOutputScript
  simp only [found_some hb, ok_bind, ht.eq]
  have key : ∀ (p : Prop) [Decidable p] (f : Bytes → Py (Option PyStr)) (rest : Py (Option PyStr)),
      Dyn.orElse (match (if p then some b else none) with | some b => (f b).map some | none => .ok none) rest = if p then tryCatchPy (f b) (· = .typeError) rest else rest := by
    intro p _ f rest
    by_cases hp : p
    · simp only [if_pos hp]; exact orElse_some
    · simp only [if_neg hp]; rfl
  refine (key _ _ _).trans ?_
  congr 2
  all_goals
    refine (key _ _ _).trans ?_
    congr 2
    all_goals
      by_cases h3 : b.length = 25 ∧ startsWith b [0x76, 0xa9, 0x14]
      · simp only [if_pos h3]
      · simp only [if_neg h3]
        by_cases h4 : b.length = 23 ∧ startsWith b [0xa9, 0x14]
        · simp only [if_pos h4]
        · simp only [if_neg h4]

/-- C129: of anything else `from_output_script` makes no address. It raises a TypeError for None, numbers and texts of 25 or 23 characters, an AttributeError for lists and tuples of
the lengths of the standard scripts, and a ValueError otherwise. -/
theorem C129_from_script_refused (E : Env) (hs : E.net.Supported) (v c : Val) :
    (v = .none ∨ (∃ n, v = .int n) → Dyn.fromOutputScript E v c = .error .typeError) ∧
    (∀ s, v = .str s → Dyn.fromOutputScript E v c = .error (if s.length = 25 ∨ s.length = 23 then .typeError else .valueError)) ∧
    (∀ l, IsSeq v l → Dyn.fromOutputScript E v c =
      .error (if l.length = 34 ∨ l.length = 22 ∨ l.length = 25 ∨ l.length = 23 then .attributeError else .valueError)) := by
  have F := Addresses.netFacts hs
  have h1 : E.net.p2wshPrefix.length + 32 = 34 := by rw [F.wsh]; rfl
  have h2 : E.net.p2wpkhPrefix.length + 20 = 22 := by rw [F.wpkh]; rfl
  refine ⟨?_, ?_, ?_⟩
  · rintro (rfl | ⟨n, rfl⟩) <;> rfl
  · rintro s rfl
    have key : ∀ n p, Val.found (.str s) n p = if s.length = n then .error .typeError else .ok none := fun _ _ => rfl
    unfold Dyn.fromOutputScript
    simp only [key, h1, h2]
    by_cases a : s.length = 34
    · simp [a, Dyn.orElse, ok_bind, error_bind]
    by_cases b : s.length = 22
    · simp [b, Dyn.orElse, ok_bind, error_bind]
    by_cases d : s.length = 25
    · simp [d, Dyn.orElse, ok_bind, error_bind]
    by_cases e : s.length = 23
    · simp [e, Dyn.orElse, ok_bind, error_bind]
    simp [a, b, d, e, Dyn.orElse, ok_bind]
  · intro l hl
    have key : ∀ n p, Val.found v n p = if l.length = n then .error .attributeError else .ok none := by
      intro n p; rcases hl with rfl | rfl <;> rfl
    unfold Dyn.fromOutputScript
    simp only [key, h1, h2]
    by_cases a : l.length = 34
    · simp [a, Dyn.orElse, error_bind]
    by_cases b : l.length = 22
    · simp [b, Dyn.orElse, ok_bind, error_bind]
    by_cases d : l.length = 25
    · simp [d, Dyn.orElse, ok_bind, error_bind]
    by_cases e : l.length = 23
    · simp [e, Dyn.orElse, ok_bind, error_bind]
    simp [a, b, d, e, Dyn.orElse, ok_bind]

example : Truth .none false ∧ Truth (.int 2) true ∧ Truth (.str (pystr "no")) true ∧ Byteslike (.bytearray [1]) [1] ∧
    Dyn.fromOutputScript toyEnv (.list (List.replicate 25 (.int 0))) .none = .error .attributeError :=
  ⟨by simp [Truth, IsFalse], by simp [Truth, IsFalse, Val.content], by simp [Truth, IsFalse, Val.content], rfl, rfl⟩

/-- Bytes of no standard length have no address. -/
theorem fromOutputScript_length {E : Env} (hs : E.net.Supported) {b : Bytes} {t : Bool} (h : b.length ≠ 34 ∧ b.length ≠ 22 ∧ b.length ≠ 25 ∧ b.length ≠ 23) :
    Addresses.fromOutputScript E b t = .error .valueError := by
  have F := Addresses.netFacts hs
  have h1 : E.net.p2wshPrefix.length + 32 = 34 := by rw [F.wsh]; rfl
  have h2 : E.net.p2wpkhPrefix.length + 20 = 22 := by rw [F.wpkh]; rfl
  unfold Addresses.fromOutputScript
  simp [h1, h2, h.1, h.2.1, h.2.2.1, h.2.2.2]

/-- C129: outpoints and inputs, made in any way on any networks, are refused. -/
theorem C129_inputs_refused {S : Network → Prop} (E : Env) (hs : E.net.Supported) (v c : Val) (hv : MadeOn S E v)
    (hc : v.isInstance .outpoint = true ∨ v.isInstance .txIn = true) : Dyn.fromOutputScript E v c = .error .valueError := by
  have ht : Truth c c.truthy := truthy_iff c
  rcases hc with hc | hc
  · cases v <;> simp [Val.isInstance] at hc
    next k attrs x =>
    subst hc
    obtain ⟨n, -, a, b, h⟩ := made_on hv
    obtain ⟨y, z, -, -, ly, lz, e⟩ := ((C114_outpoint _ _).1 _).1 h
    rw [C129_from_script E (.obj .outpoint attrs x) c x _ rfl ht]
    refine fromOutputScript_length hs ?_
    cases e
    rw [List.length_append]; omega
  · obtain ⟨w, ⟨wf, -⟩, hw⟩ := C114_safe_in E v hv hc
    rw [C129_from_script E _ c _ _ hw ht]
    refine fromOutputScript_length hs ?_
    have := wf.txId; have := wf.index; have := wf.sequence
    simp only [WireIn.bytes, wireIn, List.length_append]
    have : 1 ≤ (varBytes w.script).length := by
      unfold varBytes
      rw [List.length_append]
      have : 1 ≤ (compactSize w.script.length).length := compactSize_pos _
      omega
    omega

/-- C129: given the output instead of its script, `from_output_script` refuses an output that pays to a key hash unless the value begins with the bytes 0x00 0x20; then it reads the
output as a witness script. -/
theorem C129_output (E : Env) (hs : E.net.Supported) (a b c v : Val) (x h : Bytes) (t : Bool) (ha : Byteslike a x) (hb : Byteslike b (p2pkhScript h)) (hh : h.length = 20)
    (hv : Dyn.txOut a b = .ok v) (ht : Truth c t) :
    (x.take 2 ≠ [0x00, 0x20] → Dyn.fromOutputScript E v c = .error .valueError) ∧
    (x.take 2 = [0x00, 0x20] → Dyn.fromOutputScript E v c = Addresses.fromOutputScript E (p2wshScript (x.drop 2 ++ 0x19 :: p2pkhScript h)) t) := by
  obtain ⟨x', y', hx', hy', lx, -, rfl⟩ := ((C114_txOut a b).1 v).1 hv
  obtain rfl : x' = x := Option.some.inj (hx'.symm.trans ha)
  obtain rfl : y' = p2pkhScript h := Option.some.inj (hy'.symm.trans hb)
  have hl : (p2pkhScript h).length = 25 := by simp [p2pkhScript, hh]
  have hw : wireOut x' (p2pkhScript h) = x' ++ 0x19 :: p2pkhScript h := by
    unfold wireOut varBytes
    rw [hl]
    rfl
  have F := Addresses.netFacts hs
  have h1 : E.net.p2wshPrefix.length + 32 = 34 := by rw [F.wsh]; rfl
  have h2 : E.net.p2wpkhPrefix.length + 20 = 22 := by rw [F.wpkh]; rfl
  rw [C129_from_script E (.obj .txOut [a, b] _) c _ _ rfl ht, hw]
  have h34 : (x' ++ 0x19 :: p2pkhScript h).length = 34 := by rw [List.length_append, List.length_cons, hl, lx]
  constructor
  · intro hne
    unfold Addresses.fromOutputScript
    have hst : ¬ startsWith (x' ++ 0x19 :: p2pkhScript h) E.net.p2wshPrefix = true := by
      rw [F.wsh]
      intro hst
      apply hne
      match x', lx with
      | p :: q :: r, _ =>
        simp [startsWith] at hst
        simp [hst]
    simp only [h1, h2, h34, hst]
    simp
  · intro he
    congr 1
    unfold p2wshScript
    rw [← he, ← List.append_assoc, List.take_append_drop]

/-- C129 fails for outputs: on every network with witness addresses, for every key hash and every value that begins with the bytes 0x00 0x20 (8192 for one), `from_output_script` of
the output gives an address, and it does not pay to the script of the output. -/
theorem C129_output_false (E : Env) (hs : E.net.Supported) (hH : E.H.LengthOK) (hw : E.net.segwit = true) (a b c v : Val) (x h : Bytes)
    (ha : Byteslike a ([0x00, 0x20] ++ x)) (hb : Byteslike b (p2pkhScript h)) (hh : h.length = 20) (hv : Dyn.txOut a b = .ok v) :
    ∃ s, Dyn.fromOutputScript E v c = .ok (some s) ∧ Addresses.toOutputScript E s ≠ .ok (p2pkhScript h) := by
  have ht : Truth c c.truthy := truthy_iff c
  obtain ⟨x', y', hx', hy', lx, -, -⟩ := ((C114_txOut a b).1 v).1 hv
  obtain rfl : x' = [0x00, 0x20] ++ x := Option.some.inj (hx'.symm.trans ha)
  have hl : (p2pkhScript h).length = 25 := by simp [p2pkhScript, hh]
  have e := (C129_output E hs a b c v _ h _ ha hb hh hv ht).2 rfl
  have lx' : x.length = 6 := by simpa using lx
  have := (C85_exact E hs hH (p2wshScript (x ++ 0x19 :: p2pkhScript h)) c.truthy).1 (x ++ 0x19 :: p2pkhScript h)
    (by rw [List.length_append, List.length_cons, hl, lx']) rfl
  obtain ⟨s, k1, k2⟩ := this.1 hw
  refine ⟨s, e.trans k1, ?_⟩
  rcases k2 with k | ⟨-, -, k⟩
  · rw [k]
    intro hc
    have hc := Except.ok.inj hc
    simp [p2wshScript, p2pkhScript] at hc
  · rw [k]; intro hc; cases hc

example : ∃ v, Dyn.txOut (.bytes [0x00, 0x20, 0, 0, 0, 0, 0, 0]) (.bytearray (p2pkhScript (List.replicate 20 7))) = .ok v ∧
    Dyn.fromOutputScript toyEnv v (.int 1) = .ok (some (pystr "bc1qqqqqqqqqqqvhd2g5qurswpc8qurswpc8qurswpc8qurswpc83zkqzu2p8x")) := ⟨_, rfl, by decide +kernel⟩

end Verif.Props
