import Verif.Props.DynSighash
import Verif.Props.DynZTwin

/-! C124: `sighash`, `sighash_all` and `sighash_single` of `OverwinterTx` and `SaplingTx` with arguments of any type, on objects that were made from
arguments of any type. -/

namespace Verif.Props
open Verif Spec

/-- The number that is written behind. -/
def zWord (n : Nat) (acp : Bool) : Nat := if acp then n ||| 128 else n

/-- What is hashed for a hash type that is neither 1 nor 3, in version 3: all outpoints and sequence numbers, but no outputs. -/
def oddPreimage143 (blake : Bytes → Bytes → Bytes) (z : ZSigTx) (acp : Bool) (inp : Option ZInput) (word : Nat) : Bytes :=
  z.header ++ z.groupId ++ (if acp then zeros32 else blake persPrevouts (z.ins.map (·.1)).flatten)
    ++ (if acp then zeros32 else blake persSequence (z.ins.map (·.2)).flatten) ++ zeros32
    ++ zHashJoinsplits blake z ++ z.lockTime ++ z.expiry ++ leBytes 4 word ++ zInputPart inp

/-- The same in version 4. -/
def oddPreimage243 (blake : Bytes → Bytes → Bytes) (z : ZSigTx) (acp : Bool) (inp : Option ZInput) (word : Nat) : Bytes :=
  z.header ++ z.groupId ++ (if acp then zeros32 else blake persPrevouts (z.ins.map (·.1)).flatten)
    ++ (if acp then zeros32 else blake persSequence (z.ins.map (·.2)).flatten) ++ zeros32
    ++ zHashJoinsplits blake z ++ zHashSpends blake z ++ zHashShieldedOutputs blake z
    ++ z.lockTime ++ z.expiry ++ z.balance ++ leBytes 4 word ++ zInputPart inp

/-! ### what both classes have in common -/

/-- The part of `sighash` that depends on the arguments. -/
def zCore (E : Env) (v ty value script index js acp : Val) (pers : Bytes) (f : Bytes → Bytes → Bytes) : Py Val := do
  check (¬ (js.truthy ∧ acp.truthy)) .valueError
  let sq ← Dyn.zHashSequence E v ty acp
  let o ← Dyn.zHashOutputs E v ty index
  let t ← Dyn.zTypeBytes ty acp
  let data ← Val.iadd (f sq o) t
  let data ← Dyn.zInputPart v value script index js data
  .ok (.bytes (E.H.blake2b pers data))

def sqPart (blake : Bytes → Bytes → Bytes) (z : ZSigTx) (n : Nat) (a : Bool) : Bytes :=
  if a = true ∨ n = 3 then zeros32 else blake persSequence (z.ins.map (·.2)).flatten

def outPart (blake : Bytes → Bytes → Bytes) (z : ZSigTx) (n j : Nat) : Bytes :=
  if n = 1 then blake persOutputs z.outs.flatten
  else if n = 3 then match z.outs[j]? with
    | some o => blake persOutputs o
    | none => zeros32
  else zeros32

theorem zcore_flags {js acp : Val} : ¬ (js.truthy = true ∧ acp.truthy = true) ↔ IsFalse js ∨ IsFalse acp := by
  rw [← truthy_false js, ← truthy_false acp]; exact Classical.not_and_iff_not_or_not

theorem zcore_sequence {E : Env} {v : Val} {w : ZTx} (h : ZView v w) (n : Nat) (acp : Val) :
    Dyn.zHashSequence E v (.int n) acp = .ok (sqPart E.H.blake2b w.zsig n acp.truthy) := by
  rw [zSequence_eq h]
  unfold sqPart
  have : ((n : Int) = 3) = (n = 3) := propext (by omega)
  simp only [this]

theorem zcore_outputs {E : Env} {v : Val} {w : ZTx} (h : ZView v w) (n : Nat) (index : Val) (o : Bytes) :
    Dyn.zHashOutputs E v (.int n) index = .ok o ↔ ∃ j, (n = 3 → ∃ x, At w.outs index j x) ∧ o = outPart E.H.blake2b w.zsig n j := by
  by_cases h1 : n = 1
  · subst h1
    rw [show ((1 : Nat) : Int) = 1 from rfl, zOutputs_all h]
    exact ⟨fun e => ⟨0, fun h => (nomatch h), (Except.ok.inj e).symm⟩, fun ⟨_, _, e⟩ => by rw [e]; rfl⟩
  · by_cases h3 : n = 3
    · subst h3
      rw [show ((3 : Nat) : Int) = 3 from rfl]
      have key : ∀ {j x}, At w.outs index j x → outPart E.H.blake2b w.zsig 3 j = E.H.blake2b persOutputs x.bytes := by
        rintro j x ⟨_, -, -, hx⟩
        have : w.zsig.outs[j]? = some x.bytes := by
          show (w.outs.map WireOut.bytes)[j]? = _
          rw [List.getElem?_map, hx]; rfl
        unfold outPart
        rw [if_neg (by decide), if_pos rfl, this]
      rcases zOutputs_single (E := E) h index with ⟨j, x, hj, e⟩ | ⟨hno, ⟨_, _, _, e⟩ | ⟨_, _, _, _, e⟩ | ⟨_, e⟩⟩
      · rw [e]
        constructor
        · intro e; exact ⟨j, fun _ => ⟨x, hj⟩, by rw [key hj]; exact (Except.ok.inj e).symm⟩
        · rintro ⟨j', hj', rfl⟩
          obtain ⟨x', hx'⟩ := hj' rfl
          obtain ⟨rfl, rfl⟩ := hj.unique hx'
          rw [key hj]
      all_goals
        rw [e]
        refine ⟨fun e => (nomatch e), ?_⟩
        rintro ⟨j', hj', rfl⟩
        obtain ⟨x', hx'⟩ := hj' rfl
        exact absurd ⟨_, _, hx'⟩ hno
    · rw [zOutputs_other (by omega) (by omega)]
      have : ∀ j, outPart E.H.blake2b w.zsig n j = zeros32 := by intro j; unfold outPart; rw [if_neg h1, if_neg h3]
      exact ⟨fun e => ⟨0, fun h => absurd h h3, by rw [this]; exact (Except.ok.inj e).symm⟩, fun ⟨_, _, e⟩ => by rw [e, this]⟩

theorem zcore_iff {E : Env} {v : Val} {w : ZTx} (h : ZView v w) (ty value script index js acp : Val) (pers : Bytes) (f : Bytes → Bytes → Bytes) (d : Val) :
    zCore E v ty value script index js acp pers f = .ok d ↔ (IsFalse js ∨ IsFalse acp) ∧ ∃ (n j : Nat) (inp : Option ZInput),
      ty = .int n ∧ n < 2 ^ 32 ∧ (n = 3 → ∃ o, At w.outs index j o) ∧ Signed w value script index js inp ∧
      d = .bytes (E.H.blake2b pers (f (sqPart E.H.blake2b w.zsig n acp.truthy) (outPart E.H.blake2b w.zsig n j) ++ leBytes 4 (zWord n acp.truthy) ++ zInputPart inp)) := by
  unfold zCore
  constructor
  · intro e
    obtain ⟨_, h1, e⟩ := (bind_ok_iff ..).1 e
    obtain ⟨sq, h2, e⟩ := (bind_ok_iff ..).1 e
    obtain ⟨o, h3, e⟩ := (bind_ok_iff ..).1 e
    obtain ⟨t, h4, e⟩ := (bind_ok_iff ..).1 e
    obtain ⟨data, h5, e⟩ := (bind_ok_iff ..).1 e
    obtain ⟨data', h6, h7⟩ := (bind_ok_iff ..).1 e
    obtain ⟨n, rfl, hn, rfl⟩ := zType_ok.1 h4
    rw [zcore_sequence h] at h2
    obtain ⟨j, hj, rfl⟩ := (zcore_outputs h _ _ _).1 h3
    cases Except.ok.inj h2
    obtain ⟨_, hb, rfl⟩ := iadd_ok.1 h5
    cases Option.some.inj hb
    refine ⟨zcore_flags.1 (check_eq_ok.1 h1), n, j, ?_⟩
    rcases zInput_cases h value script index js with ⟨inp, hs, ho⟩ | ⟨-, -, ⟨_, _, _, ho⟩ | ⟨_, ho⟩⟩
    · rw [ho] at h6
      exact ⟨inp, rfl, hn, hj, hs, by rw [← Except.ok.inj h7, ← Except.ok.inj h6]; rfl⟩
    · rw [ho] at h6; cases h6
    · rw [ho] at h6; cases h6
  · rintro ⟨hf, n, j, inp, rfl, hn, hj, hs, rfl⟩
    rw [check_eq_ok (u := ()).2 (zcore_flags.2 hf), ok_bind, zcore_sequence h, ok_bind, (zcore_outputs h _ _ _).2 ⟨j, hj, rfl⟩, ok_bind,
      zType_ok.2 ⟨n, rfl, hn, rfl⟩, ok_bind, iadd_ok.2 ⟨_, rfl, rfl⟩, ok_bind]
    rcases zInput_cases h value script index js with ⟨inp', hs', ho⟩ | ⟨hno, -⟩
    · have : inp = inp' := by
        rcases hs with ⟨h1, rfl⟩ | ⟨h1, i, x, s, a, hi, hs, ha, rfl⟩ <;> rcases hs' with ⟨h2, rfl⟩ | ⟨h2, i', x', s', a', hi', hs', ha', rfl⟩
        · rfl
        · exact absurd h2 h1
        · exact absurd h1 h2
        · obtain ⟨rfl, rfl⟩ := hi.unique hi'
          rw [Byteslike, hs] at hs'
          rw [Byteslike, ha] at ha'
          cases Option.some.inj hs'
          cases Option.some.inj ha'
          rfl
      rw [ho, ok_bind, this]; rfl
    · exact absurd ⟨_, hs⟩ hno

/-- Every way in which `sighash` refuses its arguments. -/
def ZRefused (w : ZTx) (ty value script index js acp : Val) (e : PyErr) : Prop :=
  (e = .valueError ∧ ¬ IsFalse js ∧ ¬ IsFalse acp) ∨
  (e = .notImplementedError ∧ ty = .int 3 ∧ ∃ n : Int, index = .int n ∧ n > w.outs.length) ∨
  (e = .indexError ∧ ∃ n : Int, index = .int n ∧ (ty = .int 3 ∧ (n = w.outs.length ∨ n < -w.outs.length) ∨ IsFalse js ∧ (n ≥ w.ins.length ∨ n < -w.ins.length))) ∨
  (e = .typeError ∧ (ty = .int 3 ∨ IsFalse js) ∧ ∀ n, index ≠ .int n) ∨
  (e = .typeError ∧ IsFalse js ∧ (script.content = none ∨ value.content = none)) ∨
  (e = .overflowError ∧ ∃ n : Int, ty = .int n ∧ (n < 0 ∨ n ≥ 2 ^ 32)) ∨
  ((e = .typeError ∨ e = .attributeError) ∧ ∀ n, ty ≠ .int n)

theorem pyIndex_outside {n : Int} {l : Nat} (h : pyIndex n l = none) : n ≥ l ∨ n < -l := by
  unfold pyIndex at h
  split at h
  · split at h
    · cases h
    · omega
  · split at h
    · cases h
    · omega

theorem zType_error {ty acp : Val} {e : PyErr} (h : Dyn.zTypeBytes ty acp = .error e) :
    (e = .overflowError ∧ ∃ n : Int, ty = .int n ∧ (n < 0 ∨ n ≥ 2 ^ 32)) ∨ ((e = .typeError ∨ e = .attributeError) ∧ ∀ n, ty ≠ .int n) := by
  by_cases hint : ∃ n, ty = .int n
  · obtain ⟨n, rfl⟩ := hint
    left
    have hr : n < 0 ∨ n ≥ 2 ^ 32 := by
      by_cases h0 : n < 0
      · exact .inl h0
      · by_cases h1 : n ≥ 2 ^ 32
        · exact .inr h1
        · obtain ⟨k, rfl⟩ := Int.eq_ofNat_of_zero_le (by omega : 0 ≤ n)
          rw [zType_ok.2 ⟨k, rfl, by omega, rfl⟩] at h
          cases h
    refine ⟨?_, n, rfl, hr⟩
    have key : ∀ m : Int, (Val.int m).toLe 4 = .error e → e = .overflowError := by
      intro m hm
      rcases toLe_error.1 hm with ⟨h1, -⟩ | ⟨-, _, _, _, h2⟩ | ⟨-, h2, -⟩
      · exact h1
      · cases h2
      · exact absurd rfl (h2 m)
    unfold Dyn.zTypeBytes at h
    by_cases ha : acp.truthy = true
    · simp only [if_pos ha] at h
      cases n with
      | ofNat k =>
        have e : (Val.int (.ofNat k)).orInt SIGHASH_ANYONECANPAY = .ok (.int ((k ||| 128 : Nat) : Int)) := rfl
        rw [e, ok_bind] at h
        exact key _ h
      | negSucc k =>
        have e : (Val.int (.negSucc k)).orInt SIGHASH_ANYONECANPAY = .ok (.int (.negSucc (k ^^^ (k &&& 128)))) := rfl
        rw [e, ok_bind] at h
        exact key _ h
    · simp only [if_neg ha, ok_bind] at h
      exact key _ h
  · have hno : ∀ n, ty ≠ .int n := fun n e => hint ⟨n, e⟩
    refine .inr ⟨?_, hno⟩
    unfold Dyn.zTypeBytes at h
    by_cases ha : acp.truthy = true
    · simp only [if_pos ha] at h
      left
      cases ty with
      | int n => exact absurd rfl (hno n)
      | _ => exact (Except.error.inj h).symm
    · simp only [if_neg ha, ok_bind] at h
      rcases toLe_error.1 h with ⟨-, n, h1, -⟩ | ⟨h1, -⟩ | ⟨h1, -⟩
      · exact absurd h1 (hno n)
      · exact .inl h1
      · exact .inr h1

theorem eqInt_error {ty : Val} {k : Nat} {e : PyErr} (h : ty.eqInt k = .error e) : e = .typeError ∧ ∀ n, ty ≠ .int n := by
  cases ty with
  | obj => exact ⟨(Except.error.inj h).symm, fun _ e => (nomatch e)⟩
  | _ => cases h

theorem zcore_error {E : Env} {v : Val} {w : ZTx} (h : ZView v w) {ty value script index js acp : Val} {pers : Bytes} {f : Bytes → Bytes → Bytes} {e : PyErr}
    (he : zCore E v ty value script index js acp pers f = .error e) : ZRefused w ty value script index js acp e := by
  unfold ZRefused
  by_cases hflag : js.truthy = true ∧ acp.truthy = true
  · unfold zCore at he
    rw [check_bind, if_neg (by simpa using hflag)] at he
    exact .inl ⟨(Except.error.inj he).symm, (truthy_iff _).1 hflag.1, (truthy_iff _).1 hflag.2⟩
  unfold zCore at he
  rw [check_eq_ok (u := ()).2 hflag, ok_bind] at he
  by_cases hint : ∃ n, ty = .int n
  · obtain ⟨n, rfl⟩ := hint
    rw [zSequence_eq h, ok_bind] at he
    have rest : ∀ {sq o : Bytes}, (do
        let t ← Dyn.zTypeBytes (.int n) acp
        let data ← Val.iadd (f sq o) t
        let data ← Dyn.zInputPart v value script index js data
        (.ok (.bytes (E.H.blake2b pers data)) : Py Val)) = .error e →
        (e = .indexError ∧ ∃ n : Int, index = .int n ∧ IsFalse js ∧ (n ≥ w.ins.length ∨ n < -w.ins.length)) ∨
        (e = .typeError ∧ IsFalse js ∧ ∀ n, index ≠ .int n) ∨
        (e = .typeError ∧ IsFalse js ∧ (script.content = none ∨ value.content = none)) ∨
        (e = .overflowError ∧ (n < 0 ∨ n ≥ 2 ^ 32)) := by
      intro sq o he
      cases ht : Dyn.zTypeBytes (.int n) acp with
      | error e' =>
        rw [ht, error_bind] at he
        cases Except.error.inj he
        rcases zType_error ht with ⟨h1, n', e1, h2⟩ | ⟨-, h2⟩
        · cases e1; exact .inr (.inr (.inr ⟨h1, h2⟩))
        · exact absurd rfl (h2 n)
      | ok t =>
        obtain ⟨k, _, _, rfl⟩ := zType_ok.1 ht
        rw [ht, ok_bind, iadd_ok.2 ⟨_, rfl, rfl⟩, ok_bind] at he
        rcases zInput_cases h value script index js with ⟨inp, hs, ho⟩ | ⟨-, hf, ⟨m, hm, hp, ho⟩ | ⟨hc, ho⟩⟩
        · rw [ho] at he; cases he
        · rw [ho] at he
          cases Except.error.inj he
          exact .inl ⟨rfl, m, hm, hf, pyIndex_outside hp⟩
        · rw [ho] at he
          cases Except.error.inj he
          rcases hc with hc | hc
          · exact .inr (.inl ⟨rfl, hf, hc⟩)
          · exact .inr (.inr (.inl ⟨rfl, hf, hc⟩))
    have fin : ∀ {sq o : Bytes}, (do
        let t ← Dyn.zTypeBytes (.int n) acp
        let data ← Val.iadd (f sq o) t
        let data ← Dyn.zInputPart v value script index js data
        (.ok (.bytes (E.H.blake2b pers data)) : Py Val)) = .error e → ZRefused w (.int n) value script index js acp e := by
      intro sq o he
      rcases rest he with ⟨h1, m, hm, hf, hp⟩ | ⟨h1, h2, h3⟩ | h1 | ⟨h1, h2⟩
      · exact .inr (.inr (.inl ⟨h1, m, hm, .inr ⟨hf, hp⟩⟩))
      · exact .inr (.inr (.inr (.inl ⟨h1, .inr h2, h3⟩)))
      · exact .inr (.inr (.inr (.inr (.inl h1))))
      · exact .inr (.inr (.inr (.inr (.inr (.inl ⟨h1, n, rfl, h2⟩)))))
    by_cases h1 : n = 1
    · subst h1
      rw [zOutputs_all h, ok_bind] at he
      exact fin he
    · by_cases h3 : n = 3
      · subst h3
        rcases zOutputs_single (E := E) h index with ⟨j, x, hj, eo⟩ | ⟨hno, ⟨m, hm, hg, eo⟩ | ⟨m, hm, hg, hp, eo⟩ | ⟨hm, eo⟩⟩
        · rw [eo, ok_bind] at he
          exact fin he
        · rw [eo, error_bind] at he
          exact .inr (.inl ⟨(Except.error.inj he).symm, rfl, m, hm, hg⟩)
        · rw [eo, error_bind] at he
          have := pyIndex_outside hp
          exact .inr (.inr (.inl ⟨(Except.error.inj he).symm, m, hm, .inl ⟨rfl, by omega⟩⟩))
        · rw [eo, error_bind] at he
          exact .inr (.inr (.inr (.inl ⟨(Except.error.inj he).symm, .inl rfl, hm⟩)))
      · rw [zOutputs_other h1 h3, ok_bind] at he
        exact fin he
  · have hno : ∀ n, ty ≠ .int n := fun n e => hint ⟨n, e⟩
    refine .inr (.inr (.inr (.inr (.inr (.inr ⟨?_, hno⟩)))))
    cases hq : Dyn.zHashSequence E v ty acp with
    | error e' =>
      rw [hq, error_bind] at he
      cases Except.error.inj he
      left
      unfold Dyn.zHashSequence at hq
      split at hq
      · cases hq
      · obtain ⟨l, e1, hl⟩ := h.ins
        cases ht : ty.eqInt SIGHASH_SINGLE with
        | error e2 =>
          rw [ht, error_bind] at hq
          cases Except.error.inj hq
          exact (eqInt_error ht).1
        | ok b =>
          have hz := zSequence_eq (E := E) h 1 acp
          unfold Dyn.zHashSequence at hz
          next ha =>
          rw [if_neg ha] at hz
          rw [ht, ok_bind] at hq
          cases b with
          | true => cases hq
          | false =>
            rw [show (Val.int 1).eqInt SIGHASH_SINGLE = .ok false from rfl, ok_bind] at hz
            rw [hz] at hq; cases hq
    | ok sq =>
      rw [hq, ok_bind] at he
      cases ho : Dyn.zHashOutputs E v ty index with
      | error e' =>
        rw [ho, error_bind] at he
        cases Except.error.inj he
        left
        cases ty with
        | int n => exact absurd rfl (hno n)
        | obj => exact (Except.error.inj ho).symm
        | _ => cases ho
      | ok o =>
        rw [ho, ok_bind] at he
        cases ht : Dyn.zTypeBytes ty acp with
        | error e' =>
          rw [ht, error_bind] at he
          cases Except.error.inj he
          rcases zType_error ht with ⟨-, n, e1, -⟩ | ⟨h1, -⟩
          · exact absurd e1 (hno n)
          · exact h1
        | ok t =>
          obtain ⟨n, e1, -⟩ := zType_ok.1 ht
          exact absurd e1 (hno n)

/-! ### from the parts to ZIP143 and ZIP243 -/

theorem zParts {blake : Bytes → Bytes → Bytes} {z : ZSigTx} {n j : Nat} (a : Bool) (h : n = 1 ∨ n = 3) :
    (if a then zeros32 else blake persPrevouts (z.ins.map (·.1)).flatten) = zHashPrevouts blake z (zWord n a) ∧
    sqPart blake z n a = zHashSequence blake z (zWord n a) ∧ outPart blake z n j = zHashOutputs blake z j (zWord n a) := by
  rcases h with rfl | rfl <;> cases a <;> exact ⟨rfl, rfl, rfl⟩

theorem zParts_odd {blake : Bytes → Bytes → Bytes} {z : ZSigTx} {n j : Nat} (a : Bool) (h : ¬ (n = 1 ∨ n = 3)) :
    sqPart blake z n a = (if a then zeros32 else blake persSequence (z.ins.map (·.2)).flatten) ∧ outPart blake z n j = zeros32 := by
  simp only [not_or] at h
  unfold sqPart outPart
  simp [h.1, h.2]

theorem over_core {E : Env} {v : Val} {w : ZTx} (hz : E.net.isZcash = true) (h : ZView v w) (hver : w.version = 3) (ty value script index js acp : Val) :
    Dyn.overSighash E v ty value script index js acp = zCore E v ty value script index js acp (persSigHash 0x5ba81b19) (fun sq o =>
      w.zsig.header ++ w.zsig.groupId ++ (if acp.truthy then zeros32 else E.H.blake2b persPrevouts (w.zsig.ins.map (·.1)).flatten) ++ sq ++ o
        ++ zHashJoinsplits E.H.blake2b w.zsig ++ w.zsig.lockTime ++ w.zsig.expiry) := by
  have hh : w.zsig.header = [0x03, 0x00, 0x00, 0x80] := if_pos hver
  have hg : w.zsig.groupId = [0x70, 0x82, 0xc4, 0x03] := if_pos hver
  obtain ⟨l, hl, hl'⟩ := h.lock
  obtain ⟨x, hx, hx'⟩ := h.expiry
  unfold Dyn.overSighash zCore
  simp only [zcashGate, hz, check_bind, if_true, zPrevouts_eq h, zJs_eq h, hl, hx, ok_bind, Val.iadd, hl', hx', hh, hg, ascii_sig_overwinter]
  rfl

theorem sap_core {E : Env} {v : Val} {w : ZTx} (hz : E.net.isZcash = true) (h : SapView v w) (hver : w.version = 4) (ty value script index js acp : Val) :
    Dyn.sapSighash E v ty value index js script acp = zCore E v ty value script index js acp (persSigHash 0x76b809bb) (fun sq o =>
      w.zsig.header ++ w.zsig.groupId ++ (if acp.truthy then zeros32 else E.H.blake2b persPrevouts (w.zsig.ins.map (·.1)).flatten) ++ sq ++ o
        ++ zHashJoinsplits E.H.blake2b w.zsig ++ zHashSpends E.H.blake2b w.zsig ++ zHashShieldedOutputs E.H.blake2b w.zsig
        ++ w.zsig.lockTime ++ w.zsig.expiry ++ w.zsig.balance) := by
  have hh : w.zsig.header = [0x04, 0x00, 0x00, 0x80] := if_neg (by omega)
  have hg : w.zsig.groupId = [0x85, 0x20, 0x2f, 0x89] := if_neg (by omega)
  obtain ⟨l, hl, hl'⟩ := h.lock
  obtain ⟨x, hx, hx'⟩ := h.expiry
  obtain ⟨y, hy, hy'⟩ := h.balance
  unfold Dyn.sapSighash zCore
  simp only [zcashGate, hz, check_bind, if_true, zPrevouts_eq h.toZView, zJs_eq h.toZView, zSpends_eq h, zShielded_eq h, hl, hx, hy, ok_bind, Val.iadd, hl', hx', hy', hh, hg,
    ascii_sig_sapling]
  rfl

theorem gate_ok {net : Network} {c : Prop} [Decidable c] {e : PyErr} {k : Py Val} {d : Val} (h : (do check c e; zcashGate net; k) = .ok d) : net.isZcash = true := by
  obtain ⟨_, _, h⟩ := (bind_ok_iff ..).1 h
  obtain ⟨_, h, _⟩ := (bind_ok_iff ..).1 h
  exact zcashGate_ok.1 h

/-- Nothing is signed unless a network of Zcash is selected. -/
theorem over_gate {E : Env} {v ty value script index js acp d : Val} (h : Dyn.overSighash E v ty value script index js acp = .ok d) : E.net.isZcash = true := gate_ok h
theorem sap_gate {E : Env} {v ty value script index js acp d : Val} (h : Dyn.sapSighash E v ty value index js script acp = .ok d) : E.net.isZcash = true := gate_ok h

theorem gate_error {net : Network} (hz : ¬ net.isZcash = true) {c : Prop} [Decidable c] {k : Py Val} : (do check c .valueError; zcashGate net; k) = .error .valueError := by
  rw [check_bind]
  split
  · rw [zcashGate, check_bind, if_neg hz]
  · rfl

/-! ### the theorems -/

/-- C124 for `OverwinterTx.sighash(sighash_type, prevout_value, script_code, index, joinsplit, anyone_can_pay)`. Whatever the object was made from and whatever
the arguments are: the call gives a digest exactly if a network of Zcash is selected now (whatever it was when the object was made), not both flags are true, the type is a number of four bytes, with SINGLE the index points to an
output, and either a joinsplit is signed or the index points to an input and script code and value are bytes-like. For the types 1 and 3 the digest is the one
of ZIP143 of the transaction that the object's bytes encode; for all other types it is the digest of a preimage that commits to no output. When a joinsplit
is signed, script code and value are not looked at, and the index only with SINGLE. -/
theorem C124_overwinter {S : Network → Prop} (E : Env) (v : Val) (h : MadeOn S E v) (hc : v.isInstance .overwinterTx = true) (w : ZTx) (hw : w.WF) (hver : w.version = 3)
    (hcon : v.content = some w.bytes) (ty value script index js acp d : Val) :
    Dyn.overSighash E v ty value script index js acp = .ok d ↔ E.net.isZcash = true ∧ (IsFalse js ∨ IsFalse acp) ∧ ∃ (n j : Nat) (a : Bool) (inp : Option ZInput),
      ty = .int n ∧ n < 2 ^ 32 ∧ (a = true ↔ ¬ IsFalse acp) ∧ (n = 3 → ∃ o, At w.outs index j o) ∧ Signed w value script index js inp ∧
      d = .bytes (if n = 1 ∨ n = 3 then sighash143 E.H.blake2b w.zsig j inp (zWord n a)
        else E.H.blake2b (persSigHash 0x5ba81b19) (oddPreimage143 E.H.blake2b w.zsig a inp (zWord n a))) := by
  have hv := over_view h hc hw hver hcon
  refine (and_iff_right_of_imp (fun hd => over_gate hd)).symm.trans (and_congr_right fun hz => ?_)
  rw [over_core hz hv hver, zcore_iff hv]
  have key : ∀ n j inp, (E.H.blake2b (persSigHash 0x5ba81b19) (w.zsig.header ++ w.zsig.groupId ++ (if acp.truthy then zeros32 else E.H.blake2b persPrevouts (w.zsig.ins.map (·.1)).flatten)
      ++ sqPart E.H.blake2b w.zsig n acp.truthy ++ outPart E.H.blake2b w.zsig n j ++ zHashJoinsplits E.H.blake2b w.zsig ++ w.zsig.lockTime ++ w.zsig.expiry
      ++ leBytes 4 (zWord n acp.truthy) ++ zInputPart inp)) = (if n = 1 ∨ n = 3 then sighash143 E.H.blake2b w.zsig j inp (zWord n acp.truthy)
        else E.H.blake2b (persSigHash 0x5ba81b19) (oddPreimage143 E.H.blake2b w.zsig acp.truthy inp (zWord n acp.truthy))) := by
    intro n j inp
    by_cases hn : n = 1 ∨ n = 3
    · obtain ⟨h1, h2, h3⟩ := zParts (blake := E.H.blake2b) (z := w.zsig) (j := j) acp.truthy hn
      rw [if_pos hn, h1, h2, h3]; rfl
    · obtain ⟨h2, h3⟩ := zParts_odd (blake := E.H.blake2b) (z := w.zsig) (j := j) acp.truthy hn
      rw [if_neg hn, h2, h3]; rfl
  refine and_congr_right fun _ => ⟨?_, ?_⟩
  · rintro ⟨n, j, inp, h1, h2, h3, h4, rfl⟩
    exact ⟨n, j, acp.truthy, inp, h1, h2, truthy_iff acp, h3, h4, by rw [key]⟩
  · rintro ⟨n, j, a, inp, h1, h2, ha, h3, h4, rfl⟩
    have : a = acp.truthy := Bool.eq_iff_iff.2 (ha.trans (truthy_iff acp).symm)
    subst this
    exact ⟨n, j, inp, h1, h2, h3, h4, by rw [key]⟩

/-- C124 for `SaplingTx.sighash(sighash_type, prevout_value, index, joinsplit, script_code, anyone_can_pay)`, with ZIP243. -/
theorem C124_sapling {S : Network → Prop} (E : Env) (v : Val) (h : MadeOn S E v) (hc : v.isInstance .saplingTx = true) (w : ZTx) (hw : w.WF) (hver : w.version = 4)
    (hcon : v.content = some w.bytes) (ty value script index js acp d : Val) :
    Dyn.sapSighash E v ty value index js script acp = .ok d ↔ E.net.isZcash = true ∧ (IsFalse js ∨ IsFalse acp) ∧ ∃ (n j : Nat) (a : Bool) (inp : Option ZInput),
      ty = .int n ∧ n < 2 ^ 32 ∧ (a = true ↔ ¬ IsFalse acp) ∧ (n = 3 → ∃ o, At w.outs index j o) ∧ Signed w value script index js inp ∧
      d = .bytes (if n = 1 ∨ n = 3 then sighash243 E.H.blake2b w.zsig j inp (zWord n a)
        else E.H.blake2b (persSigHash 0x76b809bb) (oddPreimage243 E.H.blake2b w.zsig a inp (zWord n a))) := by
  have hv := sap_view h hc hw hver hcon
  refine (and_iff_right_of_imp (fun hd => sap_gate hd)).symm.trans (and_congr_right fun hz => ?_)
  rw [sap_core hz hv hver, zcore_iff hv.toZView]
  have key : ∀ n j inp, (E.H.blake2b (persSigHash 0x76b809bb) (w.zsig.header ++ w.zsig.groupId ++ (if acp.truthy then zeros32 else E.H.blake2b persPrevouts (w.zsig.ins.map (·.1)).flatten)
      ++ sqPart E.H.blake2b w.zsig n acp.truthy ++ outPart E.H.blake2b w.zsig n j ++ zHashJoinsplits E.H.blake2b w.zsig
      ++ zHashSpends E.H.blake2b w.zsig ++ zHashShieldedOutputs E.H.blake2b w.zsig ++ w.zsig.lockTime ++ w.zsig.expiry ++ w.zsig.balance
      ++ leBytes 4 (zWord n acp.truthy) ++ zInputPart inp)) = (if n = 1 ∨ n = 3 then sighash243 E.H.blake2b w.zsig j inp (zWord n acp.truthy)
        else E.H.blake2b (persSigHash 0x76b809bb) (oddPreimage243 E.H.blake2b w.zsig acp.truthy inp (zWord n acp.truthy))) := by
    intro n j inp
    by_cases hn : n = 1 ∨ n = 3
    · obtain ⟨h1, h2, h3⟩ := zParts (blake := E.H.blake2b) (z := w.zsig) (j := j) acp.truthy hn
      rw [if_pos hn, h1, h2, h3]; rfl
    · obtain ⟨h2, h3⟩ := zParts_odd (blake := E.H.blake2b) (z := w.zsig) (j := j) acp.truthy hn
      rw [if_neg hn, h2, h3]; rfl
  refine and_congr_right fun _ => ⟨?_, ?_⟩
  · rintro ⟨n, j, inp, h1, h2, h3, h4, rfl⟩
    exact ⟨n, j, acp.truthy, inp, h1, h2, truthy_iff acp, h3, h4, by rw [key]⟩
  · rintro ⟨n, j, a, inp, h1, h2, ha, h3, h4, rfl⟩
    have : a = acp.truthy := Bool.eq_iff_iff.2 (ha.trans (truthy_iff acp).symm)
    subst this
    exact ⟨n, j, inp, h1, h2, h3, h4, by rw [key]⟩

/-- C124, refusals: `ValueError` if no network of Zcash is selected or both flags are true, `NotImplementedError` with SINGLE if the index is above the number of outputs, `IndexError` for indices
that point to nothing, `TypeError` for an index that is no number and for a script code or value that is not bytes-like, `OverflowError` for a hash type outside of
0 to 2^32 - 1, and `TypeError` or `AttributeError` for a hash type that is no number. There are no others. -/
theorem C124_refused {S : Network → Prop} (E : Env) (v : Val) (h : MadeOn S E v) (w : ZTx) (hw : w.WF) (hcon : v.content = some w.bytes) (ty value script index js acp : Val) (e : PyErr) :
    (v.isInstance .overwinterTx = true → w.version = 3 → Dyn.overSighash E v ty value script index js acp = .error e → ZRefused w ty value script index js acp e ∨ ¬ E.net.isZcash = true ∧ e = .valueError) ∧
    (v.isInstance .saplingTx = true → w.version = 4 → Dyn.sapSighash E v ty value index js script acp = .error e → ZRefused w ty value script index js acp e ∨ ¬ E.net.isZcash = true ∧ e = .valueError) := by
  constructor
  · intro hc hver he
    have hv := over_view h hc hw hver hcon
    by_cases hz : E.net.isZcash = true
    · rw [over_core hz hv hver] at he
      exact .inl (zcore_error hv he)
    · exact .inr ⟨hz, (Except.error.inj ((gate_error hz).symm.trans he)).symm⟩
  · intro hc hver he
    have hv := sap_view h hc hw hver hcon
    by_cases hz : E.net.isZcash = true
    · rw [sap_core hz hv hver] at he
      exact .inl (zcore_error hv.toZView he)
    · exact .inr ⟨hz, (Except.error.inj ((gate_error hz).symm.trans he)).symm⟩

/-- C124 for `sighash_all` and `sighash_single` of Overwinter: whatever is given for `anyone_can_pay`, even no flag at all, it is ignored, and the digest is
the one of ZIP143 for the type 1 or 3. -/
theorem C124_overwinter_methods {S : Network → Prop} (E : Env) (v : Val) (h : MadeOn S E v) (hc : v.isInstance .overwinterTx = true) (w : ZTx) (hw : w.WF) (hver : w.version = 3)
    (hcon : v.content = some w.bytes) (value script index js acp d : Val) :
    (Dyn.overSighashAll E v value script index js acp = .ok d ↔ E.net.isZcash = true ∧ ∃ inp, Signed w value script index js inp ∧
      ∀ j, d = .bytes (sighash143 E.H.blake2b w.zsig j inp 1)) ∧
    (Dyn.overSighashSingle E v value script index js acp = .ok d ↔ E.net.isZcash = true ∧ ∃ j o inp, At w.outs index j o ∧ Signed w value script index js inp ∧
      d = .bytes (sighash143 E.H.blake2b w.zsig j inp 3)) := by
  have h0 : IsFalse (.int 0) := (truthy_false _).1 (by decide)
  constructor
  · refine (C124_overwinter E v h hc w hw hver hcon (.int 1) value script index js (.int 0) d).trans ⟨?_, ?_⟩
    · rintro ⟨hz, -, n, j, a, inp, e, -, ha, -, hs, rfl⟩
      have e : (1 : Int) = n := Val.int.inj e
      have : n = 1 := by omega
      subst this
      cases a with
      | true => exact absurd h0 (ha.1 rfl)
      | false => exact ⟨hz, inp, hs, fun _ => rfl⟩
    · rintro ⟨hz, inp, hs, hd⟩
      exact ⟨hz, .inr h0, 1, 0, false, inp, rfl, by decide, ⟨fun e => (nomatch e), fun e => absurd h0 e⟩, fun e => (nomatch e), hs, hd 0⟩
  · refine (C124_overwinter E v h hc w hw hver hcon (.int 3) value script index js (.int 0) d).trans ⟨?_, ?_⟩
    · rintro ⟨hz, -, n, j, a, inp, e, -, ha, hj, hs, rfl⟩
      have e : (3 : Int) = n := Val.int.inj e
      have : n = 3 := by omega
      subst this
      obtain ⟨o, ho⟩ := hj rfl
      cases a with
      | true => exact absurd h0 (ha.1 rfl)
      | false => exact ⟨hz, j, o, inp, ho, hs, rfl⟩
    · rintro ⟨hz, j, o, inp, ho, hs, rfl⟩
      exact ⟨hz, .inr h0, 3, j, false, inp, rfl, by decide, ⟨fun e => (nomatch e), fun e => absurd h0 e⟩, fun _ => ⟨o, ho⟩, hs, rfl⟩

/-- C124 for `sighash_all` and `sighash_single` of Sapling. -/
theorem C124_sapling_methods {S : Network → Prop} (E : Env) (v : Val) (h : MadeOn S E v) (hc : v.isInstance .saplingTx = true) (w : ZTx) (hw : w.WF) (hver : w.version = 4)
    (hcon : v.content = some w.bytes) (value script index js acp d : Val) :
    (Dyn.sapSighashAll E v value index js script acp = .ok d ↔ E.net.isZcash = true ∧ ∃ inp, Signed w value script index js inp ∧
      ∀ j, d = .bytes (sighash243 E.H.blake2b w.zsig j inp 1)) ∧
    (Dyn.sapSighashSingle E v value index js script acp = .ok d ↔ E.net.isZcash = true ∧ ∃ j o inp, At w.outs index j o ∧ Signed w value script index js inp ∧
      d = .bytes (sighash243 E.H.blake2b w.zsig j inp 3)) := by
  have h0 : IsFalse (.int 0) := (truthy_false _).1 (by decide)
  constructor
  · refine (C124_sapling E v h hc w hw hver hcon (.int 1) value script index js (.int 0) d).trans ⟨?_, ?_⟩
    · rintro ⟨hz, -, n, j, a, inp, e, -, ha, -, hs, rfl⟩
      have e : (1 : Int) = n := Val.int.inj e
      have : n = 1 := by omega
      subst this
      cases a with
      | true => exact absurd h0 (ha.1 rfl)
      | false => exact ⟨hz, inp, hs, fun _ => rfl⟩
    · rintro ⟨hz, inp, hs, hd⟩
      exact ⟨hz, .inr h0, 1, 0, false, inp, rfl, by decide, ⟨fun e => (nomatch e), fun e => absurd h0 e⟩, fun e => (nomatch e), hs, hd 0⟩
  · refine (C124_sapling E v h hc w hw hver hcon (.int 3) value script index js (.int 0) d).trans ⟨?_, ?_⟩
    · rintro ⟨hz, -, n, j, a, inp, e, -, ha, hj, hs, rfl⟩
      have e : (3 : Int) = n := Val.int.inj e
      have : n = 3 := by omega
      subst this
      obtain ⟨o, ho⟩ := hj rfl
      cases a with
      | true => exact absurd h0 (ha.1 rfl)
      | false => exact ⟨hz, j, o, inp, ho, hs, rfl⟩
    · rintro ⟨hz, j, o, inp, ho, hs, rfl⟩
      exact ⟨hz, .inr h0, 3, j, false, inp, rfl, by decide, ⟨fun e => (nomatch e), fun e => absurd h0 e⟩, fun _ => ⟨o, ho⟩, hs, rfl⟩

theorem odd_prefix {blake : Bytes → Bytes → Bytes} {z : ZSigTx} {n i : Nat} {x y : Bytes} (hb : ∀ a b, (blake a b).length = 32) (h2 : baseType n ≠ 2) (h3 : baseType n ≠ 3)
    (hz : blake persOutputs z.outs.flatten ≠ zeros32) :
    z.header ++ z.groupId ++ blake persPrevouts (z.ins.map (·.1)).flatten ++ blake persSequence (z.ins.map (·.2)).flatten ++ zeros32 ++ x ≠
    z.header ++ z.groupId ++ zHashPrevouts blake z n ++ zHashSequence blake z n ++ zHashOutputs blake z i n ++ y := by
  intro e
  have l1 : (zHashPrevouts blake z n).length = 32 := by unfold zHashPrevouts; split; exacts [rfl, hb _ _]
  have l2 : (zHashSequence blake z n).length = 32 := by unfold zHashSequence; split; exacts [rfl, hb _ _]
  have ho : zHashOutputs blake z i n = blake persOutputs z.outs.flatten := by unfold zHashOutputs; rw [if_pos ⟨h3, h2⟩]
  simp only [List.append_assoc] at e
  have e := List.append_cancel_left (List.append_cancel_left e)
  have e := (List.append_inj e (by rw [hb, l1])).2
  have e := (List.append_inj e (by rw [hb, l2])).2
  have e := (List.append_inj e (by rw [ho, hb]; rfl)).1
  exact hz (by rw [← ho]; exact e.symm)

/-- C124 is false for hash types other than ALL, NONE and SINGLE, in the byte that the network looks at: also for 0x81, the usual way to write ALL with
ANYONECANPAY. The call gives a digest, but of another preimage than that of ZIP143 (unless the outputs hash to zero): one that commits to no output. -/
theorem C124_overwinter_type_false {S : Network → Prop} (E : Env) (hnet : E.net.isZcash = true) (hH : E.H.LengthOK) (v : Val) (h : MadeOn S E v) (hc : v.isInstance .overwinterTx = true) (w : ZTx) (hw : w.WF) (hver : w.version = 3)
    (hcon : v.content = some w.bytes) (n : Nat) (hn : n < 2 ^ 32) (h1 : n ≠ 1) (h2 : baseType n ≠ 2) (h3 : baseType n ≠ 3) (value script index js acp : Val) (ha : IsFalse acp)
    (inp : Option ZInput) (hs : Signed w value script index js inp) (hz : E.H.blake2b persOutputs w.zsig.outs.flatten ≠ zeros32) :
    ∃ p, (∀ i, p ≠ zip143 E.H.blake2b w.zsig i inp n) ∧ Dyn.overSighash E v (.int n) value script index js acp = .ok (.bytes (E.H.blake2b (persSigHash 0x5ba81b19) p)) := by
  have h3' : n ≠ 3 := by rintro rfl; exact h3 rfl
  refine ⟨oddPreimage143 E.H.blake2b w.zsig false inp n, ?_, ?_⟩
  · intro i e
    unfold oddPreimage143 zip143 at e
    simp only [Bool.false_eq_true, if_false, List.append_assoc] at e
    exact odd_prefix (z := w.zsig) (i := i) hH.blake2b h2 h3 hz (by simpa only [List.append_assoc] using e)
  · refine (C124_overwinter E v h hc w hw hver hcon (.int n) value script index js acp _).2 ⟨hnet, .inr ha, n, 0, false, inp, rfl, hn,
      ⟨fun e => (nomatch e), fun e => absurd ha e⟩, fun e => absurd e h3', hs, ?_⟩
    rw [if_neg (by simp [h1, h3'])]; rfl

/-- The same of Sapling. -/
theorem C124_sapling_type_false {S : Network → Prop} (E : Env) (hnet : E.net.isZcash = true) (hH : E.H.LengthOK) (v : Val) (h : MadeOn S E v) (hc : v.isInstance .saplingTx = true) (w : ZTx) (hw : w.WF) (hver : w.version = 4)
    (hcon : v.content = some w.bytes) (n : Nat) (hn : n < 2 ^ 32) (h1 : n ≠ 1) (h2 : baseType n ≠ 2) (h3 : baseType n ≠ 3) (value script index js acp : Val) (ha : IsFalse acp)
    (inp : Option ZInput) (hs : Signed w value script index js inp) (hz : E.H.blake2b persOutputs w.zsig.outs.flatten ≠ zeros32) :
    ∃ p, (∀ i, p ≠ zip243 E.H.blake2b w.zsig i inp n) ∧ Dyn.sapSighash E v (.int n) value index js script acp = .ok (.bytes (E.H.blake2b (persSigHash 0x76b809bb) p)) := by
  have h3' : n ≠ 3 := by rintro rfl; exact h3 rfl
  refine ⟨oddPreimage243 E.H.blake2b w.zsig false inp n, ?_, ?_⟩
  · intro i e
    unfold oddPreimage243 zip243 at e
    simp only [Bool.false_eq_true, if_false, List.append_assoc] at e
    exact odd_prefix (z := w.zsig) (i := i) hH.blake2b h2 h3 hz (by simpa only [List.append_assoc] using e)
  · refine (C124_sapling E v h hc w hw hver hcon (.int n) value script index js acp _).2 ⟨hnet, .inr ha, n, 0, false, inp, rfl, hn,
      ⟨fun e => (nomatch e), fun e => absurd ha e⟩, fun e => absurd e h3', hs, ?_⟩
    rw [if_neg (by simp [h1, h3'])]; rfl

/-! ### cases -/

/-- The input and the output of the example object, as fields. -/
def wIn : WireIn := ⟨List.replicate 32 7, [7, 7, 7, 7], [1], [255, 255, 255, 255]⟩
def wOut : WireOut := ⟨[1, 0, 0, 0, 0, 0, 0, 0], [0x51]⟩
def wOver : ZTx := ⟨3, [wIn], [wOut], [0, 0, 0, 0], [1, 0, 0, 0], [], [], [], [], [], [], []⟩
def wSap : ZTx := ⟨4, [wIn], [wOut], [0, 0, 0, 0], [1, 0, 0, 0], List.replicate 8 0, [], [], [], [], [], []⟩

theorem wOver_wf : wOver.WF :=
  ⟨by decide, rfl, ⟨by decide, by simpa [wOver] using (⟨rfl, rfl, rfl, by decide⟩ : wIn.WF)⟩, ⟨by decide, by simpa [wOver] using (⟨rfl, by decide⟩ : wOut.WF)⟩, fun _ => rfl,
    ⟨by decide, fun _ h => nomatch h⟩, fun h => absurd rfl h, fun h => (by cases h), rfl, rfl, by rintro (h | h) <;> exact absurd rfl h⟩

theorem wSap_wf : wSap.WF :=
  ⟨by decide, rfl, ⟨by decide, by simpa [wSap] using (⟨rfl, rfl, rfl, by decide⟩ : wIn.WF)⟩, ⟨by decide, by simpa [wSap] using (⟨rfl, by decide⟩ : wOut.WF)⟩, fun _ => rfl,
    ⟨by decide, fun _ h => nomatch h⟩, fun h => absurd rfl h, fun _ => rfl, ⟨by decide, fun _ h => nomatch h⟩, ⟨by decide, fun _ h => nomatch h⟩,
    by rintro (h | h) <;> exact absurd rfl h⟩

theorem zValIn_made (E : Env) : Made E valIn :=
  .txIn (.bytearray (List.replicate 36 7)) (.bytes []) (.bytearray [1]) (.bytes [255, 255, 255, 255]) _ (.bytearray _) (.bytes _) (.bytearray _) (.bytes _) rfl
theorem zValOut_made (E : Env) : Made E valOut := .txOut (.bytes [1, 0, 0, 0, 0, 0, 0, 0]) (.obj .other [] [0x51]) _ (.bytes _) (.other _) rfl

attribute [local irreducible] Env.hash256 in
/-- An object of version 3: SINGLE with the index -1 and false values other than False gives a digest; the type 2 too; a joinsplit is signed without looking at
value and script; the index 1 is out of range. -/
example : ∃ v, Made overEnv v ∧ v.isInstance .overwinterTx = true ∧ wOver.WF ∧ wOver.version = 3 ∧ v.content = some wOver.bytes ∧
    (Dyn.overSighash overEnv v (.int 3) (.bytearray (List.replicate 8 1)) (.bytes [1, 0x51]) (.int (-1)) .none (.str [])).isOk = true ∧
    (Dyn.overSighash overEnv v (.int 2) (.bytes []) (.bytes []) (.int 0) (.list []) (.int 7)).isOk = true ∧
    (Dyn.overSighash overEnv v (.int 1) .none (.list []) (.str []) (.int 1) .none).isOk = true ∧
    Dyn.overSighash overEnv v (.int 1) (.bytes []) (.bytes []) (.int 1) .none .none = .error .indexError ∧
    Dyn.overSighash overEnv v (.int (2 ^ 32)) (.bytes []) (.bytes []) (.int 0) .none .none = .error .overflowError := by
  refine ⟨_, .overwinterTx (.list [valIn]) (.tuple [valOut]) (.bytes [0, 0, 0, 0]) (.bytearray [1, 0, 0, 0]) (.list []) .none .none _
    (.list _ fun v hv => by rw [List.mem_singleton.1 hv]; exact zValIn_made _) (.tuple _ fun v hv => by rw [List.mem_singleton.1 hv]; exact zValOut_made _)
    (.bytes _) (.bytearray _) (.list _ fun v hv => nomatch hv) .none .none rfl, rfl, wOver_wf, rfl, rfl, rfl, rfl, rfl, rfl, rfl⟩

attribute [local irreducible] Env.hash256 in
/-- The same of version 4. -/
example : ∃ v, Made sapEnv v ∧ v.isInstance .saplingTx = true ∧ wSap.WF ∧ wSap.version = 4 ∧ v.content = some wSap.bytes ∧
    (Dyn.sapSighash sapEnv v (.int 3) (.bytearray (List.replicate 8 1)) (.int (-1)) .none (.bytes [1, 0x51]) (.str [])).isOk = true ∧
    (Dyn.sapSighashAll sapEnv v (.bytes []) (.int 0) .none (.bytes []) (.int 1)).isOk = true ∧
    Dyn.sapSighash sapEnv v (.int 1) (.bytes []) = .error .typeError ∧
    Dyn.sapSighash sapEnv v (.int 3) (.bytes []) (.int 2) .none (.bytes []) = .error .notImplementedError := by
  refine ⟨_, .saplingTx (.list [valIn]) (.tuple [valOut]) (.bytes [0, 0, 0, 0]) (.bytearray [1, 0, 0, 0]) (.bytes (List.replicate 8 0)) (.list []) (.list []) (.list []) .none .none .none _
    (.list _ fun v hv => by rw [List.mem_singleton.1 hv]; exact zValIn_made _) (.tuple _ fun v hv => by rw [List.mem_singleton.1 hv]; exact zValOut_made _)
    (.bytes _) (.bytearray _) (.bytes _) (.list _ fun v hv => nomatch hv) (.list _ fun v hv => nomatch hv) (.list _ fun v hv => nomatch hv) .none .none .none rfl,
    rfl, wSap_wf, rfl, rfl, rfl, rfl, rfl, rfl⟩

/-- The input that is signed: the first, counted from the back. -/
example : Signed wOver (.bytearray [1]) (.bytes [2]) (.int (-1)) .none (some ⟨List.replicate 36 7, [2], [1], [255, 255, 255, 255]⟩) ∧ At wOver.outs (.int (-1)) 0 wOut :=
  ⟨.inr ⟨.inl rfl, 0, wIn, [2], [1], ⟨-1, rfl, .inr rfl, rfl⟩, rfl, rfl, rfl⟩, -1, rfl, .inr rfl, rfl⟩

/-- 0x81 is such a type, and hashes exist that meet the conditions. -/
example : baseType 0x81 ≠ 2 ∧ baseType 0x81 ≠ 3 ∧ overEnv.H.LengthOK ∧ overEnv.H.blake2b persOutputs wOver.zsig.outs.flatten ≠ zeros32 :=
  ⟨by decide, by decide, toyHashes_ok, by decide⟩

end Verif.Props
