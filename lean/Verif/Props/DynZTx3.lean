import Verif.Props.DynZTx
import Verif.Props.Ints

/-! Property C116, continued: `SproutTx` on arguments of any type. -/

namespace Verif.Props
open Verif Spec

/-- The arguments that `SproutTx(…)` accepts, apart from what depends on the version. -/
structure SproutArgs (net : Network) (version txIns txOuts lockTime : Val) (bv bl : Bytes) (ins outs : List Val) (bi bo : List Bytes) : Prop where
  zcash : net.isZcash = true
  sprout : net.isSprout = true
  ver : Byteslike version bv
  ver_len : bv.length = 4
  lock : Byteslike lockTime bl
  lock_len : bl.length = 4
  ins_ok : SeqOf .txIn txIns ins bi
  ins_lt : ins.length < 2 ^ 64
  outs_ok : SeqOf .txOut txOuts outs bo
  outs_lt : outs.length < 2 ^ 64

/-- What version 2 asks for: at most 5 joinsplits, a public key, a signature (which may be empty). -/
structure V2Args (txJoinsplits pubkey sig : Val) (js : List Val) (bj : List Bytes) (k s : Bytes) : Prop where
  seq : SeqOf .sproutJs txJoinsplits js bj
  five : js.length ≤ 5
  key : Byteslike pubkey k
  key_len : k.length = 32
  sig : Byteslike sig s
  sig_len : s = [] ∨ s.length = 64

/-- The objects that `SproutTx(…)` makes. -/
def sproutObj (E : Env) (version lockTime pubkey sig : Val) (ins outs js : List Val) (hsigs primary : List Bytes) (b : Bytes) : Val :=
  .obj .sproutTx ([version, .tuple ins, .tuple outs, .tuple js, lockTime] ++ [pubkey, sig, .tuple (hsigs.map .bytes), .tuple (primary.map .bytes)] ++
    [.bytes (E.hash256 b), .bytes (E.hash256 b).reverse]) b

theorem version_eq {b : Bytes} (hl : b.length = 4) (n : Nat) (x : Bytes) (hx : i2lePadded n 4 = .ok x) : leValue b = n ↔ b = x := by
  constructor
  · intro h
    have := (C01_i2le_padded_spec n 4 b).2 ⟨hl, by rw [h]⟩
    rw [hx] at this
    exact (Except.ok.inj this).symm
  · rintro rfl
    have := ((C01_i2le_padded_spec n 4 b).1 hx).2
    omega

theorem neBytes_content {v : Val} {b : Bytes} (h : v.content = some b) (x : Bytes) : (!(v.neBytes x)) = decide (b = x) := by
  unfold Val.neBytes
  rw [h]
  by_cases e : b = x <;> simp [e]

theorem checkSproutSig_cases (sig : Val) :
    (sig = .none ∨ ∃ s, Byteslike sig s ∧ (s = [] ∨ s.length = 64)) ∧ Dyn.checkSproutSig sig = .ok () ∨
    (¬ (sig = .none ∨ ∃ s, Byteslike sig s ∧ (s = [] ∨ s.length = 64))) ∧ Dyn.checkSproutSig sig = .error .valueError := by
  by_cases hn : sig = .none
  · subst hn; exact .inl ⟨.inl rfl, rfl⟩
  have e : Dyn.checkSproutSig sig = if sig.neBytes [] then sig.validate (some 64) else .ok () := by
    cases sig <;> first | rfl | exact absurd rfl hn
  rw [e]
  by_cases hb : sig.neBytes [] = true
  · rw [if_pos hb]
    rcases validate_cases sig (some 64) with ⟨s, hs, ls, e⟩ | ⟨hs, e⟩ <;> rw [e]
    · exact .inl ⟨.inr ⟨s, hs, .inr (ls _ rfl)⟩, rfl⟩
    · refine .inr ⟨?_, rfl⟩
      rintro (h | ⟨s, h, rfl | h'⟩)
      · exact hn h
      · unfold Val.neBytes at hb; rw [show sig.content = some [] from h] at hb; simp at hb
      · exact hs ⟨s, h, fun k e => by cases e; exact h'⟩
  · rw [if_neg hb]
    refine .inl ⟨.inr ⟨[], ?_, .inl rfl⟩, rfl⟩
    unfold Val.neBytes at hb
    cases hc : sig.content with
    | none => rw [hc] at hb; simp at hb
    | some b => rw [hc] at hb; simp at hb; subst hb; exact hc

/-- The part of the constructor after the tests. -/
def sproutTail (E : Env) (version txJoinsplits pubkey sig lockTime : Val) (ins outs : List Val) (isV2 : Bool) (self : Bytes) : Py Val := do
  let self ← Dyn.addSproutJs isV2 self txJoinsplits pubkey sig
  let js ← txJoinsplits.iter
  let rest ← Dyn.sproutJsAttrs E isV2 js pubkey sig
  check (¬ self.length > 100000) .valueError
  .ok (.obj .sproutTx ([version, .tuple ins, .tuple outs, .tuple js, lockTime] ++ rest ++ [.bytes (E.hash256 self), .bytes (E.hash256 self).reverse]) self)

/-- The constructor on arguments that meet the tests that do not depend on the version. -/
theorem sprout_eq {E : Env} {version txIns txOuts lockTime txJoinsplits pubkey sig : Val} {bv bl : Bytes} {ins outs : List Val} {bi bo : List Bytes}
    (h : SproutArgs E.net version txIns txOuts lockTime bv bl ins outs bi bo) :
    Dyn.sproutTx E version txIns txOuts lockTime txJoinsplits pubkey sig = (do
      Dyn.checkV1 (leValue bv) txIns txJoinsplits
      Dyn.checkV2 (leValue bv) txJoinsplits pubkey sig
      check (leValue bv = 1 ∨ leValue bv = 2) .valueError
      sproutTail E version txJoinsplits pubkey sig lockTime ins outs (decide (bv = [2, 0, 0, 0])) (wireLegacy bv bi bo bl)) := by
  have two : i2lePadded 2 4 = .ok [2, 0, 0, 0] := rfl
  unfold Dyn.sproutTx zcashGate
  rw [check_bind, if_pos h.zcash, check_bind, if_pos h.sprout, (validate_ok (u := ())).2 ⟨bv, h.ver, fun k e => by cases e; exact h.ver_len⟩, ok_bind,
    (validate_ok (u := ())).2 ⟨bl, h.lock, fun k e => by cases e; exact h.lock_len⟩, ok_bind, h.ins_ok.all, ok_bind, h.outs_ok.all, ok_bind, le2i_content h.ver, ok_bind]
  congr 1; funext _; congr 1; funext _; congr 1; funext _
  rw [iadd_ok.2 ⟨bv, h.ver, rfl⟩, ok_bind, addVector_ok h.ins_ok h.ins_lt, ok_bind, addVector_ok h.outs_ok h.outs_lt, ok_bind, iadd_ok.2 ⟨bl, h.lock, rfl⟩, ok_bind, two, ok_bind,
    neBytes_content h.ver]
  unfold sproutTail
  simp only [h.ins_ok.iter.1, h.outs_ok.iter.1, ok_bind, List.nil_append]
  rfl

/-- The exceptions that are allowed before the signature is added. -/
def SproutErr (txIns txOuts txJoinsplits : Val) (e : PyErr) : Prop :=
  e = .valueError ∨ e = .typeError ∧ (txIns.len = .error .typeError ∨ txOuts.len = .error .typeError ∨ txJoinsplits.len = .error .typeError)

theorem checkV1_err {n : Nat} {txIns txOuts js : Val} : ErrIn (SproutErr txIns txOuts js) (Dyn.checkV1 n txIns js) := by
  have hv : ErrIn (SproutErr txIns txOuts js) (do let ni ← txIns.len; check (ni ≠ 0) .valueError : Py Unit) := by
    refine .bind (fun e he => ?_) fun _ _ => .check (.inl rfl)
    have := len_error he; subst this; exact .inr ⟨rfl, .inl he⟩
  unfold Dyn.checkV1
  split
  · split
    · exact hv
    · refine .bind (fun e he => ?_) fun _ _ => .bind (.check (.inl rfl)) fun _ _ => hv
      have := len_error he; subst this; exact .inr ⟨rfl, .inr (.inr he)⟩
  · exact .ok

theorem checkV2_err {n : Nat} {txIns txOuts js pk sig : Val} : ErrIn (SproutErr txIns txOuts js) (Dyn.checkV2 n js pk sig) := by
  unfold Dyn.checkV2
  split
  · refine .bind (fun e he => ?_) fun _ _ => .bind (.check (.inl rfl)) fun _ _ => .bind (fun e he => ?_) fun _ _ => .bind (.validate (.inl rfl)) fun _ _ => fun e he => ?_
    · have := len_error he; subst this; exact .inr ⟨rfl, .inr (.inr he)⟩
    · rcases allInstances_cases .sproutJs js with ⟨_, _, _, e'⟩ | ⟨_, e' | ⟨e', h⟩⟩ <;> rw [e'] at he <;> cases he
      · exact .inl rfl
      · exact .inr ⟨rfl, .inr (.inr h)⟩
    · rcases checkSproutSig_cases sig with ⟨_, e'⟩ | ⟨_, e'⟩ <;> rw [e'] at he <;> cases he
      exact .inl rfl
  · exact .ok

theorem not_ok_bind {α β : Type} {x : Py α} {f : α → Py β} (h : ∀ a b, f a ≠ .ok b) : ∀ b, (x >>= f) ≠ .ok b := by
  intro b hb
  obtain ⟨a, -, hb⟩ := bind_ok_iff.1 hb
  exact h a b hb

/-- What happens before the part that depends on the version. -/
theorem sprout_tests (E : Env) (version txIns txOuts lockTime txJoinsplits pubkey sig : Val) :
    (∃ bv bl ins outs bi bo, SproutArgs E.net version txIns txOuts lockTime bv bl ins outs bi bo) ∨
    (∀ v, Dyn.sproutTx E version txIns txOuts lockTime txJoinsplits pubkey sig ≠ .ok v) ∧
    ErrIn (SproutErr txIns txOuts txJoinsplits) (Dyn.sproutTx E version txIns txOuts lockTime txJoinsplits pubkey sig) := by
  have bad : ∀ {x : Py Val} {e : PyErr}, x = .error e → SproutErr txIns txOuts txJoinsplits e → (∀ v, x ≠ .ok v) ∧ ErrIn (SproutErr txIns txOuts txJoinsplits) x := by
    rintro x e rfl h
    exact ⟨fun v h => (by cases h), fun e' h' => by cases h'; exact h⟩
  unfold Dyn.sproutTx zcashGate
  rw [check_bind]
  by_cases hz : E.net.isZcash = true
  case neg => rw [if_neg hz]; exact .inr (bad rfl (.inl rfl))
  rw [if_pos hz, check_bind]
  by_cases ho : E.net.isSprout = true
  case neg => rw [if_neg ho]; exact .inr (bad rfl (.inl rfl))
  rw [if_pos ho]
  rcases validate_cases version (some 4) with ⟨bv, hv, lv, e⟩ | ⟨-, e⟩ <;> rw [e]
  case inr => exact .inr (bad rfl (.inl rfl))
  rw [ok_bind]
  rcases validate_cases lockTime (some 4) with ⟨bl, hl, ll, e⟩ | ⟨-, e⟩ <;> rw [e]
  case inr => exact .inr (bad rfl (.inl rfl))
  rw [ok_bind]
  rcases allInstances_cases .txIn txIns with ⟨ins, bi, hi, e⟩ | ⟨-, e | ⟨e, h⟩⟩ <;> rw [e]
  case inr.inl => exact .inr (bad rfl (.inl rfl))
  case inr.inr => exact .inr (bad rfl (.inr ⟨rfl, .inl h⟩))
  rw [ok_bind]
  rcases allInstances_cases .txOut txOuts with ⟨outs, bo, hout, e⟩ | ⟨-, e | ⟨e, h⟩⟩ <;> rw [e]
  case inr.inl => exact .inr (bad rfl (.inl rfl))
  case inr.inr => exact .inr (bad rfl (.inr ⟨rfl, .inr (.inl h)⟩))
  rw [ok_bind, le2i_content hv, ok_bind]
  by_cases li : ins.length < 2 ^ 64
  · by_cases lo : outs.length < 2 ^ 64
    · exact .inl ⟨bv, bl, ins, outs, bi, bo, ⟨hz, ho, hv, lv _ rfl, hl, ll _ rfl, hi, li, hout, lo⟩⟩
    · rw [iadd_ok.2 ⟨bv, hv, rfl⟩, ok_bind, addVector_ok hi li, ok_bind, addVector_error hout lo]
      exact .inr ⟨not_ok_bind fun _ => not_ok_bind fun _ => not_ok_bind fun _ b h => (by cases h),
        .bind checkV1_err fun _ _ => .bind checkV2_err fun _ _ => .bind (.check (.inl rfl)) fun _ _ e h => (by cases h; exact .inl rfl)⟩
  · rw [iadd_ok.2 ⟨bv, hv, rfl⟩, ok_bind, addVector_error hi li]
    exact .inr ⟨not_ok_bind fun _ => not_ok_bind fun _ => not_ok_bind fun _ b h => (by cases h),
      .bind checkV1_err fun _ _ => .bind checkV2_err fun _ _ => .bind (.check (.inl rfl)) fun _ _ e h => (by cases h; exact .inl rfl)⟩

/-- The constructor in version 1. -/
theorem sprout_v1 {E : Env} {version txIns txOuts lockTime txJoinsplits pubkey sig : Val} {bl : Bytes} {ins outs : List Val} {bi bo : List Bytes}
    (h : SproutArgs E.net version txIns txOuts lockTime [1, 0, 0, 0] bl ins outs bi bo) :
    (∀ v, Dyn.sproutTx E version txIns txOuts lockTime txJoinsplits pubkey sig = .ok v ↔ txJoinsplits.iter = .ok [] ∧ ins ≠ [] ∧
      (wireLegacy [1, 0, 0, 0] bi bo bl).length ≤ 100000 ∧ v = sproutObj E version lockTime .none .none ins outs [] [] [] (wireLegacy [1, 0, 0, 0] bi bo bl)) ∧
    ErrIn (SproutErr txIns txOuts txJoinsplits) (Dyn.sproutTx E version txIns txOuts lockTime txJoinsplits pubkey sig) := by
  have e1 : leValue [1, 0, 0, 0] = 1 := rfl
  rw [sprout_eq h, e1]
  have e2 : Dyn.checkV2 1 txJoinsplits pubkey sig = .ok () := rfl
  rw [e2, show (decide (([1, 0, 0, 0] : Bytes) = [2, 0, 0, 0])) = false from rfl]
  have tail : ∀ self, sproutTail E version txJoinsplits pubkey sig lockTime ins outs false self = (do
      let js ← txJoinsplits.iter
      check (¬ self.length > 100000) .valueError
      .ok (.obj .sproutTx ([version, .tuple ins, .tuple outs, .tuple js, lockTime] ++ [.none, .none, .tuple [], .tuple []] ++
        [.bytes (E.hash256 self), .bytes (E.hash256 self).reverse]) self)) := by
    intro self; unfold sproutTail Dyn.addSproutJs Dyn.sproutJsAttrs; rfl
  simp only [ok_bind, tail]
  constructor
  · intro v
    constructor
    · intro hv
      obtain ⟨_, h1, hv⟩ := bind_ok_iff.1 hv
      obtain ⟨_, -, hv⟩ := bind_ok_iff.1 hv
      obtain ⟨js, hj, hv⟩ := bind_ok_iff.1 hv
      obtain ⟨_, hs, hv⟩ := bind_ok_iff.1 hv
      have hs := check_ok.1 hs
      have hjn : txJoinsplits ≠ .none := by rintro rfl; cases hj
      have e : Dyn.checkV1 1 txIns txJoinsplits = (do
          let n ← txJoinsplits.len
          check (¬ n ≠ 0) .valueError
          let ni ← txIns.len
          check (ni ≠ 0) .valueError) := by
        unfold Dyn.checkV1
        cases txJoinsplits <;> first | rfl | exact absurd rfl hjn
      rw [e, len_of_iter hj, h.ins_ok.iter.2] at h1
      simp only [ok_bind, bind_ok_iff, check_ok] at h1
      obtain ⟨_, h1, h2⟩ := h1
      have hj0 : js = [] := List.length_eq_zero_iff.1 (by omega)
      subst hj0
      cases hv
      exact ⟨hj, fun e => h2 (by rw [e]; rfl), by omega, rfl⟩
    · rintro ⟨hj, hi, hs, rfl⟩
      have hjn : txJoinsplits ≠ .none := by rintro rfl; cases hj
      have e : Dyn.checkV1 1 txIns txJoinsplits = (do
          let n ← txJoinsplits.len
          check (¬ n ≠ 0) .valueError
          let ni ← txIns.len
          check (ni ≠ 0) .valueError) := by
        unfold Dyn.checkV1
        cases txJoinsplits <;> first | rfl | exact absurd rfl hjn
      rw [e, len_of_iter hj, h.ins_ok.iter.2, hj]
      simp only [ok_bind]
      rw [check, if_pos (by simp), ok_bind, check, if_pos (fun e => hi (List.length_eq_zero_iff.1 e)), ok_bind, check, if_pos (by simp), ok_bind, check, if_pos (by omega)]
      rfl
  · refine .bind checkV1_err fun _ _ => .bind (.check (.inl rfl)) fun _ _ => .bind (fun e he => ?_) fun _ _ => .bind (.check (.inl rfl)) fun _ _ => .ok
    have : txJoinsplits.len = .error .typeError ∧ e = .typeError := by cases txJoinsplits <;> simp [Val.iter, Val.len] at he ⊢ <;> exact he.symm
    exact .inr ⟨this.2, .inr (.inr this.1)⟩

/-- The tests of version 2, when there is a signature. -/
theorem checkV2_inv {txJoinsplits pubkey sig : Val} (hc : Dyn.checkV2 2 txJoinsplits pubkey sig = .ok ()) (hn : sig ≠ .none) :
    ∃ js bj k s, V2Args txJoinsplits pubkey sig js bj k s := by
  unfold Dyn.checkV2 at hc
  rw [if_pos rfl] at hc
  simp only [bind_ok_iff, check_ok, allInstances_ok, validate_ok] at hc
  obtain ⟨n, hlen, _, h5, _, ⟨js, hj, hcl⟩, _, ⟨k, hk, lk⟩, hs⟩ := hc
  obtain ⟨bj, hseq⟩ := seqOf_of hj hcl
  rw [len_of_iter hj] at hlen
  cases hlen
  rcases checkSproutSig_cases sig with ⟨e | ⟨s, hs, ls⟩, _⟩ | ⟨_, e⟩
  · exact absurd e hn
  · exact ⟨js, bj, k, s, ⟨hseq, by omega, hk, lk _ rfl, hs, ls⟩⟩
  · rw [e] at hs; cases hs

/-- The end of the constructor in version 2; the attributes about the joinsplits are read from the joinsplits. -/
theorem sproutTail_v2 {E : Env} {version txJoinsplits pubkey sig lockTime : Val} {ins outs js : List Val} {bj : List Bytes} {k s : Bytes}
    (ha : V2Args txJoinsplits pubkey sig js bj k s) (self : Bytes) : sproutTail E version txJoinsplits pubkey sig lockTime ins outs true self = (do
      let q ← Dyn.sproutJsAttrs E true js pubkey sig
      check (¬ (self ++ vector bj ++ k ++ s).length > 100000) .valueError
      .ok (.obj .sproutTx ([version, .tuple ins, .tuple outs, .tuple js, lockTime] ++ q ++
        [.bytes (E.hash256 (self ++ vector bj ++ k ++ s)), .bytes (E.hash256 (self ++ vector bj ++ k ++ s)).reverse]) (self ++ vector bj ++ k ++ s))) := by
  have h5 := ha.five
  unfold sproutTail Dyn.addSproutJs
  simp only [if_true]
  rw [addVector_ok ha.seq (by omega)]
  simp only [ok_bind]
  rw [iadd_ok.2 ⟨k, ha.key, rfl⟩]
  simp only [ok_bind]
  rw [iadd_ok.2 ⟨s, ha.sig, rfl⟩]
  simp only [ok_bind]
  rw [ha.seq.iter.1]
  simp only [ok_bind]

/-- The constructor in version 2. -/
theorem sprout_v2 {E : Env} {version txIns txOuts lockTime txJoinsplits pubkey sig : Val} {bl : Bytes} {ins outs : List Val} {bi bo : List Bytes}
    (h : SproutArgs E.net version txIns txOuts lockTime [2, 0, 0, 0] bl ins outs bi bo)
    (hm : ∀ l, IsSeq txJoinsplits l → ∀ v ∈ l, v.isInstance .sproutJs = true → JsMade .sproutJs .sproutProof v) :
    (∀ v, Dyn.sproutTx E version txIns txOuts lockTime txJoinsplits pubkey sig = .ok v ↔ ∃ js bj k s, V2Args txJoinsplits pubkey sig js bj k s ∧
      (wireLegacy [2, 0, 0, 0] bi bo bl ++ vector bj ++ k ++ s).length ≤ 100000 ∧
      v = sproutObj E version lockTime pubkey sig ins outs js (bj.map (hsigOf E k)) (bj.map (primaryOf E k)) (wireLegacy [2, 0, 0, 0] bi bo bl ++ vector bj ++ k ++ s)) ∧
    ErrIn (fun e => SproutErr txIns txOuts txJoinsplits e ∨ e = .typeError ∧ sig = .none) (Dyn.sproutTx E version txIns txOuts lockTime txJoinsplits pubkey sig) := by
  have e1 : leValue [2, 0, 0, 0] = 2 := rfl
  rw [sprout_eq h, e1]
  have e2 : Dyn.checkV1 2 txIns txJoinsplits = .ok () := rfl
  rw [e2, show (decide (([2, 0, 0, 0] : Bytes) = [2, 0, 0, 0])) = true from rfl, ok_bind]
  have tail : ∀ {js bj k s}, V2Args txJoinsplits pubkey sig js bj k s → ∀ self, sproutTail E version txJoinsplits pubkey sig lockTime ins outs true self = (do
      check (¬ (self ++ vector bj ++ k ++ s).length > 100000) .valueError
      .ok (sproutObj E version lockTime pubkey sig ins outs js (bj.map (hsigOf E k)) (bj.map (primaryOf E k)) (self ++ vector bj ++ k ++ s))) := by
    intro js bj k s ha self
    have hmm : ∀ v ∈ js, JsMade .sproutJs .sproutProof v := by
      rcases ha.seq.seq with hs | ⟨-, rfl⟩
      · exact fun v hv => hm js hs v hv (List.all_eq_true.1 ha.seq.cls v hv)
      · exact fun v hv => nomatch hv
    rw [sproutTail_v2 ha]
    unfold Dyn.sproutJsAttrs
    simp only [if_true]
    rw [hsigs_made hmm ha.seq.bytes (fun _ => ha.key)]
    rfl
  have v2 : ∀ {js bj k s}, V2Args txJoinsplits pubkey sig js bj k s → Dyn.checkV2 2 txJoinsplits pubkey sig = .ok () := by
    intro js bj k s ha
    have h5 := ha.five
    unfold Dyn.checkV2
    rw [if_pos rfl, ha.seq.iter.2, ok_bind, check_bind, if_pos (by omega), ha.seq.all, ok_bind, (validate_ok (u := ())).2 ⟨k, ha.key, fun _ e => by cases e; exact ha.key_len⟩, ok_bind]
    rcases checkSproutSig_cases sig with ⟨_, e⟩ | ⟨e, _⟩
    · exact e
    · exact absurd (.inr ⟨s, ha.sig, ha.sig_len⟩) e
  constructor
  · intro v
    constructor
    · intro hv
      obtain ⟨_, h1, hv⟩ := bind_ok_iff.1 hv
      obtain ⟨_, -, hv⟩ := bind_ok_iff.1 hv
      have hn : sig ≠ .none := by
        rintro rfl
        unfold sproutTail Dyn.addSproutJs at hv
        simp only [if_true, bind_ok_iff] at hv
        obtain ⟨_, ⟨_, _, _, _, hv⟩, _⟩ := hv
        cases hv
      obtain ⟨js, bj, k, s, ha⟩ := checkV2_inv h1 hn
      rw [tail ha, check_bind] at hv
      split at hv
      · cases hv; exact ⟨js, bj, k, s, ha, by omega, rfl⟩
      · cases hv
    · rintro ⟨js, bj, k, s, ha, hs, rfl⟩
      rw [v2 ha, ok_bind, check, if_pos (.inr rfl), ok_bind, tail ha, check, if_pos (by omega)]
      rfl
  · refine .bind (fun e he => .inl (checkV2_err e he)) fun _ h1 => .bind (.check (.inl (.inl rfl))) fun _ _ => ?_
    by_cases hn : sig = .none
    · subst hn
      unfold Dyn.checkV2 at h1
      rw [if_pos rfl] at h1
      simp only [bind_ok_iff, check_ok, allInstances_ok, validate_ok] at h1
      obtain ⟨n, hlen, _, h5, _, ⟨js, hj, hcl⟩, _, ⟨k, hk, lk⟩, -⟩ := h1
      obtain ⟨bj, hseq⟩ := seqOf_of hj hcl
      rw [len_of_iter hj] at hlen
      cases hlen
      unfold sproutTail Dyn.addSproutJs
      simp only [if_true]
      rw [addVector_ok hseq (by omega)]
      simp only [ok_bind]
      rw [iadd_ok.2 ⟨k, hk, rfl⟩]
      intro e he
      cases he
      exact .inr ⟨rfl, trivial⟩
    · obtain ⟨js, bj, k, s, ha⟩ := checkV2_inv h1 hn
      rw [tail ha]
      exact .bind (.check (.inl (.inl rfl))) fun _ _ => .ok

/-- C116: `SproutTx(…)` with whatever arguments makes an object exactly when: the network is a Sprout one; version and lock time are bytes-like of 4 bytes; inputs and outputs are
lists or tuples (or anything iterable and empty) of `TxIn` and `TxOut` objects; and either the version is 1, there is an input, and the joinsplits are iterable and empty; or it is 2,
the joinsplits are at most 5 `SproutJoinsplit` objects, the public key is bytes-like of 32 bytes and the signature bytes-like of 64 or no bytes; and the transaction has at most
100000 bytes. Otherwise it raises ValueError, or TypeError if an argument that should be a sequence has no length (in version 1 also if the joinsplits are None), or if the
signature is None in version 2. -/
theorem C116_sprout (E : Env) (version txIns txOuts lockTime txJoinsplits pubkey sig : Val)
    (hm : ∀ l, IsSeq txJoinsplits l → ∀ v ∈ l, v.isInstance .sproutJs = true → JsMade .sproutJs .sproutProof v) :
    (∀ v, Dyn.sproutTx E version txIns txOuts lockTime txJoinsplits pubkey sig = .ok v ↔
      ∃ bv bl ins outs bi bo, SproutArgs E.net version txIns txOuts lockTime bv bl ins outs bi bo ∧
        (bv = [1, 0, 0, 0] ∧ txJoinsplits.iter = .ok [] ∧ ins ≠ [] ∧ (wireLegacy bv bi bo bl).length ≤ 100000 ∧
            v = sproutObj E version lockTime .none .none ins outs [] [] [] (wireLegacy bv bi bo bl) ∨
          bv = [2, 0, 0, 0] ∧ ∃ js bj k s, V2Args txJoinsplits pubkey sig js bj k s ∧ (wireLegacy bv bi bo bl ++ vector bj ++ k ++ s).length ≤ 100000 ∧
            v = sproutObj E version lockTime pubkey sig ins outs js (bj.map (hsigOf E k)) (bj.map (primaryOf E k)) (wireLegacy bv bi bo bl ++ vector bj ++ k ++ s))) ∧
    ∀ e, Dyn.sproutTx E version txIns txOuts lockTime txJoinsplits pubkey sig = .error e → e = .valueError ∨
      e = .typeError ∧ (txIns.len = .error .typeError ∨ txOuts.len = .error .typeError ∨ txJoinsplits.len = .error .typeError ∨ sig = .none) := by
  have p : ∀ {e}, SproutErr txIns txOuts txJoinsplits e → e = .valueError ∨
      e = .typeError ∧ (txIns.len = .error .typeError ∨ txOuts.len = .error .typeError ∨ txJoinsplits.len = .error .typeError ∨ sig = .none) := by
    rintro e (h | ⟨h, h1 | h1 | h1⟩)
    · exact .inl h
    · exact .inr ⟨h, .inl h1⟩
    · exact .inr ⟨h, .inr (.inl h1)⟩
    · exact .inr ⟨h, .inr (.inr (.inl h1))⟩
  have other : ∀ {bv bl ins outs bi bo}, SproutArgs E.net version txIns txOuts lockTime bv bl ins outs bi bo → bv ≠ [1, 0, 0, 0] → bv ≠ [2, 0, 0, 0] →
      Dyn.sproutTx E version txIns txOuts lockTime txJoinsplits pubkey sig = .error .valueError := by
    intro bv bl ins outs bi bo h h1 h2
    have n1 : leValue bv ≠ 1 := fun e => h1 ((version_eq h.ver_len 1 _ rfl).1 e)
    have n2 : leValue bv ≠ 2 := fun e => h2 ((version_eq h.ver_len 2 _ rfl).1 e)
    rw [sprout_eq h]
    unfold Dyn.checkV1 Dyn.checkV2
    rw [if_neg n1, if_neg n2, ok_bind, ok_bind, check, if_neg (by omega)]
    rfl
  constructor
  · intro v
    constructor
    · intro hv
      rcases sprout_tests E version txIns txOuts lockTime txJoinsplits pubkey sig with ⟨bv, bl, ins, outs, bi, bo, h⟩ | ⟨h, -⟩
      · refine ⟨bv, bl, ins, outs, bi, bo, h, ?_⟩
        by_cases h1 : bv = [1, 0, 0, 0]
        · subst h1; exact .inl ⟨rfl, ((sprout_v1 h).1 v).1 hv⟩
        · by_cases h2 : bv = [2, 0, 0, 0]
          · subst h2; exact .inr ⟨rfl, ((sprout_v2 h hm).1 v).1 hv⟩
          · rw [other h h1 h2] at hv; cases hv
      · exact absurd hv (h v)
    · rintro ⟨bv, bl, ins, outs, bi, bo, h, ⟨rfl, hv⟩ | ⟨rfl, hv⟩⟩
      · exact ((sprout_v1 h).1 v).2 hv
      · exact ((sprout_v2 h hm).1 v).2 hv
  · intro e he
    rcases sprout_tests E version txIns txOuts lockTime txJoinsplits pubkey sig with ⟨bv, bl, ins, outs, bi, bo, h⟩ | ⟨-, h⟩
    · by_cases h1 : bv = [1, 0, 0, 0]
      · subst h1; exact p ((sprout_v1 h).2 e he)
      · by_cases h2 : bv = [2, 0, 0, 0]
        · subst h2
          rcases (sprout_v2 h hm).2 e he with h | ⟨h, h'⟩
          · exact p h
          · exact .inr ⟨h, .inr (.inr (.inr h'))⟩
        · rw [other h h1 h2] at he; cases he; exact .inl rfl
    · exact p (h e he)

end Verif.Props
