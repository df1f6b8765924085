import Verif.Props.DynZTx

/-! Property C116, continued: `SaplingTx` and `SproutTx` on arguments of any type. -/

namespace Verif.Props
open Verif Spec

/-! ### Sapling -/

/-- The arguments that `SaplingTx(…)` accepts, apart from the binding signature and the limit of size. -/
structure SapArgs (net : Network) (txIns txOuts lockTime expiry balance spends outputs txJoinsplits pubkey sig : Val) (bl be bb : Bytes) (ins outs ss so js : List Val)
    (bi bo bs bt bj : List Bytes) (k s : Bytes) : Prop where
  zcash : net.isZcash = true
  sap : net.isSapling = true
  lock : Byteslike lockTime bl
  lock_len : bl.length = 4
  exp : Byteslike expiry be
  exp_len : be.length = 4
  exp_le : leValue be ≤ 499999999
  bal : Byteslike balance bb
  bal_len : bb.length = 8
  bal_zero : ss = [] → so = [] → bb = List.replicate 8 0
  ins_ok : SeqOf .txIn txIns ins bi
  ins_lt : ins.length < 2 ^ 64
  outs_ok : SeqOf .txOut txOuts outs bo
  outs_lt : outs.length < 2 ^ 64
  spends_ok : SeqOf .saplingSpend spends ss bs
  spends_lt : ss.length < 2 ^ 64
  outputs_ok : SeqOf .saplingOutput outputs so bt
  outputs_lt : so.length < 2 ^ 64
  js_ok : JsArgs .saplingJs txJoinsplits pubkey sig js bj k s
  some : ins ≠ [] ∨ js ≠ [] ∨ ss ≠ []

/-- A binding signature as the tests allow it: None, or bytes-like of 64 bytes. -/
def BindingArg (binding : Val) (bg : Bytes) : Prop := binding = .none ∧ bg = [] ∨ Byteslike binding bg ∧ bg.length = 64

/-- The object that `SaplingTx(…)` makes. -/
def sapObj (E : Env) (lockTime expiry balance pubkey sig binding : Val) (ins outs ss so js : List Val) (bj : List Bytes) (k b : Bytes) : Val :=
  .obj .saplingTx ([if ss = [] ∧ so = [] then .none else binding, .tuple ins, .tuple outs, lockTime, expiry, balance, .tuple ss, .tuple so] ++ jsObjs E pubkey sig js bj k ++
    [.bytes (E.hash256 b), .bytes (E.hash256 b).reverse]) b

theorem checkBalance_cases {balance spends outputs binding : Val} {bb : Bytes} {ns no : Nat} (hb : balance.content = some bb) (hs : spends.len = .ok ns) (ho : outputs.len = .ok no) :
    (∃ bg, BindingArg binding bg ∧ (ns + no = 0 → bb = List.replicate 8 0) ∧ Dyn.checkBalance balance spends outputs binding = .ok ()) ∨
    (¬ ∃ bg, BindingArg binding bg ∧ (ns + no = 0 → bb = List.replicate 8 0)) ∧ Dyn.checkBalance balance spends outputs binding = .error .valueError := by
  unfold Dyn.checkBalance
  rw [hs, ho]
  simp only [ok_bind]
  have hne : balance.neBytes (List.replicate 8 0) = true ↔ bb ≠ List.replicate 8 0 := by
    unfold Val.neBytes; rw [hb]; simp
  by_cases h : ns + no = 0 ∧ balance.neBytes (List.replicate 8 0) = true
  · rw [if_pos h]
    refine .inr ⟨?_, rfl⟩
    rintro ⟨_, -, e⟩
    exact hne.1 h.2 (e h.1)
  · rw [if_neg h]
    have hz : ns + no = 0 → bb = List.replicate 8 0 := by
      intro e
      by_cases hbb : bb = List.replicate 8 0
      · exact hbb
      · exact absurd ⟨e, hne.2 hbb⟩ h
    by_cases hn : binding = .none
    · subst hn; exact .inl ⟨[], .inl ⟨rfl, rfl⟩, hz, rfl⟩
    · refine (fun e => ?_ : (∀ x : Py Unit, x = binding.validate (some 64) → (∃ bg, BindingArg binding bg ∧ (ns + no = 0 → bb = List.replicate 8 0) ∧ x = .ok ()) ∨
          (¬ ∃ bg, BindingArg binding bg ∧ (ns + no = 0 → bb = List.replicate 8 0)) ∧ x = .error .valueError) → _) ?_
      · exact e _ (by cases binding <;> first | rfl | exact absurd rfl hn)
      rintro x rfl
      rcases validate_cases binding (some 64) with ⟨bg, h1, h2, e⟩ | ⟨h1, e⟩ <;> rw [e]
      · exact .inl ⟨bg, .inr ⟨h1, h2 _ rfl⟩, hz, rfl⟩
      · refine .inr ⟨?_, rfl⟩
        rintro ⟨bg, ⟨h, -⟩ | ⟨h, h'⟩, -⟩
        · exact hn h
        · exact h1 ⟨bg, h, fun k e => by cases e; exact h'⟩

theorem addBinding_eq {spends outputs binding : Val} {ss so : List Val} {bs bt : List Bytes} {bg : Bytes} (hs : SeqOf .saplingSpend spends ss bs)
    (ho : SeqOf .saplingOutput outputs so bt) (hb : BindingArg binding bg) (self : Bytes) :
    Dyn.addBinding self spends outputs binding =
      if ¬ (ss = [] ∧ so = []) ∧ binding.content = none then .error .typeError
      else .ok (self ++ (if bs = [] ∧ bt = [] then [] else bg), if ss = [] ∧ so = [] then .none else binding) := by
  unfold Dyn.addBinding
  rw [hs.iter.2, ho.iter.2]
  simp only [ok_bind]
  have hl := hs.length
  have hl' := ho.length
  by_cases h : ss = [] ∧ so = []
  · obtain ⟨rfl, rfl⟩ := h
    have e1 : bs = [] := hs.nil_iff.1 rfl
    have e2 : bt = [] := ho.nil_iff.1 rfl
    subst e1 e2
    simp
  · have h' : ¬ (bs = [] ∧ bt = []) := by rw [← hs.nil_iff, ← ho.nil_iff]; exact h
    have hn : so.length + ss.length ≠ 0 := by
      intro e
      exact h ⟨List.length_eq_zero_iff.1 (by omega), List.length_eq_zero_iff.1 (by omega)⟩
    rw [if_pos hn, if_neg h', if_neg h]
    rcases hb with ⟨rfl, rfl⟩ | ⟨hb, -⟩
    · rw [if_pos ⟨h, rfl⟩]; rfl
    · rw [if_neg (by rw [show binding.content = some bg from hb]; simp), iadd_ok.2 ⟨bg, hb, rfl⟩]; rfl

/-- The constructor on arguments that meet the tests; the attributes about the joinsplits are read from the joinsplits. -/
theorem sap_eq_of {E : Env} {txIns txOuts lockTime expiry balance spends outputs txJoinsplits pubkey sig binding : Val} {bl be bb : Bytes} {ins outs ss so js : List Val}
    {bi bo bs bt bj : List Bytes} {k s bg : Bytes}
    (h : SapArgs E.net txIns txOuts lockTime expiry balance spends outputs txJoinsplits pubkey sig bl be bb ins outs ss so js bi bo bs bt bj k s) (hb : BindingArg binding bg) :
    Dyn.saplingTx E txIns txOuts lockTime expiry balance spends outputs txJoinsplits pubkey sig binding =
      if ¬ (ss = [] ∧ so = []) ∧ binding.content = none then .error .typeError
      else (do let q ← Dyn.jsAttrs E txJoinsplits pubkey sig
               check (¬ (wireSapling bi bo bl be bb bs bt bj k s bg).length > 100000) .valueError
               .ok (.obj .saplingTx ([if ss = [] ∧ so = [] then .none else binding, .tuple ins, .tuple outs, lockTime, expiry, balance, .tuple ss, .tuple so] ++ q ++
                 [.bytes (E.hash256 (wireSapling bi bo bl be bb bs bt bj k s bg)), .bytes (E.hash256 (wireSapling bi bo bl be bb bs bt bj k s bg)).reverse])
                   (wireSapling bi bo bl be bb bs bt bj k s bg))) := by
  have h5 := h.js_ok.five
  have hsig : Dyn.checkJsSig js.length pubkey sig = .ok () := by
    rcases checkJsSig_cases js.length pubkey sig with ⟨_, _, _, e⟩ | ⟨e, _⟩
    · exact e
    · exact absurd ⟨k, s, h.js_ok.keys⟩ e
  have hbal : Dyn.checkBalance balance spends outputs binding = .ok () := by
    rcases checkBalance_cases (binding := binding) h.bal h.spends_ok.iter.2 h.outputs_ok.iter.2 with ⟨_, _, _, e⟩ | ⟨e, _⟩
    · exact e
    · refine absurd ⟨bg, hb, fun e0 => h.bal_zero (List.length_eq_zero_iff.1 (by omega)) (List.length_eq_zero_iff.1 (by omega))⟩ e
  have hso : js.length + ins.length + ss.length ≠ 0 := by
    intro e
    rcases h.some with e' | e' | e' <;> exact e' (List.length_eq_zero_iff.1 (by omega))
  unfold Dyn.saplingTx zcashGate
  rw [check_bind, if_pos h.zcash, check_bind, if_pos h.sap, (validate_ok (u := ())).2 ⟨bl, h.lock, fun k e => by cases e; exact h.lock_len⟩, ok_bind,
    (validate_ok (u := ())).2 ⟨be, h.exp, fun k e => by cases e; exact h.exp_len⟩, ok_bind, (validate_ok (u := ())).2 ⟨bb, h.bal, fun k e => by cases e; exact h.bal_len⟩, ok_bind,
    le2i_content h.exp, ok_bind, check_bind, if_pos (by have := h.exp_le; omega), hbal, ok_bind,
    h.ins_ok.all, ok_bind, h.outs_ok.all, ok_bind, h.js_ok.seq.iter.2, ok_bind, check_bind, if_pos (by omega), h.spends_ok.all, ok_bind, h.outputs_ok.all, ok_bind,
    h.js_ok.seq.all, ok_bind, hsig, ok_bind, h.ins_ok.iter.2, ok_bind, h.spends_ok.iter.2, ok_bind,
    check_bind, if_pos hso, addVector_ok h.ins_ok h.ins_lt, ok_bind, addVector_ok h.outs_ok h.outs_lt, ok_bind, iadd_ok.2 ⟨bl, h.lock, rfl⟩, ok_bind,
    iadd_ok.2 ⟨be, h.exp, rfl⟩, ok_bind, iadd_ok.2 ⟨bb, h.bal, rfl⟩, ok_bind, addVector_ok h.spends_ok h.spends_lt, ok_bind, addVector_ok h.outputs_ok h.outputs_lt, ok_bind,
    addJs_ok h.js_ok, ok_bind, addBinding_eq h.spends_ok h.outputs_ok hb]
  by_cases hc : ¬ (ss = [] ∧ so = []) ∧ binding.content = none
  · rw [if_pos hc, if_pos hc]; rfl
  · rw [if_neg hc, if_neg hc, ok_bind, h.ins_ok.iter.1]
    simp only [ok_bind]
    rw [h.outs_ok.iter.1, ok_bind, h.spends_ok.iter.1, ok_bind, h.outputs_ok.iter.1, ok_bind]
    rfl

theorem sap_ok_of {E : Env} {txIns txOuts lockTime expiry balance spends outputs txJoinsplits pubkey sig binding : Val} {bl be bb : Bytes} {ins outs ss so js : List Val}
    {bi bo bs bt bj : List Bytes} {k s bg : Bytes}
    (h : SapArgs E.net txIns txOuts lockTime expiry balance spends outputs txJoinsplits pubkey sig bl be bb ins outs ss so js bi bo bs bt bj k s) (hb : BindingArg binding bg)
    (hm : ∀ v ∈ js, JsMade .saplingJs .saplingProof v) :
    Dyn.saplingTx E txIns txOuts lockTime expiry balance spends outputs txJoinsplits pubkey sig binding =
      if ¬ (ss = [] ∧ so = []) ∧ binding.content = none then .error .typeError
      else (do check (¬ (wireSapling bi bo bl be bb bs bt bj k s bg).length > 100000) .valueError
               .ok (sapObj E lockTime expiry balance pubkey sig binding ins outs ss so js bj k (wireSapling bi bo bl be bb bs bt bj k s bg))) := by
  rw [sap_eq_of h hb, jsAttrs_ok h.js_ok hm, ok_bind]
  rfl

/-- What the tests of the constructor establish; and the exceptions of the tests. -/
theorem sap_tests (E : Env) (txIns txOuts lockTime expiry balance spends outputs txJoinsplits pubkey sig binding : Val) :
    (∃ bl be bb ins outs ss so js bi bo bs bt bj k s bg,
      SapArgs E.net txIns txOuts lockTime expiry balance spends outputs txJoinsplits pubkey sig bl be bb ins outs ss so js bi bo bs bt bj k s ∧ BindingArg binding bg) ∨
    (Dyn.saplingTx E txIns txOuts lockTime expiry balance spends outputs txJoinsplits pubkey sig binding = .error .valueError ∨
      Dyn.saplingTx E txIns txOuts lockTime expiry balance spends outputs txJoinsplits pubkey sig binding = .error .typeError ∧
        ∃ v ∈ [txIns, txOuts, spends, outputs, txJoinsplits], v.len = .error .typeError) := by
  unfold Dyn.saplingTx zcashGate
  rw [check_bind]
  by_cases hz : E.net.isZcash = true
  case neg => rw [if_neg hz]; exact .inr (.inl rfl)
  rw [if_pos hz, check_bind]
  by_cases ho : E.net.isSapling = true
  case neg => rw [if_neg ho]; exact .inr (.inl rfl)
  rw [if_pos ho]
  rcases validate_cases lockTime (some 4) with ⟨bl, hl, ll, e⟩ | ⟨-, e⟩ <;> rw [e]
  case inr => exact .inr (.inl rfl)
  rw [ok_bind]
  rcases validate_cases expiry (some 4) with ⟨be, he, le, e⟩ | ⟨-, e⟩ <;> rw [e]
  case inr => exact .inr (.inl rfl)
  rw [ok_bind]
  rcases validate_cases balance (some 8) with ⟨bb, hb, lb, e⟩ | ⟨-, e⟩ <;> rw [e]
  case inr => exact .inr (.inl rfl)
  rw [ok_bind, le2i_content he, ok_bind, check_bind]
  by_cases hx : ¬ leValue be > 499999999
  case neg => rw [if_neg hx]; exact .inr (.inl rfl)
  rw [if_pos hx]
  cases hns : spends.len with
  | error e =>
    have := len_error hns; subst this
    refine .inr (.inr ⟨by unfold Dyn.checkBalance; rw [hns]; rfl, spends, by simp, hns⟩)
  | ok ns =>
  cases hno : outputs.len with
  | error e =>
    have := len_error hno; subst this
    refine .inr (.inr ⟨by unfold Dyn.checkBalance; rw [hns, hno]; rfl, outputs, by simp, hno⟩)
  | ok no =>
  rcases checkBalance_cases (binding := binding) hb hns hno with ⟨bg, hbg, hbz, e⟩ | ⟨-, e⟩ <;> rw [e]
  case inr => exact .inr (.inl rfl)
  rw [ok_bind]
  rcases allInstances_cases .txIn txIns with ⟨ins, bi, hi, e⟩ | ⟨-, e | ⟨e, h⟩⟩ <;> rw [e]
  case inr.inl => exact .inr (.inl rfl)
  case inr.inr => exact .inr (.inr ⟨rfl, txIns, by simp, h⟩)
  rw [ok_bind]
  rcases allInstances_cases .txOut txOuts with ⟨outs, bo, hout, e⟩ | ⟨-, e | ⟨e, h⟩⟩ <;> rw [e]
  case inr.inl => exact .inr (.inl rfl)
  case inr.inr => exact .inr (.inr ⟨rfl, txOuts, by simp, h⟩)
  rw [ok_bind]
  cases hnj : txJoinsplits.len with
  | error e => have := len_error hnj; subst this; exact .inr (.inr ⟨rfl, txJoinsplits, by simp, hnj⟩)
  | ok nj =>
  rw [ok_bind, check_bind]
  by_cases h5 : ¬ nj > 5
  case neg => rw [if_neg h5]; exact .inr (.inl rfl)
  rw [if_pos h5]
  rcases allInstances_cases .saplingSpend spends with ⟨ss, bs, hss, e⟩ | ⟨-, e | ⟨e, h⟩⟩ <;> rw [e]
  case inr.inl => exact .inr (.inl rfl)
  case inr.inr => rw [hns] at h; cases h
  rw [hss.iter.2] at hns
  cases hns
  rw [ok_bind]
  rcases allInstances_cases .saplingOutput outputs with ⟨so, bt, hsoo, e⟩ | ⟨-, e | ⟨e, h⟩⟩ <;> rw [e]
  case inr.inl => exact .inr (.inl rfl)
  case inr.inr => rw [hno] at h; cases h
  rw [hsoo.iter.2] at hno
  cases hno
  rw [ok_bind]
  rcases allInstances_cases .saplingJs txJoinsplits with ⟨js, bj, hj, e⟩ | ⟨-, e | ⟨e, h⟩⟩ <;> rw [e]
  case inr.inl => exact .inr (.inl rfl)
  case inr.inr => rw [hnj] at h; cases h
  rw [hj.iter.2] at hnj
  cases hnj
  rw [ok_bind]
  rcases checkJsSig_cases js.length pubkey sig with ⟨k, s, hk, e⟩ | ⟨-, e⟩ <;> rw [e]
  case inr => exact .inr (.inl rfl)
  rw [ok_bind, hi.iter.2, ok_bind, ok_bind, check_bind]
  by_cases hs : js.length + ins.length + ss.length ≠ 0
  case neg => rw [if_neg hs]; exact .inr (.inl rfl)
  rw [if_pos hs]
  by_cases li : ins.length < 2 ^ 64
  case neg => rw [addVector_error hi li]; exact .inr (.inl rfl)
  rw [addVector_ok hi li, ok_bind]
  by_cases lo : outs.length < 2 ^ 64
  case neg => rw [addVector_error hout lo]; exact .inr (.inl rfl)
  rw [addVector_ok hout lo, ok_bind, iadd_ok.2 ⟨bl, hl, rfl⟩, ok_bind, iadd_ok.2 ⟨be, he, rfl⟩, ok_bind, iadd_ok.2 ⟨bb, hb, rfl⟩, ok_bind]
  by_cases lss : ss.length < 2 ^ 64
  case neg => rw [addVector_error hss lss]; exact .inr (.inl rfl)
  rw [addVector_ok hss lss, ok_bind]
  by_cases lso : so.length < 2 ^ 64
  case neg => rw [addVector_error hsoo lso]; exact .inr (.inl rfl)
  refine .inl ⟨bl, be, bb, ins, outs, ss, so, js, bi, bo, bs, bt, bj, k, s, bg, ⟨hz, ho, hl, ll _ rfl, he, le _ rfl, by omega, hb, lb _ rfl,
    fun e1 e2 => hbz (by rw [e1, e2]; rfl), hi, li, hout, lo, hss, lss, hsoo, lso, ⟨hj, by omega, hk⟩, ?_⟩, hbg⟩
  by_cases e0 : ins = []
  · by_cases e1 : js = []
    · right; right; rintro rfl; exact hs (by rw [e0, e1]; rfl)
    · exact .inr (.inl e1)
  · exact .inl e0

/-- C116: `SaplingTx(…)` with whatever arguments makes an object exactly when: the network is a Sapling one; lock time, expiry height and value balance are bytes-like of 4, 4 and 8
bytes, the height at most 499999999, the balance zero if there are neither spends nor outputs; inputs, outputs, shielded spends and outputs, and joinsplits are lists or tuples (or
anything iterable and empty) of objects of the classes, at most 5 joinsplits, and some input, spend or joinsplit; if there are joinsplits, public key and signature are bytes-like of
32 and 64 bytes; the binding signature is bytes-like of 64 bytes, or None if there are neither spends nor outputs; and the transaction has at most 100000 bytes. Its bytes are then
those of the transaction on the wire. Otherwise it raises ValueError, or TypeError if an argument that should be a sequence has no length, or if the binding signature is missing. -/
theorem C116_sapling (E : Env) (txIns txOuts lockTime expiry balance spends outputs txJoinsplits pubkey sig binding : Val)
    (hm : ∀ l, IsSeq txJoinsplits l → ∀ v ∈ l, v.isInstance .saplingJs = true → JsMade .saplingJs .saplingProof v) :
    (∀ v, Dyn.saplingTx E txIns txOuts lockTime expiry balance spends outputs txJoinsplits pubkey sig binding = .ok v ↔
      ∃ bl be bb ins outs ss so js bi bo bs bt bj k s bg,
        SapArgs E.net txIns txOuts lockTime expiry balance spends outputs txJoinsplits pubkey sig bl be bb ins outs ss so js bi bo bs bt bj k s ∧ BindingArg binding bg ∧
        (binding = .none → ss = [] ∧ so = []) ∧ (wireSapling bi bo bl be bb bs bt bj k s bg).length ≤ 100000 ∧
        v = sapObj E lockTime expiry balance pubkey sig binding ins outs ss so js bj k (wireSapling bi bo bl be bb bs bt bj k s bg)) ∧
    ∀ e, Dyn.saplingTx E txIns txOuts lockTime expiry balance spends outputs txJoinsplits pubkey sig binding = .error e → e = .valueError ∨
      e = .typeError ∧ ((∃ v ∈ [txIns, txOuts, spends, outputs, txJoinsplits], v.len = .error .typeError) ∨ binding = .none) := by
  have key : ∀ {bl be bb ins outs ss so js bi bo bs bt bj k s bg},
      SapArgs E.net txIns txOuts lockTime expiry balance spends outputs txJoinsplits pubkey sig bl be bb ins outs ss so js bi bo bs bt bj k s → BindingArg binding bg →
      Dyn.saplingTx E txIns txOuts lockTime expiry balance spends outputs txJoinsplits pubkey sig binding =
        if ¬ (ss = [] ∧ so = []) ∧ binding.content = none then .error .typeError
        else (do check (¬ (wireSapling bi bo bl be bb bs bt bj k s bg).length > 100000) .valueError
                 .ok (sapObj E lockTime expiry balance pubkey sig binding ins outs ss so js bj k (wireSapling bi bo bl be bb bs bt bj k s bg))) := by
    intro bl be bb ins outs ss so js bi bo bs bt bj k s bg h hb
    refine sap_ok_of h hb fun v hv => ?_
    rcases h.js_ok.seq.seq with hs | ⟨-, rfl⟩
    · exact hm js hs v hv (List.all_eq_true.1 h.js_ok.seq.cls v hv)
    · nomatch hv
  have hnone : ∀ {bg}, BindingArg binding bg → (binding.content = none ↔ binding = .none) := by
    rintro bg (⟨rfl, -⟩ | ⟨h, -⟩)
    · simp [Val.content]
    · constructor
      · intro h'; rw [show binding.content = some bg from h] at h'; cases h'
      · rintro rfl; rfl
  constructor
  · intro v
    constructor
    · intro h
      rcases sap_tests E txIns txOuts lockTime expiry balance spends outputs txJoinsplits pubkey sig binding with
        ⟨bl, be, bb, ins, outs, ss, so, js, bi, bo, bs, bt, bj, k, s, bg, ha, hb⟩ | e | ⟨e, -⟩
      · rw [key ha hb] at h
        split at h
        · cases h
        · rename_i hc
          rw [check_bind] at h
          split at h
          · cases h
            refine ⟨bl, be, bb, ins, outs, ss, so, js, bi, bo, bs, bt, bj, k, s, bg, ha, hb, fun e => ?_, by omega, rfl⟩
            exact Classical.byContradiction fun hn => hc ⟨hn, (hnone hb).2 e⟩
          · cases h
      · rw [e] at h; cases h
      · rw [e] at h; cases h
    · rintro ⟨bl, be, bb, ins, outs, ss, so, js, bi, bo, bs, bt, bj, k, s, bg, ha, hb, hn, hs, rfl⟩
      rw [key ha hb, if_neg (fun hc => hc.1 (hn ((hnone hb).1 hc.2))), check_bind, if_pos (by omega)]
  · intro e h
    rcases sap_tests E txIns txOuts lockTime expiry balance spends outputs txJoinsplits pubkey sig binding with
        ⟨bl, be, bb, ins, outs, ss, so, js, bi, bo, bs, bt, bj, k, s, bg, ha, hb⟩ | e' | ⟨e', ht⟩
    · rw [key ha hb] at h
      split at h
      · rename_i hc
        cases h; exact .inr ⟨rfl, .inr ((hnone hb).1 hc.2)⟩
      · rw [check_bind] at h
        split at h
        · cases h
        · cases h; exact .inl rfl
    · rw [e'] at h; cases h; exact .inl rfl
    · rw [e'] at h; cases h; exact .inr ⟨rfl, .inl ht⟩

end Verif.Props
