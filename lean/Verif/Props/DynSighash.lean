import Verif.Props.DynBuilder2
import Verif.Props.DynCopy2
import Verif.Props.DynTwin
import Verif.Props.Spend
import Verif.Props.VarInt2

/-! Property C123: what `sighash_all` and `sighash_single` of a `Tx` do with arguments of any type. -/

namespace Verif.Props
open Verif Spec

attribute [local irreducible] Env.hash256

/-- Neither a flag nor witnesses: the attributes `flag` and `tx_witnesses` are None. -/
def Plain (v : Val) : Prop := ∃ attrs b, v = .obj .tx attrs b ∧ attrs[1]? = some .none ∧ attrs[4]? = some .none

/-- `index` is an integer that, from the front or from the back, points to the input `inp` at `i`. -/
def PointsTo (w : WireTx) (index : Val) (i : Nat) (inp : WireIn) : Prop :=
  ∃ n : Int, index = .int n ∧ (n = i ∨ n = (i : Int) - w.ins.length) ∧ w.ins[i]? = some inp

/-- `index` is an integer that, from the front or from the back, points to the output at `j`. -/
def OutAt (w : WireTx) (index : Val) (j : Nat) : Prop :=
  ∃ n : Int, index = .int n ∧ (n = j ∨ n = (j : Int) - w.outs.length) ∧ j < w.outs.length

/-- The number that is written behind: 1 or 3, and 128 for ANYONECANPAY. -/
def hashWord (single acp : Bool) : Nat := (if single then 3 else 1) + (if acp then 128 else 0)

theorem hashWord_eq : hashWord = Verif.sigType := rfl

theorem plain_iff {E : Env} {v : Val} {t : Tx} (h : TxTwin E v t) : Plain v ↔ t.isWitness = false := by
  obtain ⟨_, f, _, _, w, _, _, _, _, _, rfl, _, _, _, _, hf, hw, _⟩ := h
  have e : t.isWitness = false ↔ t.flag = none ∧ t.txWitnesses = none := by
    unfold Tx.isWitness; cases t.flag <;> cases t.txWitnesses <;> simp
  rw [e, ← hf, ← hw]
  constructor
  · rintro ⟨attrs, b, h, h1, h2⟩
    cases h
    simpa using And.intro h1 h2
  · rintro ⟨rfl, rfl⟩
    exact ⟨_, _, rfl, rfl, rfl⟩

theorem twin_fields {E : Env} (hn : E.net.Supported) {v : Val} {t : Tx} (h : TxTwin E v t) {w : WireTx} (hw : Loose w) (hb : v.content = some w.bytes) : w = fieldsOf t := by
  apply WireTx.bytes_inj hw (fieldsOf_loose h.built)
  rw [fieldsOf_bytes hn h.built]
  rw [h.content] at hb
  exact (Option.some.inj hb).symm

theorem pyIndex_iff {n : Int} {len i : Nat} : pyIndex n len = some i ↔ (n = i ∨ n = (i : Int) - len) ∧ i < len := by
  unfold pyIndex
  split
  · split
    · constructor
      · intro h; cases h; omega
      · rintro ⟨h1, h2⟩
        congr 1; omega
    · simp; omega
  · split
    · constructor
      · intro h; cases h; omega
      · rintro ⟨h1, h2⟩
        congr 1; omega
    · simp; omega

theorem pointsTo_iff {t : Tx} {index : Val} {i : Nat} {inp : WireIn} :
    PointsTo (fieldsOf t) index i inp ↔ ∃ (n : Int) (h : i < t.txIns.length), index = .int n ∧ pyIndex n t.txIns.length = some i ∧
      inp = ⟨t.txIns[i].outpoint.txId, t.txIns[i].outpoint.index, t.txIns[i].scriptSig, t.txIns[i].sequence⟩ := by
  unfold PointsTo
  constructor
  · rintro ⟨n, rfl, h1, h2⟩
    obtain ⟨hl, rfl⟩ := List.getElem?_eq_some_iff.1 h2
    simp only [fieldsOf, List.length_map] at hl h1
    exact ⟨n, hl, rfl, pyIndex_iff.2 ⟨h1, hl⟩, by simp [fieldsOf]⟩
  · rintro ⟨n, hl, rfl, h1, rfl⟩
    refine ⟨n, rfl, by simpa [fieldsOf] using (pyIndex_iff.1 h1).1, ?_⟩
    simp [fieldsOf, hl]

theorem outAt_iff {t : Tx} {n : Int} {j : Nat} : OutAt (fieldsOf t) (.int n) j ↔ pyIndex n t.txOuts.length = some j := by
  unfold OutAt
  rw [pyIndex_iff]
  simp [fieldsOf]

/-- The method that is called. -/
def Dyn.sighash (single : Bool) (E : Env) (v index script value acp : Val) : Py Val :=
  if single then Dyn.sighashSingle E v index script value acp else Dyn.sighashAll E v index script value acp

def Tx.sighashOf (single : Bool) (E : Env) (t : Tx) (n : Int) (s : Bytes) (x : Option Bytes) (a : Bool) : Py Bytes :=
  if single then t.sighashSingle E n s x a else t.sighashAll E n s x a

theorem same_sighash {E : Env} (hn : E.net.Supported) {v : Val} {t : Tx} (h : TxTwin E v t) (single : Bool) (n : Int) {script : Val} {s : Bytes} (hs : script.content = some s)
    (value acp : Val) : Dyn.sighash single E v (.int n) script value acp = (Tx.sighashOf single E t n s value.content acp.truthy).map Val.bytes := by
  cases single
  · exact same_all hn h n hs value acp
  · exact same_single hn h n hs value acp

/-! ### what every call needs -/

theorem from_none {v r : Val} {i : Nat} (h : v.content = none) (e : v.from_ i = .ok r) : r.content = none ∧ r ≠ .none := by
  cases v <;> simp_all [Val.content, Val.from_] <;> subst e <;> simp

theorem need_prep {E : Env} {v : Val} {index script x : Val} (h : Dyn.sighashPrep E v index script = .ok x) :
    (∃ n, index = .int n) ∧ ∃ s, script.content = some s := by
  unfold Dyn.sighashPrep at h
  simp only [bind_ok_iff] at h
  obtain ⟨ins, _, c, _, k, _, cur, hc, rest, hr, cur', hc', _⟩ := h
  refine ⟨by cases index <;> first | exact ⟨_, rfl⟩ | (cases hc), ?_⟩
  cases hs : script.content with
  | some s => exact ⟨s, rfl⟩
  | none =>
    obtain ⟨h1, h2⟩ := from_none hs hr
    unfold Dyn.copyTxIn at hc'
    split at hc'
    · have e : ∀ c, Dyn.keep rest c = rest := by intro c; cases rest <;> first | rfl | exact absurd rfl h2
      rw [e] at hc'
      obtain ⟨_, _, br, _, _, _, _, hb, _⟩ := ((C114_txIn _ _ _ _).1 _).1 hc'
      rw [Byteslike, h1] at hb; cases hb
    · cases hc'

theorem need_143 {E : Env} {v : Val} {t : Tx} (h : TxTwin E v t) {index script value acp d : Val} {ty : Nat} {last : Py Bytes}
    (hd : Dyn.sighash143 E v index ty value script acp last = .ok d) : (∃ n, index = .int n) ∧ ∃ s, script.content = some s := by
  by_cases hi : ∃ n, index = .int n
  · obtain ⟨n, rfl⟩ := hi
    refine ⟨⟨n, rfl⟩, ?_⟩
    cases hs : script.content with
    | some s => exact ⟨s, rfl⟩
    | none =>
      rw [no_143 h _ _ (.inl hs)] at hd
      cases hg : getItem t.txIns n <;> rw [hg] at hd <;> cases hd
  · rw [bad_index_143 h (fun n c => hi ⟨n, c⟩)] at hd; cases hd

theorem need_args {E : Env} {v : Val} {t : Tx} (h : TxTwin E v t) {single : Bool} {index script value acp d : Val}
    (hd : Dyn.sighash single E v index script value acp = .ok d) : (∃ n, index = .int n) ∧ ∃ s, script.content = some s := by
  have kf : ∀ {k ty}, Dyn.sighashForkid E v k index script value ty acp = .ok d → (∃ n, index = .int n) ∧ ∃ s, script.content = some s := by
    intro k ty hd
    unfold Dyn.sighashForkid at hd
    simp only [bind_ok_iff] at hd
    obtain ⟨_, _, hd⟩ := hd
    exact need_143 h hd
  cases single with
  | false =>
    simp only [Dyn.sighash, Dyn.sighashAll, Bool.false_eq_true, if_false] at hd
    cases hf : E.net.forkid with
    | some k => simp only [hf] at hd; exact kf hd
    | none =>
      simp only [hf, bind_ok_iff] at hd
      obtain ⟨b, _, hd⟩ := hd
      cases b with
      | true => exact need_143 h hd
      | false =>
        simp only [Bool.false_eq_true, if_false, bind_ok_iff] at hd
        obtain ⟨c, hc, _⟩ := hd
        exact need_prep hc
  | true =>
    simp only [Dyn.sighash, Dyn.sighashSingle, if_true, bind_ok_iff] at hd
    obtain ⟨outs, _, ge, _, hd⟩ := hd
    cases ge with
    | true => cases hd
    | false =>
    simp only [Bool.false_eq_true, if_false] at hd
    cases hf : E.net.forkid with
    | some k => simp only [hf] at hd; exact kf hd
    | none =>
      simp only [hf, bind_ok_iff] at hd
      obtain ⟨b, _, hd⟩ := hd
      cases b with
      | true => exact need_143 h hd
      | false =>
        simp only [Bool.false_eq_true, if_false, Dyn.sighashSingleLegacy, bind_ok_iff] at hd
        obtain ⟨c, hc, _⟩ := hd
        exact need_prep hc

/-! ### the typed methods, exactly -/

theorem bytes_ok {p : Py Bytes} {d : Val} : p.map Val.bytes = .ok d ↔ ∃ b, p = .ok b ∧ d = .bytes b := by
  cases p with
  | error e => constructor <;> intro h <;> [cases h; (obtain ⟨_, h, _⟩ := h; cases h)]
  | ok x =>
    constructor
    · intro h; cases h; exact ⟨_, rfl, rfl⟩
    · rintro ⟨b, h, rfl⟩; cases h; rfl

theorem getItem_some {α : Type} {l : List α} {n : Int} {x : α} (h : getItem l n = .ok x) : ∃ i, pyIndex n l.length = some i := by
  cases hi : pyIndex n l.length with
  | some i => exact ⟨i, rfl⟩
  | none => rw [getItem_none hi] at h; cases h

theorem outs_some {E : Env} {t : Tx} {n : Int} {single : Bool} {b : Bytes} (h : t.hashOutputs E n (if single then SIGHASH_SINGLE else SIGHASH_ALL) = .ok b) :
    ∃ j, single = true → pyIndex n t.txOuts.length = some j := by
  cases single with
  | false => exact ⟨0, by simp⟩
  | true =>
    simp only [if_true] at h
    unfold Tx.hashOutputs at h
    rw [if_neg (by decide)] at h
    split at h
    · simp only [bind_ok_iff] at h
      obtain ⟨o, ho, _⟩ := h
      obtain ⟨j, hj⟩ := getItem_some ho
      exact ⟨j, fun _ => hj⟩
    · cases h

theorem segwit_iff {E : Env} {t : Tx} (h : t.Built E) (single acp : Bool) (n : Int) (s : Bytes) (value : Option Bytes) (b : Bytes) :
    t.segwitSighash E n (if single then SIGHASH_SINGLE else SIGHASH_ALL) value s acp = .ok b ↔
      ∃ (i j : Nat) (x : Bytes) (hl : i < t.txIns.length), pyIndex n t.txIns.length = some i ∧ (single = true → pyIndex n t.txOuts.length = some j) ∧ value = some x ∧
        b = E.hash256 (bip143 E.hash256 t.sig j (t.txIns[i].outpoint.txId ++ t.txIns[i].outpoint.index) t.txIns[i].sequence s x (hashWord single acp)) := by
  rw [hashWord_eq]
  constructor
  · intro hb
    have hb' := hb
    unfold Tx.segwitSighash at hb
    cases value with
    | none =>
      cases hg : getItem t.txIns n <;> rw [hg] at hb <;> cases hb
    | some x =>
      obtain ⟨cur, hc, hb⟩ := (bind_ok_iff ..).1 hb
      obtain ⟨i, hi⟩ := getItem_some hc
      obtain ⟨_, _, hb⟩ := (bind_ok_iff ..).1 hb
      obtain ⟨outs, ho, _⟩ := (bind_ok_iff ..).1 hb
      obtain ⟨j, hj⟩ := outs_some ho
      refine ⟨i, j, x, pyIndex_lt hi, hi, hj, rfl, ?_⟩
      rw [Tx.segwitSighash_out h hi single acp hj s x] at hb'
      exact (Except.ok.inj hb').symm
  · rintro ⟨i, j, x, hl, hi, hj, rfl, rfl⟩
    rw [Tx.segwitSighash_out h hi single acp hj s x]

theorem forkid_iff {E : Env} {t : Tx} (h : t.Built E) {k : Nat} (hk : k < 100) (single acp : Bool) (n : Int) (s : Bytes) (value : Option Bytes) (b : Bytes) :
    t.sighashForkid E k n s value (if single then SIGHASH_SINGLE else SIGHASH_ALL) acp = .ok b ↔
      ∃ (i j : Nat) (x : Bytes) (hl : i < t.txIns.length), pyIndex n t.txIns.length = some i ∧ (single = true → pyIndex n t.txOuts.length = some j) ∧ value = some x ∧
        x.length = 8 ∧
        b = E.hash256 (bip143 E.hash256 t.sig j (t.txIns[i].outpoint.txId ++ t.txIns[i].outpoint.index) t.txIns[i].sequence s x (k * 256 + hashWord single acp + 0x40)) := by
  have e : k * 256 + hashWord single acp + 0x40 = forkidType k (Verif.sigType single acp) := rfl
  rw [e]
  constructor
  · intro hb
    have hb' := hb
    unfold Tx.sighashForkid at hb
    cases value with
    | none => cases hb
    | some x =>
      simp only [bind_ok_iff, validateBytes_ok] at hb
      obtain ⟨_, hx, _, _, cur, hc, outs, ho, _⟩ := hb
      obtain ⟨i, hi⟩ := getItem_some hc
      obtain ⟨j, hj⟩ := outs_some ho
      refine ⟨i, j, x, pyIndex_lt hi, hi, hj, rfl, hx, ?_⟩
      rw [Tx.sighashForkid_out h hk hi single acp hj s x hx] at hb'
      exact (Except.ok.inj hb').symm
  · rintro ⟨i, j, x, hl, hi, hj, rfl, hx, rfl⟩
    exact Tx.sighashForkid_out h hk hi single acp hj s x hx

/-- What a legacy transaction signs: the input at `i`, and with SINGLE the output `o`, among blank outputs, as many as there are inputs. -/
def legacyData (t : SigTx) (single : Bool) (i : Nat) (o s : Bytes) (type : Nat) : Bytes :=
  if single then
    wireLegacy t.version (legacyIns t i type s)
      (List.replicate i (List.replicate 8 0xff ++ [0x00]) ++ o :: List.replicate (t.ins.length - (i + 1)) (List.replicate 8 0xff ++ [0x00])) t.lockTime ++ leBytes 4 type
  else legacyPreimage t i s type

theorem set_replicate {α : Type} {n i : Nat} (h : i < n) (a b : α) : (List.replicate n a).set i b = List.replicate i a ++ b :: List.replicate (n - (i + 1)) a := by
  apply List.ext_getElem
  · simp; omega
  · intro k h1 h2
    simp only [List.getElem_set, List.getElem_append, List.getElem_replicate, List.length_replicate, List.getElem_cons]
    by_cases c : i = k
    · subst c; simp
    · rw [if_neg c]
      by_cases c2 : k < i
      · simp [c2]
      · simp [c2]
        intro h; omega

theorem legacy_iff {E : Env} {t : Tx} (h : t.Built E) (hf : E.net.forkid = none) (hw : t.isWitness = false) (single acp : Bool) (n : Int) (s : Bytes) (value : Option Bytes)
    (b : Bytes) : Tx.sighashOf single E t n s value acp = .ok b ↔
      ∃ (i j : Nat) (x : VarInt), pyIndex n t.txIns.length = some i ∧ (single = true → pyIndex n t.txOuts.length = some j) ∧ VarInt.fromBytes E.net s = .ok x ∧
        (s.drop x.bytes.length).length ≤ 1650 ∧ b = E.hash256 (legacyData t.sig single i (t.sig.outs.getD j []) (s.drop x.bytes.length) (hashWord single acp)) := by
  rw [hashWord_eq]
  have fwd : ∀ {i j : Nat} {x : VarInt}, pyIndex n t.txIns.length = some i → (single = true → pyIndex n t.txOuts.length = some j) → VarInt.fromBytes E.net s = .ok x →
      (s.drop x.bytes.length).length ≤ 1650 → Tx.sighashOf single E t n s value acp =
        .ok (E.hash256 (legacyData t.sig single i (t.sig.outs.getD j []) (s.drop x.bytes.length) (Verif.sigType single acp))) := by
    intro i j x hi hj hx hl
    cases single with
    | false => exact Tx.sighashAll_read h hf hw hi hx rfl hl value acp
    | true =>
      refine (Tx.sighashSingle_read h hf hw hi (hj rfl) hx rfl hl value acp).trans ?_
      rw [set_replicate (pyIndex_lt hi)]
      simp only [legacyData, if_true, Tx.sig, List.length_map]
  have prep : ∀ {c}, t.sighashPrep E n s = .ok c → ∃ (i : Nat) (x : VarInt), pyIndex n t.txIns.length = some i ∧ VarInt.fromBytes E.net s = .ok x ∧
      (s.drop x.bytes.length).length ≤ 1650 ∧ c.txOuts = t.txOuts := by
    intro c hc
    have hc0 := hc
    have hm := mapPy_ok (f := fun i : TxIn => i.copy (stackScript := some []) (redeemScript := some [])) (g := fun i => inWith [] i.sequence i)
      (l := t.txIns) (fun x hx => inWith_make ((h.facts.ins x hx).eq).1 (by simp) ((h.facts.ins x hx).eq).2.1)
    unfold Tx.sighashPrep at hc
    rw [hm, ok_bind] at hc
    simp only [bind_ok_iff] at hc
    obtain ⟨x, hx, cur, hg, cur', hc', _⟩ := hc
    obtain ⟨i, hi⟩ := getItem_some hg
    rw [List.length_map] at hi
    have hl : (s.drop x.bytes.length).length ≤ 1650 := by
      rw [getItem_ok (by rw [List.length_map]; exact hi)] at hg
      cases hg
      by_cases hl : (s.drop x.bytes.length).length ≤ 1650
      · exact hl
      · rw [copy_long (by simp [inWith]) hl] at hc'; cases hc'
    refine ⟨i, x, hi, hx, hl, ?_⟩
    rw [Tx.sighashPrep_read h hw hi hx rfl hl] at hc0
    cases hc0; rfl
  constructor
  · intro hb
    have hb' := hb
    suffices hh : ∃ (i j : Nat) (x : VarInt), pyIndex n t.txIns.length = some i ∧ (single = true → pyIndex n t.txOuts.length = some j) ∧
        VarInt.fromBytes E.net s = .ok x ∧ (s.drop x.bytes.length).length ≤ 1650 by
      obtain ⟨i, j, x, hi, hj, hx, hl⟩ := hh
      rw [fwd hi hj hx hl] at hb'
      exact ⟨i, j, x, hi, hj, hx, hl, (Except.ok.inj hb').symm⟩
    cases single with
    | false =>
      simp only [Tx.sighashOf, Tx.sighashAll, hf, hw, Bool.false_eq_true, if_false, bind_ok_iff] at hb
      obtain ⟨c, hc, _⟩ := hb
      obtain ⟨i, x, hi, hx, hl, _⟩ := prep hc
      exact ⟨i, 0, x, hi, by simp, hx, hl⟩
    | true =>
      simp only [Tx.sighashOf, Tx.sighashSingle, hf, hw, Bool.false_eq_true, if_true, if_false] at hb
      split at hb
      · cases hb
      · simp only [Tx.sighashSingleLegacy, bind_ok_iff] at hb
        obtain ⟨c, hc, _, _, o, ho, _⟩ := hb
        obtain ⟨i, x, hi, hx, hl, e⟩ := prep hc
        rw [e] at ho
        obtain ⟨j, hj⟩ := getItem_some ho
        exact ⟨i, j, x, hi, fun _ => hj, hx, hl⟩
  · rintro ⟨i, j, x, hi, hj, hx, hl, rfl⟩
    exact fwd hi hj hx hl

/-! ### C123 -/

/-- C123, transactions with a flag or witnesses, on a network without a fork id. Whatever the types of the arguments, `sighash_all` (and `sighash_single`) return something
exactly if the index is an integer that points to an input (and an output), and script and value are bytes-like. Then it is the digest of BIP143, of the input and output
pointed to. The value can have any length. -/
theorem C123_witness {S : Network → Prop} (hS : ∀ n, S n → n.Supported) (E : Env) (hn : E.net.Supported) (hf : E.net.forkid = none) (v : Val) (h : MadeOn S E v) (hc : v.isInstance .tx = true) (hp : ¬ Plain v)
    (w : WireTx) (hw : Loose w) (hb : v.content = some w.bytes) (index script value acp : Val) (a : Bool) (ha : a = true ↔ ¬ IsFalse acp) (single : Bool) (d : Val) :
    Dyn.sighash single E v index script value acp = .ok d ↔ ∃ i inp j s x, PointsTo w index i inp ∧ (single = true → OutAt w index j) ∧ Byteslike script s ∧ Byteslike value x ∧
      d = .bytes (E.hash256 (bip143 E.hash256 w.sig j (inp.txId ++ inp.index) inp.sequence s x (hashWord single a))) := by
  obtain ⟨t, ht⟩ := tx_twin hS hn h hc
  have e := twin_fields hn ht hw hb
  subst e
  have hwit : t.isWitness = true := by
    cases c : t.isWitness
    · exact absurd ((plain_iff ht).2 c) hp
    · rfl
  have ha : acp.truthy = a := by rw [Bool.eq_iff_iff, truthy_iff, ha]
  rw [fieldsOf_sig]
  have key : ∀ (n : Int) (s : Bytes), script.content = some s → (Dyn.sighash single E v (.int n) script value acp = .ok d ↔
      ∃ b, (single = true → n < t.txOuts.length) ∧ t.segwitSighash E n (if single then SIGHASH_SINGLE else SIGHASH_ALL) value.content s a = .ok b ∧ d = .bytes b) := by
    intro n s hs
    rw [same_sighash hn ht single n hs, ha, bytes_ok]
    apply exists_congr
    intro b
    rw [← and_assoc]
    apply and_congr_left'
    cases single with
    | false => simp [Tx.sighashOf, Tx.sighashAll, hf, hwit]
    | true =>
      by_cases c : n ≥ (t.txOuts.length : Int)
      · simp [Tx.sighashOf, Tx.sighashSingle, c]
      · simp [Tx.sighashOf, Tx.sighashSingle, hf, hwit, c]; omega
  constructor
  · intro hd
    obtain ⟨⟨n, rfl⟩, s, hs⟩ := need_args ht hd
    obtain ⟨b, _, hb, rfl⟩ := (key n s hs).1 hd
    obtain ⟨i, j, x, hl, hi, hj, hx, rfl⟩ := (segwit_iff ht.built single a n s value.content b).1 hb
    exact ⟨i, _, j, s, x, pointsTo_iff.2 ⟨n, hl, rfl, hi, rfl⟩, fun c => outAt_iff.2 (hj c), hs, hx, rfl⟩
  · rintro ⟨i, inp, j, s, x, hpt, hj, hs, hx, rfl⟩
    obtain ⟨n, hl, rfl, hi, rfl⟩ := pointsTo_iff.1 hpt
    refine (key n s hs).2 ⟨_, fun c => ?_, (segwit_iff ht.built single a n s value.content _).2 ⟨i, j, x, hl, hi, fun c => outAt_iff.1 (hj c), hx, rfl⟩, rfl⟩
    have := pyIndex_below (outAt_iff.1 (hj c)); omega

/-- C123, networks with a fork id, every transaction: as with witnesses, but the value must have eight bytes. -/
theorem C123_forkid {S : Network → Prop} (hS : ∀ n, S n → n.Supported) (E : Env) (hn : E.net.Supported) (k : Nat) (hf : E.net.forkid = some k) (v : Val) (h : MadeOn S E v) (hc : v.isInstance .tx = true)
    (w : WireTx) (hw : Loose w) (hb : v.content = some w.bytes) (index script value acp : Val) (a : Bool) (ha : a = true ↔ ¬ IsFalse acp) (single : Bool) (d : Val) :
    Dyn.sighash single E v index script value acp = .ok d ↔ ∃ i inp j s x, PointsTo w index i inp ∧ (single = true → OutAt w index j) ∧ Byteslike script s ∧ Byteslike value x ∧
      x.length = 8 ∧
      d = .bytes (E.hash256 (bip143 E.hash256 w.sig j (inp.txId ++ inp.index) inp.sequence s x (k * 256 + hashWord single a + 0x40))) := by
  obtain ⟨t, ht⟩ := tx_twin hS hn h hc
  have e := twin_fields hn ht hw hb
  subst e
  have ha : acp.truthy = a := by rw [Bool.eq_iff_iff, truthy_iff, ha]
  have hk := forkid_facts hn hf
  rw [fieldsOf_sig]
  have key : ∀ (n : Int) (s : Bytes), script.content = some s → (Dyn.sighash single E v (.int n) script value acp = .ok d ↔
      ∃ b, (single = true → n < t.txOuts.length) ∧ t.sighashForkid E k n s value.content (if single then SIGHASH_SINGLE else SIGHASH_ALL) a = .ok b ∧ d = .bytes b) := by
    intro n s hs
    rw [same_sighash hn ht single n hs, ha, bytes_ok]
    apply exists_congr
    intro b
    rw [← and_assoc]
    apply and_congr_left'
    cases single with
    | false => simp [Tx.sighashOf, Tx.sighashAll, hf]
    | true =>
      by_cases c : n ≥ (t.txOuts.length : Int)
      · simp [Tx.sighashOf, Tx.sighashSingle, c]
      · simp [Tx.sighashOf, Tx.sighashSingle, hf, c]; omega
  constructor
  · intro hd
    obtain ⟨⟨n, rfl⟩, s, hs⟩ := need_args ht hd
    obtain ⟨b, _, hb, rfl⟩ := (key n s hs).1 hd
    obtain ⟨i, j, x, hl, hi, hj, hx, h8, rfl⟩ := (forkid_iff ht.built hk single a n s value.content b).1 hb
    exact ⟨i, _, j, s, x, pointsTo_iff.2 ⟨n, hl, rfl, hi, rfl⟩, fun c => outAt_iff.2 (hj c), hs, hx, h8, rfl⟩
  · rintro ⟨i, inp, j, s, x, hpt, hj, hs, hx, h8, rfl⟩
    obtain ⟨n, hl, rfl, hi, rfl⟩ := pointsTo_iff.1 hpt
    refine (key n s hs).2 ⟨_, fun c => ?_, (forkid_iff ht.built hk single a n s value.content _).2 ⟨i, j, x, hl, hi, fun c => outAt_iff.1 (hj c), hx, h8, rfl⟩, rfl⟩
    have := pyIndex_below (outAt_iff.1 (hj c)); omega

/-- C123, transactions with neither flag nor witnesses, on a network without a fork id. The script must begin with something that reads as a number; the bytes behind it, at
most 1650, are signed. The value is not looked at: it can be of any type. -/
theorem C123_legacy {S : Network → Prop} (hS : ∀ n, S n → n.Supported) (E : Env) (hn : E.net.Supported) (hf : E.net.forkid = none) (v : Val) (h : MadeOn S E v) (hc : v.isInstance .tx = true) (hp : Plain v)
    (w : WireTx) (hw : Loose w) (hb : v.content = some w.bytes) (index script value acp : Val) (a : Bool) (ha : a = true ↔ ¬ IsFalse acp) (single : Bool) (d : Val) :
    Dyn.sighash single E v index script value acp = .ok d ↔ ∃ i inp j first tl p k, PointsTo w index i inp ∧ (single = true → OutAt w index j) ∧
      Byteslike script (first :: tl) ∧ readVarInt (E.net.isOverwinter || E.net.isSapling) first tl = some (p, k) ∧ ((first :: tl).drop p.length).length ≤ 1650 ∧
      d = .bytes (E.hash256 (legacyData w.sig single i (w.sig.outs.getD j []) ((first :: tl).drop p.length) (hashWord single a))) := by
  obtain ⟨t, ht⟩ := tx_twin hS hn h hc
  have e := twin_fields hn ht hw hb
  subst e
  have hwit := (plain_iff ht).1 hp
  have ha : acp.truthy = a := by rw [Bool.eq_iff_iff, truthy_iff, ha]
  rw [fieldsOf_sig]
  have key : ∀ (n : Int) (s : Bytes), script.content = some s → (Dyn.sighash single E v (.int n) script value acp = .ok d ↔
      ∃ b, Tx.sighashOf single E t n s value.content a = .ok b ∧ d = .bytes b) := by
    intro n s hs
    rw [same_sighash hn ht single n hs, ha, bytes_ok]
  have hr : ∀ (s : Bytes) (x : VarInt), VarInt.fromBytes E.net s = .ok x ↔ ∃ first tl, s = first :: tl ∧
      readVarInt (E.net.isOverwinter || E.net.isSapling) first tl = some (x.bytes, x.number) := by
    intro s x
    rw [C09_exact]
    cases s with
    | nil => simp
    | cons first tl =>
      cases hv : readVarInt (E.net.isOverwinter || E.net.isSapling) first tl with
      | none => simp [hv]
      | some r =>
        obtain ⟨p, k⟩ := r
        obtain ⟨bytes, number⟩ := x
        simp [hv]
  constructor
  · intro hd
    obtain ⟨⟨n, rfl⟩, s, hs⟩ := need_args ht hd
    obtain ⟨b, hb, rfl⟩ := (key n s hs).1 hd
    obtain ⟨i, j, x, hi, hj, hx, hl, rfl⟩ := (legacy_iff ht.built hf hwit single a n s value.content b).1 hb
    obtain ⟨first, tl, rfl, hx'⟩ := (hr s x).1 hx
    exact ⟨i, _, j, first, tl, x.bytes, x.number, pointsTo_iff.2 ⟨n, pyIndex_lt hi, rfl, hi, rfl⟩, fun c => outAt_iff.2 (hj c), hs, hx', hl, rfl⟩
  · rintro ⟨i, inp, j, first, tl, p, k, hpt, hj, hs, hx, hl, rfl⟩
    obtain ⟨n, hl', rfl, hi, rfl⟩ := pointsTo_iff.1 hpt
    exact (key n _ hs).2 ⟨_, (legacy_iff ht.built hf hwit single a n _ value.content _).2
      ⟨i, j, ⟨p, k⟩, hi, fun c => outAt_iff.1 (hj c), (hr _ _).2 ⟨first, tl, rfl, hx⟩, hl, rfl⟩, rfl⟩

/-- An index that is no integer is a TypeError: always with `sighash_single`, and with `sighash_all` of a transaction with a flag or witnesses. -/
theorem C123_index {S : Network → Prop} (hS : ∀ n, S n → n.Supported) (E : Env) (hn : E.net.Supported) (v : Val) (h : MadeOn S E v) (hc : v.isInstance .tx = true) (index : Val) (hi : ∀ n, index ≠ .int n) (script value acp : Val) :
    Dyn.sighashSingle E v index script value acp = .error .typeError ∧
    (E.net.forkid = none → ¬ Plain v → Dyn.sighashAll E v index script value acp = .error .typeError) := by
  obtain ⟨t, ht⟩ := tx_twin hS hn h hc
  constructor
  · obtain ⟨outs, e, _⟩ := ht.outs
    unfold Dyn.sighashSingle
    rw [e, ok_bind]
    cases index <;> first | rfl | exact absurd rfl (hi _)
  · intro hf hp
    have hwit : t.isWitness = true := by
      cases c : t.isWitness
      · exact absurd ((plain_iff ht).2 c) hp
      · rfl
    unfold Dyn.sighashAll
    simp only [hf]
    rw [ht.witness, hwit, ok_bind]
    exact bad_index_143 ht hi _ _ _ _ _

theorem word_ne (single : Bool) : leBytes 4 (hashWord single false) ≠ leBytes 4 (hashWord single true) := by cases single <;> decide

theorem data_word (t : SigTx) (single : Bool) (i : Nat) (o s : Bytes) (type : Nat) : ∃ q, legacyData t single i o s type = q ++ leBytes 4 type := by
  unfold legacyData legacyPreimage
  split <;> exact ⟨_, rfl⟩

/-- C123 is violated by the calls that the overloads of `sighash_all` and `sighash_single` declare (tx/tx.py:687-712, 796-821): an index, a script and `anyone_can_pay`. The
third argument is taken for the value of the output. On a transaction with neither flag nor witnesses it changes nothing: the digest is the one without ANYONECANPAY, and
what it is a digest of differs from what was asked for. On other transactions there is no digest. -/
theorem C123_overload_false {S : Network → Prop} (hS : ∀ n, S n → n.Supported) (E : Env) (hn : E.net.Supported) (v : Val) (h : MadeOn S E v) (hc : v.isInstance .tx = true) (single : Bool) (index script : Val) :
    (E.net.forkid = none → Plain v → Dyn.sighash single E v index script (.int 1) (.int 0) = Dyn.sighash single E v index script .none (.int 0)) ∧
    ((E.net.forkid ≠ none ∨ ¬ Plain v) → ∀ d, Dyn.sighash single E v index script (.int 1) (.int 0) ≠ .ok d) ∧
    ∀ (t : SigTx) (i : Nat) (o s o' s' : Bytes), legacyData t single i o s (hashWord single false) ≠ legacyData t single i o' s' (hashWord single true) := by
  obtain ⟨t, ht⟩ := tx_twin hS hn h hc
  have hw := fieldsOf_loose ht.built
  have hb : v.content = some (fieldsOf t).bytes := by rw [fieldsOf_bytes hn ht.built]; exact ht.content
  refine ⟨fun hf hp => ?_, fun ho d hd => ?_, fun t i o s o' s' hh => ?_⟩
  · have hwit := (plain_iff ht).1 hp
    unfold Dyn.sighash Dyn.sighashSingle Dyn.sighashAll
    simp only [hf, ht.witness, hwit, ok_bind, Bool.false_eq_true, if_false]
  · cases hf : E.net.forkid with
    | none =>
      have hp : ¬ Plain v := by
        rcases ho with ho | ho
        · exact absurd hf ho
        · exact ho
      obtain ⟨_, _, _, _, x, _, _, _, hx, _⟩ := (C123_witness hS E hn hf v h hc hp _ hw hb index script (.int 1) (.int 0) false (by simp [IsFalse]) single d).1 hd
      cases hx
    | some k =>
      obtain ⟨_, _, _, _, x, _, _, _, hx, _⟩ := (C123_forkid hS E hn k hf v h hc _ hw hb index script (.int 1) (.int 0) false (by simp [IsFalse]) single d).1 hd
      cases hx
  · obtain ⟨q, e⟩ := data_word t single i o s (hashWord single false)
    obtain ⟨q', e'⟩ := data_word t single i o' s' (hashWord single true)
    rw [e, e'] at hh
    exact word_ne single (List.append_inj' hh (by simp [leBytes])).2

/-- C123: a value whose length is not eight is refused only on networks with a fork id. On others, with a flag or witnesses, there is a digest for every value. -/
theorem C123_value_false {S : Network → Prop} (hS : ∀ n, S n → n.Supported) (E : Env) (hn : E.net.Supported) (hf : E.net.forkid = none) (v : Val) (h : MadeOn S E v) (hc : v.isInstance .tx = true) (hp : ¬ Plain v)
    (s x : Bytes) (acp : Val) : ∃ d, Dyn.sighash false E v (.int 0) (.bytes s) (.bytearray x) acp = .ok d := by
  obtain ⟨t, ht⟩ := tx_twin hS hn h hc
  have hw := fieldsOf_loose ht.built
  have hb : v.content = some (fieldsOf t).bytes := by rw [fieldsOf_bytes hn ht.built]; exact ht.content
  have hl : 0 < t.txIns.length := by
    have := ht.built.facts.args.2.2.2.2.1
    exact List.length_pos_iff.2 this
  exact ⟨_, (C123_witness hS E hn hf v h hc hp _ hw hb (.int 0) (.bytes s) (.bytearray x) acp acp.truthy (truthy_iff acp) false _).2
    ⟨0, _, 0, s, x, pointsTo_iff.2 ⟨0, hl, rfl, pyIndex_nat hl, rfl⟩, by simp, rfl, rfl, rfl⟩⟩

/-! ### cases -/

/-- A transaction with two inputs and one output, without witnesses, and the same with witnesses. -/
def valLegacy : Py Val := Dyn.tx toyEnv (.bytes [2, 0, 0, 0]) .none (.list [valIn, valIn]) (.tuple [valOut]) .none (.bytearray [0, 0, 0, 0])
def valSegwit : Py Val := Dyn.tx toyEnv (.bytes [2, 0, 0, 0]) (.bytearray [0, 1]) (.list [valIn, valIn]) (.list [valOut]) (.list [valWit, valWit]) (.bytes [0, 0, 0, 0])

theorem pair_made {E : Env} {x y : Val} (hx : Made E x) (hy : Made E y) : ∀ v ∈ [x, y], Made E v := by
  intro v hv
  rcases List.mem_cons.1 hv with rfl | hv
  · exact hx
  · rw [List.mem_singleton.1 hv]; exact hy

theorem one_made {E : Env} {x : Val} (hx : Made E x) : ∀ v ∈ [x], Made E v := by
  intro v hv; rw [List.mem_singleton.1 hv]; exact hx

/-- The legacy one is made and plain; the index -1 is the last input; the script can be a bytearray; any value will do. What is no integer or not bytes-like is refused, and
an index beyond the inputs or, with SINGLE, the outputs. -/
example : ∃ v, valLegacy = .ok v ∧ Made toyEnv v ∧ v.isInstance .tx = true ∧ Plain v ∧
    (∃ d, Dyn.sighash false toyEnv v (.int (-1)) (.bytearray [1, 0x51]) (.str (pystr "x")) (.list []) = .ok (.bytes d)) ∧
    (∃ d, Dyn.sighash true toyEnv v (.int (-1)) (.bytes [1, 0x51]) .none (.str (pystr "x")) = .ok (.bytes d)) ∧
    Dyn.sighash false toyEnv v (.str []) (.bytes [1, 0x51]) .none (.int 0) = .error .typeError ∧
    Dyn.sighash false toyEnv v (.int 0) (.list [.int 1, .int 0x51]) .none (.int 0) = .error .valueError ∧
    Dyn.sighash false toyEnv v (.int 0) .none .none (.int 0) = .error .typeError ∧
    Dyn.sighash false toyEnv v (.int 2) (.bytes [1, 0x51]) .none (.int 0) = .error .indexError ∧
    Dyn.sighash true toyEnv v (.int 1) (.bytes [1, 0x51]) .none (.int 0) = .error .notImplementedError :=
  ⟨_, rfl, .tx (.bytes [2, 0, 0, 0]) .none (.list [valIn, valIn]) (.tuple [valOut]) .none (.bytearray [0, 0, 0, 0]) _ (.bytes _) .none
      (.list _ (pair_made valIn_made valIn_made)) (.tuple _ (one_made valOut_made)) .none (.bytearray _) rfl, rfl, ⟨_, _, rfl, rfl, rfl⟩,
    ⟨_, rfl⟩, ⟨_, rfl⟩, rfl, rfl, rfl, rfl, rfl⟩

/-- The one with witnesses is made and not plain. -/
example : ∃ v, valSegwit = .ok v ∧ Made toyEnv v ∧ v.isInstance .tx = true ∧ ¬ Plain v ∧
    (∃ d, Dyn.sighash false toyEnv v (.int (-1)) (.bytearray [1, 0x51]) (.bytes []) (.list []) = .ok (.bytes d)) ∧
    (∃ d, Dyn.sighash true toyEnv v (.int (-1)) (.bytes [1, 0x51]) (.bytearray [1, 0, 0, 0, 0, 0, 0, 0]) (.int 2) = .ok (.bytes d)) ∧
    Dyn.sighash false toyEnv v (.int 0) (.bytes [1, 0x51]) (.int 1) (.int 0) = .error .typeError ∧
    Dyn.sighash false toyEnv v (.int 0) (.list [.int 1, .int 0x51]) (.bytes []) (.int 0) = .error .typeError ∧
    Dyn.sighash false toyEnv v (.int (-3)) (.bytes []) (.bytes []) (.int 0) = .error .indexError :=
  ⟨_, rfl, .tx (.bytes [2, 0, 0, 0]) (.bytearray [0, 1]) (.list [valIn, valIn]) (.list [valOut]) (.list [valWit, valWit]) (.bytes [0, 0, 0, 0]) _ (.bytes _) (.bytearray _)
      (.list _ (pair_made valIn_made valIn_made)) (.list _ (one_made valOut_made)) (.list _ (pair_made valWit_made valWit_made)) (.bytes _) rfl, rfl,
    (by rintro ⟨_, _, h, h1, _⟩; cases h; cases h1), ⟨_, rfl⟩, ⟨_, rfl⟩, rfl, rfl, rfl⟩

/-- The index -1 of two inputs and one output points to the second input and the first output. -/
example : ∃ inp, PointsTo ⟨[], [⟨[], [], [], []⟩, ⟨[1], [], [], []⟩], [⟨[], []⟩], none, []⟩ (.int (-1)) 1 inp ∧
    OutAt ⟨[], [⟨[], [], [], []⟩, ⟨[1], [], [], []⟩], [⟨[], []⟩], none, []⟩ (.int (-1)) 0 :=
  ⟨_, ⟨-1, rfl, .inr rfl, rfl⟩, -1, rfl, .inr rfl, by decide⟩

/-- Every transaction has such a `w`. -/
example (E : Env) (hn : E.net.Supported) (v : Val) (h : Made E v) (hc : v.isInstance .tx = true) : ∃ w, Loose w ∧ v.content = some w.bytes := by
  obtain ⟨t, ht⟩ := tx_twin (fun _ h => h.elim) hn h hc
  exact ⟨_, fieldsOf_loose ht.built, by rw [fieldsOf_bytes hn ht.built]; exact ht.content⟩

example : hashWord false false = 0x01 ∧ hashWord false true = 0x81 ∧ hashWord true false = 0x03 ∧ hashWord true true = 0x83 := by decide

end Verif.Props
