import Verif.Lemmas.TxParse3
import Verif.Model.Sighash
import Verif.Spec.Sighash

namespace Verif
open Spec Props

attribute [local irreducible] Env.hash256

/-- The plain fields of a transaction. -/
def Tx.sig (t : Tx) : SigTx :=
  ⟨t.version, t.txIns.map (fun i => (i.outpoint.txId ++ i.outpoint.index, i.sequence)),
    t.txOuts.map (fun o => wireOut o.value o.outputScript), t.lockTime⟩

/-- The hash type byte for ALL/SINGLE with or without ANYONECANPAY. -/
def sigType (single acp : Bool) : Nat := (if single then 3 else 1) + (if acp then 128 else 0)

theorem pyIndex_lt {i : Int} {n k : Nat} (h : pyIndex i n = some k) : k < n := by
  unfold pyIndex at h
  split at h
  · split at h <;> simp at h; omega
  · split at h <;> simp at h; omega

theorem pyIndex_nat {i n : Nat} (h : i < n) : pyIndex (i : Int) n = some i := by
  unfold pyIndex
  rw [if_pos (by omega), if_pos (by omega)]; simp

theorem getItem_ok {α : Type} {l : List α} {i : Int} {k : Nat} (h : pyIndex i l.length = some k) :
    getItem l i = .ok (l[k]'(pyIndex_lt h)) := by
  unfold getItem
  rw [h]
  simp [List.getElem?_eq_getElem (pyIndex_lt h)]

theorem getItem_none {α : Type} {l : List α} {i : Int} (h : pyIndex i l.length = none) : getItem l i = .error .indexError := by
  unfold getItem; rw [h]

theorem setItem_ok {α : Type} {l : List α} {i : Int} {k : Nat} (h : pyIndex i l.length = some k) (x : α) :
    setItem l i x = .ok (l.set k x) := by
  unfold setItem; rw [h]

theorem mapPy_ok {α β : Type} {f : α → Py β} {g : α → β} {l : List α} (h : ∀ x ∈ l, f x = .ok (g x)) : mapPy f l = .ok (l.map g) := by
  induction l with
  | nil => rfl
  | cons x xs ih =>
    unfold mapPy
    rw [h x (by simp), ok_bind, ih (fun y hy => h y (by simp [hy]))]; rfl

theorem map_set {α β : Type} (l : List α) (f g : α → β) (k : Nat) (h : k < l.length) :
    (l.map f).set k (g l[k]) = l.mapIdx (fun j x => if j = k then g x else f x) := by
  apply List.ext_getElem
  · simp
  · intro j h1 h2
    simp only [List.length_set, List.length_map] at h1
    rw [List.getElem_set, List.getElem_mapIdx]
    by_cases c : k = j
    · subst c; simp
    · rw [if_neg c, if_neg (fun h => c h.symm)]; simp

/-! ### BIP143 -/

theorem flatMap_bytes {α : Type} (l : List α) (f : α → Bytes) : l.flatMap f = (l.map f).flatten := List.flatMap_def ..

theorem hashPrevouts_eq {E : Env} {t : Tx} (h : t.Built E) {acp : Bool} {T : Nat} (ha : acpBit T = acp) :
    t.hashPrevouts E acp = hashPrevouts E.hash256 t.sig T := by
  unfold Tx.hashPrevouts hashPrevouts
  rw [ha]
  cases acp
  · simp only [Bool.false_eq_true, if_false, Tx.sig, List.map_map, flatMap_bytes]
    congr 2
    exact List.map_congr_left fun i hi => (h.facts.ins i hi).eq.1.eq.2.2
  · rfl

theorem hashSequence_eq {E : Env} {t : Tx} {single acp : Bool} {T : Nat} (ha : acpBit T = acp)
    (hb : baseType T = if single then 3 else 1) :
    t.hashSequence E (if single then SIGHASH_SINGLE else SIGHASH_ALL) acp = hashSequence E.hash256 t.sig T := by
  unfold Tx.hashSequence hashSequence
  rw [ha, hb]
  cases acp <;> cases single <;>
    simp [SIGHASH_SINGLE, SIGHASH_ALL, Tx.sig, zeros32, flatMap_bytes, List.map_map, Function.comp_def]

theorem outs_map {E : Env} {t : Tx} (h : t.Built E) : t.txOuts.map (·.bytes) = t.txOuts.map (fun o => wireOut o.value o.outputScript) :=
  List.map_congr_left fun o ho => (h.facts.outs o ho).eq.2.2

theorem hashOutputs_all {E : Env} {t : Tx} (h : t.Built E) {index : Int} {i T : Nat} (hb : baseType T = 1) :
    t.hashOutputs E index SIGHASH_ALL = .ok (hashOutputs E.hash256 t.sig i T) := by
  unfold Tx.hashOutputs hashOutputs
  rw [if_pos rfl, hb, if_pos (by decide), flatMap_bytes, outs_map h]; rfl

theorem pyIndex_below {n : Int} {len i : Nat} (h : pyIndex n len = some i) : ¬ n ≥ (len : Int) := by
  unfold pyIndex at h
  split at h
  · split at h
    · omega
    · cases h
  · omega

theorem hashOutputs_one {E : Env} {t : Tx} (h : t.Built E) {index : Int} {i T : Nat} (hb : baseType T = 3) (hi : pyIndex index t.txOuts.length = some i) :
    t.hashOutputs E index SIGHASH_SINGLE = .ok (hashOutputs E.hash256 t.sig i T) := by
  have hl := pyIndex_lt hi
  unfold Tx.hashOutputs hashOutputs
  rw [if_neg (by decide), if_pos ⟨rfl, by have := pyIndex_below hi; omega⟩, getItem_ok hi, ok_bind, hb, if_neg (by decide), if_pos rfl]
  simp only [Tx.sig, List.getElem?_map, List.getElem?_eq_getElem hl, Option.map_some]
  rw [(h.facts.outs _ (List.getElem_mem hl)).eq.2.2]

theorem i2lePadded4 {n : Nat} (h : n < 2 ^ 32) : i2lePadded n 4 = .ok (leBytes 4 n) := by
  unfold i2lePadded toBytesLE
  rw [if_pos (by constructor <;> omega), leBytes_eq]; rfl

theorem sigType_facts (single acp : Bool) : acpBit (sigType single acp) = acp ∧ baseType (sigType single acp) = (if single then 3 else 1) ∧
    sigType single acp < 2 ^ 32 ∧ (if acp then (if single then SIGHASH_SINGLE else SIGHASH_ALL) ||| SIGHASH_ANYONECANPAY
      else (if single then SIGHASH_SINGLE else SIGHASH_ALL)) = sigType single acp := by
  cases single <;> cases acp <;> decide

theorem Tx.segwitSighash_out {E : Env} {t : Tx} (h : t.Built E) {index : Int} {i j : Nat} (hi : pyIndex index t.txIns.length = some i)
    (single acp : Bool) (hs : single = true → pyIndex index t.txOuts.length = some j) (script value : Bytes) :
    t.segwitSighash E index (if single then SIGHASH_SINGLE else SIGHASH_ALL) (some value) script acp =
      .ok (E.hash256 (bip143 E.hash256 t.sig j ((t.txIns[i]'(pyIndex_lt hi)).outpoint.txId ++ (t.txIns[i]'(pyIndex_lt hi)).outpoint.index)
        (t.txIns[i]'(pyIndex_lt hi)).sequence script value (sigType single acp))) := by
  obtain ⟨h1, h2, h3, h4⟩ := sigType_facts single acp
  unfold Tx.segwitSighash Tx.segwitSighashAdjustment
  rw [getItem_ok hi, h4, i2lePadded4 h3]
  have ho : t.hashOutputs E index (if single then SIGHASH_SINGLE else SIGHASH_ALL) =
      (.ok (Spec.hashOutputs E.hash256 t.sig j (sigType single acp))) := by
    cases single with
    | false => exact hashOutputs_all h h2
    | true =>
      exact hashOutputs_one h h2 (hs rfl)
  rw [ho]
  simp only [ok_bind]
  rw [hashPrevouts_eq h h1, hashSequence_eq h1 h2, (h.facts.ins _ (List.getElem_mem (pyIndex_lt hi))).eq.1.eq.2.2]
  rfl

theorem Tx.segwitSighash_eq {E : Env} {t : Tx} (h : t.Built E) {index : Int} {i : Nat} (hi : pyIndex index t.txIns.length = some i)
    (single acp : Bool) (hs : single = true → index = i ∧ i < t.txOuts.length) (script value : Bytes) :
    t.segwitSighash E index (if single then SIGHASH_SINGLE else SIGHASH_ALL) (some value) script acp =
      .ok (E.hash256 (bip143 E.hash256 t.sig i ((t.txIns[i]'(pyIndex_lt hi)).outpoint.txId ++ (t.txIns[i]'(pyIndex_lt hi)).outpoint.index)
        (t.txIns[i]'(pyIndex_lt hi)).sequence script value (sigType single acp))) :=
  Tx.segwitSighash_out h hi single acp (fun c => by obtain ⟨rfl, hl⟩ := hs c; exact pyIndex_nat hl) script value

theorem forkid_facts {net : Network} (hn : net.Supported) {k : Nat} (hk : net.forkid = some k) : k < 100 := by
  have key : ∀ net : Network, net.Supported → ∀ k, net.forkid = some k → k < 100 := by
    have : ∀ net : Network, net.Supported → (match net.forkid with | some k => decide (k < 100) | none => true) = true := by
      unfold Network.Supported; decide +kernel
    intro net hn k hk
    have := this net hn
    rw [hk] at this
    simpa using this
  exact key net hn k hk

theorem forkidType_facts : ∀ k < 100, ∀ single acp : Bool,
    acpBit (forkidType k (sigType single acp)) = acp ∧ baseType (forkidType k (sigType single acp)) = (if single then 3 else 1) ∧
    forkidType k (sigType single acp) < 2 ^ 32 ∧
    (if acp then ((k <<< 8) ||| (if single then SIGHASH_SINGLE else SIGHASH_ALL) ||| SIGHASH_FORKID) ||| SIGHASH_ANYONECANPAY
      else ((k <<< 8) ||| (if single then SIGHASH_SINGLE else SIGHASH_ALL) ||| SIGHASH_FORKID)) = forkidType k (sigType single acp) := by
  decide +kernel

theorem Tx.sighashForkid_out {E : Env} {t : Tx} (h : t.Built E) {index : Int} {i j k : Nat} (hk : k < 100)
    (hi : pyIndex index t.txIns.length = some i)
    (single acp : Bool) (hs : single = true → pyIndex index t.txOuts.length = some j) (script value : Bytes) (hv : value.length = 8) :
    t.sighashForkid E k index script (some value) (if single then SIGHASH_SINGLE else SIGHASH_ALL) acp =
      .ok (E.hash256 (bip143 E.hash256 t.sig j ((t.txIns[i]'(pyIndex_lt hi)).outpoint.txId ++ (t.txIns[i]'(pyIndex_lt hi)).outpoint.index)
        (t.txIns[i]'(pyIndex_lt hi)).sequence script value (forkidType k (sigType single acp)))) := by
  obtain ⟨h1, h2, h3, h4⟩ := forkidType_facts k hk single acp
  unfold Tx.sighashForkid Tx.forkidSighashAdjustment
  simp only []
  rw [validateBytes_eq, if_pos hv, getItem_ok hi, h4, i2lePadded4 h3]
  have ho : t.hashOutputs E index (if single then SIGHASH_SINGLE else SIGHASH_ALL) =
      (.ok (Spec.hashOutputs E.hash256 t.sig j (forkidType k (sigType single acp)))) := by
    cases single with
    | false => exact hashOutputs_all h h2
    | true =>
      exact hashOutputs_one h h2 (hs rfl)
  rw [ho]
  simp only [ok_bind]
  rw [hashPrevouts_eq h h1, hashSequence_eq h1 h2, (h.facts.ins _ (List.getElem_mem (pyIndex_lt hi))).eq.1.eq.2.2]
  rfl

theorem Tx.sighashForkid_eq {E : Env} {t : Tx} (h : t.Built E) {index : Int} {i k : Nat} (hk : k < 100)
    (hi : pyIndex index t.txIns.length = some i)
    (single acp : Bool) (hs : single = true → index = i ∧ i < t.txOuts.length) (script value : Bytes) (hv : value.length = 8) :
    t.sighashForkid E k index script (some value) (if single then SIGHASH_SINGLE else SIGHASH_ALL) acp =
      .ok (E.hash256 (bip143 E.hash256 t.sig i ((t.txIns[i]'(pyIndex_lt hi)).outpoint.txId ++ (t.txIns[i]'(pyIndex_lt hi)).outpoint.index)
        (t.txIns[i]'(pyIndex_lt hi)).sequence script value (forkidType k (sigType single acp)))) :=
  Tx.sighashForkid_out h hk hi single acp (fun c => by obtain ⟨rfl, hl⟩ := hs c; exact pyIndex_nat hl) script value hv

/-! ### the original algorithm -/

/-- An input with the script and sequence replaced. -/
def inWith (s sq : Bytes) (i : TxIn) : TxIn := ⟨i.outpoint, [], s, s, sq, i.outpoint.bytes ++ varBytes s ++ sq⟩

theorem inWith_make {i : TxIn} (h : i.outpoint.Built) {s sq : Bytes} (hs : s.length ≤ 1650) (hq : sq.length = 4) :
    TxIn.make i.outpoint [] s sq = .ok (inWith s sq i) := by
  rw [TxIn.make_iff]
  exact ⟨h.length, hq, by simpa using hs, rfl⟩

theorem inWith_built {i : TxIn} (h : i.outpoint.Built) {s sq : Bytes} (hs : s.length ≤ 1650) (hq : sq.length = 4) :
    (inWith s sq i).Built := ⟨_, _, _, _, h, inWith_make h hs hq⟩

theorem Tx.copy_ins {E : Env} {t : Tx} (h : TxArgsOK E t.version t.flag t.txIns t.txOuts t.txWitnesses t.lockTime) (hf : t.flag = none)
    (hw : t.txWitnesses = none) {ins : List TxIn} (hn : ins ≠ []) (hl : ins.length < 2 ^ 64) :
    t.copy E (txIns := some ins) = .ok (txObj E t.version none ins t.txOuts none t.lockTime) := by
  unfold Tx.copy
  obtain ⟨a1, a2, a3, a4, a5, a6, a7, a8⟩ := h
  simp only [Option.getD_none, Option.getD_some, hf, hw]
  exact Tx.make_iff.2 ⟨⟨a1, a2, .inl rfl, by intro h; exact absurd rfl h, hn, a6, hl, a8⟩, rfl⟩

/-- The prepared inputs: all scripts blank but the one being signed. -/
def prepIns (ins : List TxIn) (k : Nat) (s : Bytes) : List TxIn :=
  ins.mapIdx fun j i => if j = k then inWith s i.sequence i else inWith [] i.sequence i

theorem Tx.sighashPrep_read {E : Env} {t : Tx} (h : t.Built E) (hw : t.isWitness = false) {index : Int} {k : Nat}
    (hi : pyIndex index t.txIns.length = some k) {script : Bytes} {x : VarInt} (hv : VarInt.fromBytes E.net script = .ok x) {s : Bytes}
    (hd : script.drop x.bytes.length = s) (hs : s.length ≤ 1650) :
    t.sighashPrep E index script = .ok (txObj E t.version none (prepIns t.txIns k s) t.txOuts none t.lockTime) := by
  have hw' : t.flag = none ∧ t.txWitnesses = none := by
    unfold Tx.isWitness at hw
    cases hf : t.flag <;> cases hg : t.txWitnesses <;> simp_all
  unfold Tx.sighashPrep
  have hc : ∀ i ∈ t.txIns, i.copy (stackScript := some []) (redeemScript := some []) = .ok (inWith [] i.sequence i) := by
    intro i hi
    unfold TxIn.copy
    simp only [Option.getD_none, Option.getD_some]
    have := (h.facts.ins i hi).eq
    exact inWith_make this.1 (by simp) this.2.1
  rw [mapPy_ok hc, ok_bind]
  rw [hv, ok_bind, hd]
  have hi' : pyIndex index (t.txIns.map (fun i => inWith [] i.sequence i)).length = some k := by simpa using hi
  rw [getItem_ok hi', ok_bind]
  simp only [List.getElem_map]
  have hk := (h.facts.ins _ (List.getElem_mem (pyIndex_lt hi))).eq
  have hcur : (inWith [] (t.txIns[k]'(pyIndex_lt hi)).sequence (t.txIns[k]'(pyIndex_lt hi))).copy (redeemScript := some s) =
      .ok (inWith s (t.txIns[k]'(pyIndex_lt hi)).sequence (t.txIns[k]'(pyIndex_lt hi))) := by
    unfold TxIn.copy
    simp only [Option.getD_none, Option.getD_some, inWith]
    exact inWith_make hk.1 hs hk.2.1
  rw [hcur, ok_bind, setItem_ok hi', ok_bind]
  rw [map_set (g := fun i => inWith s i.sequence i)]
  apply Tx.copy_ins h.facts.args hw'.1 hw'.2
  · have := pyIndex_lt hi
    intro hh
    have := congrArg List.length hh
    simp at this
    have := h.facts.args.2.2.2.2.1
    simp_all
  · simpa using h.facts.args.2.2.2.2.2.2.1

theorem VarInt.fromBytes_var {net : Network} {s : Bytes} (hs : s.length ≤ 1650) (hz : LenOK net s.length) :
    VarInt.fromBytes net (varBytes s) = .ok ⟨compactSize s.length, s.length⟩ := VarInt.fromBytes_len (by omega) hz s

theorem Tx.sighashPrep_eq {E : Env} {t : Tx} (h : t.Built E) (hw : t.isWitness = false) {index : Int} {k : Nat}
    (hi : pyIndex index t.txIns.length = some k) {s : Bytes} (hs : s.length ≤ 1650) (hz : LenOK E.net s.length) :
    t.sighashPrep E index (varBytes s) = .ok (txObj E t.version none (prepIns t.txIns k s) t.txOuts none t.lockTime) :=
  Tx.sighashPrep_read h hw hi (VarInt.fromBytes_var hs hz) (List.drop_left ..) hs

theorem prepIns_length (ins : List TxIn) (k : Nat) (s : Bytes) : (prepIns ins k s).length = ins.length := by simp [prepIns]

theorem prepIns_built {E : Env} {t : Tx} (h : t.Built E) (k : Nat) {s : Bytes} (hs : s.length ≤ 1650) :
    ∀ i ∈ prepIns t.txIns k s, i.Built := by
  intro i hi
  obtain ⟨j, hj, rfl⟩ := List.mem_iff_getElem.1 hi
  simp only [prepIns, List.length_mapIdx] at hj
  have := (h.facts.ins _ (List.getElem_mem hj)).eq
  simp only [prepIns, List.getElem_mapIdx]
  split
  · exact inWith_built this.1 hs this.2.1
  · exact inWith_built this.1 (by simp) this.2.1

theorem varBytes_nil : varBytes [] = [0x00] := by decide

theorem prepIns_bytes {E : Env} {t : Tx} (h : t.Built E) (k : Nat) (s : Bytes) {T : Nat} (hT : baseType T = 1) :
    (prepIns t.txIns k s).map (·.bytes) = t.sig.ins.mapIdx (legacyIn k T s) := by
  apply List.ext_getElem
  · simp [prepIns, Tx.sig]
  · intro j h1 h2
    simp only [List.length_map, prepIns_length] at h1
    have := (h.facts.ins _ (List.getElem_mem h1)).eq.1.eq.2.2
    simp only [prepIns, List.getElem_map, List.getElem_mapIdx, Tx.sig, legacyIn, hT]
    by_cases c : j = k
    · simp [c, inWith] at *; rw [this]; simp
    · simp [c, inWith, varBytes_nil] at *; rw [this]; simp

theorem Tx.final_eq (E : Env) (v : Bytes) (ins : List TxIn) (outs : List TxOut) (lt : Bytes) {T : Nat} (hT : T < 2 ^ 32) :
    Tx.sighashFinalHashing E (txObj E v none ins outs none lt) T =
      .ok (E.hash256 (wireLegacy v (ins.map (·.bytes)) (outs.map (·.bytes)) lt ++ leBytes 4 T)) := by
  unfold Tx.sighashFinalHashing
  rw [i2lePadded4 hT, ok_bind]
  simp only [txObj, Option.getD_none, List.map_nil, txBytes_none]

theorem Tx.acp_eq {E : Env} {v : Bytes} {ins : List TxIn} {outs : List TxOut} {lt : Bytes}
    (h : TxArgsOK E v none ins outs none lt) {index : Int} {k : Nat} (hi : pyIndex index ins.length = some k) (single : Bool) :
    Tx.sighashAnyoneCanPay E index (txObj E v none ins outs none lt) (if single then SIGHASH_SINGLE else SIGHASH_ALL) =
      .ok (E.hash256 (wireLegacy v [(ins[k]'(pyIndex_lt hi)).bytes] (outs.map (·.bytes)) lt ++ leBytes 4 (sigType single true))) := by
  unfold Tx.sighashAnyoneCanPay
  simp only [txObj]
  rw [getItem_ok hi, ok_bind]
  have := Tx.copy_ins (t := txObj E v none ins outs none lt) h rfl rfl (ins := [ins[k]'(pyIndex_lt hi)]) (by simp) (by simp)
  simp only [txObj] at this
  rw [this, ok_bind]
  have h4 := (sigType_facts single true).2.2.2
  simp only [if_true] at h4
  rw [h4]
  exact Tx.final_eq E v _ outs lt (sigType_facts single true).2.2.1

theorem Tx.sighashAll_read {E : Env} {t : Tx} (h : t.Built E) (hf : E.net.forkid = none) (hw : t.isWitness = false) {index : Int}
    {k : Nat} (hi : pyIndex index t.txIns.length = some k) {script : Bytes} {x : VarInt} (hv : VarInt.fromBytes E.net script = .ok x) {s : Bytes}
    (hd : script.drop x.bytes.length = s) (hs : s.length ≤ 1650) (v : Option Bytes) (acp : Bool) :
    t.sighashAll E index script v acp = .ok (E.hash256 (legacyPreimage t.sig k s (sigType false acp))) := by
  unfold Tx.sighashAll
  rw [hf]
  simp only [hw, Bool.false_eq_true, if_false]
  rw [Tx.sighashPrep_read h hw hi hv hd hs, ok_bind]
  obtain ⟨h1, h2, h3, h4⟩ := sigType_facts false acp
  have hk := pyIndex_lt hi
  unfold legacyPreimage legacyIns legacyOuts
  rw [h1, h2]
  cases acp with
  | false =>
    simp only [Bool.false_eq_true, if_false]
    rw [show (SIGHASH_ALL = sigType false false) from rfl, Tx.final_eq _ _ _ _ _ h3, prepIns_bytes h k s h2, outs_map h]
    rfl
  | true =>
    simp only [if_true]
    have ok : TxArgsOK E t.version none (prepIns t.txIns k s) t.txOuts none t.lockTime := by
      obtain ⟨a1, a2, a3, a4, a5, a6, a7, a8⟩ := h.facts.args
      refine ⟨a1, a2, .inl rfl, by intro h; exact absurd rfl h, ?_, a6, by rw [prepIns_length]; exact a7, a8⟩
      intro hh
      have := congrArg List.length hh
      rw [prepIns_length] at this
      exact a5 (List.length_eq_zero_iff.1 this)
    have := Tx.acp_eq ok (index := index) (k := k) (by rw [prepIns_length]; exact hi) false
    simp only [Bool.false_eq_true, if_false] at this
    rw [this]
    have e : [((prepIns t.txIns k s)[k]'(by rw [prepIns_length]; exact hk)).bytes] =
        List.take 1 (List.drop k (t.sig.ins.mapIdx (legacyIn k (sigType false true) s))) := by
      rw [← prepIns_bytes h k s h2]
      rw [List.drop_eq_getElem_cons (by simpa [prepIns_length] using hk)]
      simp
    rw [e, outs_map h]
    rfl

theorem Tx.sighashAll_legacy {E : Env} {t : Tx} (h : t.Built E) (hf : E.net.forkid = none) (hw : t.isWitness = false) {index : Int}
    {k : Nat} (hi : pyIndex index t.txIns.length = some k) {s : Bytes} (hs : s.length ≤ 1650) (hz : LenOK E.net s.length)
    (v : Option Bytes) (acp : Bool) :
    t.sighashAll E index (varBytes s) v acp = .ok (E.hash256 (legacyPreimage t.sig k s (sigType false acp))) :=
  Tx.sighashAll_read h hf hw hi (VarInt.fromBytes_var hs hz) (List.drop_left ..) hs v acp

end Verif
