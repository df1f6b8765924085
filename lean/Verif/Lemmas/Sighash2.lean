import Verif.Lemmas.Sighash

namespace Verif
open Spec Props

attribute [local irreducible] Env.hash256

/-! ### the original algorithm, SINGLE -/

/-- The blank output. -/
def blankOut : TxOut := ⟨List.replicate 8 0xff, [], List.replicate 8 0xff ++ [0x00]⟩
theorem blankOut_make : TxOut.make (List.replicate 8 0xff) [] = .ok blankOut := by decide

/-- The inputs for SINGLE. -/
def singleIns (ins : List TxIn) (k : Nat) (s : Bytes) : List TxIn :=
  ins.mapIdx fun j i => if j = k then inWith s i.sequence i else inWith [] [0, 0, 0, 0] i

/-- The outputs the code uses for SINGLE: as many as there are inputs. -/
def codeSingleOuts (nIns : Nat) (outs : List Bytes) (k : Nat) : List Bytes :=
  (List.replicate nIns (List.replicate 8 0xff ++ [0x00])).set k (outs.getD k [])

theorem singleIns_bytes {E : Env} {t : Tx} (h : t.Built E) (k : Nat) (s : Bytes) {T : Nat} (hT : baseType T = 3) :
    (singleIns t.txIns k s).map (·.bytes) = t.sig.ins.mapIdx (legacyIn k T s) := by
  apply List.ext_getElem
  · simp [singleIns, Tx.sig]
  · intro j h1 h2
    simp only [List.length_map, singleIns, List.length_mapIdx] at h1
    have := (h.facts.ins _ (List.getElem_mem h1)).eq.1.eq.2.2
    simp only [singleIns, List.getElem_map, List.getElem_mapIdx, Tx.sig, legacyIn, hT]
    by_cases c : j = k
    · simp [c, inWith] at *; rw [this]; simp
    · simp [c, inWith, varBytes_nil] at *; rw [this]; simp

theorem Tx.sighashSingle_read {E : Env} {t : Tx} (h : t.Built E) (hf : E.net.forkid = none) (hw : t.isWitness = false) {index : Int}
    {k j : Nat} (hi : pyIndex index t.txIns.length = some k) (hj : pyIndex index t.txOuts.length = some j) {script : Bytes} {x : VarInt}
    (hv : VarInt.fromBytes E.net script = .ok x) {s : Bytes} (hd : script.drop x.bytes.length = s) (hs : s.length ≤ 1650)
    (v : Option Bytes) (acp : Bool) :
    t.sighashSingle E index script v acp = .ok (E.hash256 (wireLegacy t.version (legacyIns t.sig k (sigType true acp) s)
      ((List.replicate t.txIns.length (List.replicate 8 0xff ++ [0x00])).set k (t.sig.outs.getD j [])) t.lockTime ++ leBytes 4 (sigType true acp))) := by
  obtain ⟨a1, a2, a3, a4, a5, a6, a7, a8⟩ := h.facts.args
  unfold Tx.sighashSingle
  have hk := pyIndex_lt hi
  have ho := pyIndex_lt hj
  rw [if_neg (pyIndex_below hj), hf]
  simp only [hw, Bool.false_eq_true, if_false]
  unfold Tx.sighashSingleLegacy
  rw [Tx.sighashPrep_read h hw hi hv hd hs, ok_bind]
  simp only [txObj]
  rw [mapPy_ok (g := fun _ => blankOut) (fun _ _ => blankOut_make), ok_bind, getItem_ok hj, ok_bind]
  have hk' : pyIndex index ((prepIns t.txIns k s).map (fun _ => blankOut)).length = some k := by
    rw [List.length_map, prepIns_length]; exact hi
  rw [setItem_ok hk', ok_bind]
  have hc : ∀ i ∈ prepIns t.txIns k s, i.copy (sequence := some [0, 0, 0, 0]) = .ok (inWith i.scriptSig [0, 0, 0, 0] i) := by
    intro i hi
    have hb := (prepIns_built h k hs i hi).eq
    obtain ⟨j, hj, rfl⟩ := List.mem_iff_getElem.1 hi
    simp only [prepIns_length] at hj
    have hst : ((prepIns t.txIns k s)[j]'(by rw [prepIns_length]; exact hj)).stackScript = [] := by
      simp only [prepIns, List.getElem_mapIdx]; split <;> rfl
    unfold TxIn.copy
    simp only [Option.getD_none, Option.getD_some]
    rw [hst]
    have e : (prepIns t.txIns k s)[j].redeemScript = (prepIns t.txIns k s)[j].scriptSig := by
      rw [hb.2.2.1, hst]; rfl
    rw [e]
    exact inWith_make hb.1 hb.2.2.2.1 rfl
  rw [mapPy_ok hc, ok_bind]
  have hkp : pyIndex index (prepIns t.txIns k s).length = some k := by rw [prepIns_length]; exact hi
  have hkp' : pyIndex index ((prepIns t.txIns k s).map (fun i => inWith i.scriptSig [0, 0, 0, 0] i)).length = some k := by
    rw [List.length_map]; exact hkp
  rw [getItem_ok hkp, ok_bind, setItem_ok hkp', ok_bind]
  have hins : ((prepIns t.txIns k s).map (fun i => inWith i.scriptSig [0, 0, 0, 0] i)).set k
      ((prepIns t.txIns k s)[k]'(by rw [prepIns_length]; exact hk)) = singleIns t.txIns k s := by
    rw [map_set (g := fun i => i) (h := by rw [prepIns_length]; exact hk)]
    apply List.ext_getElem
    · simp [singleIns, prepIns]
    · intro j h1 h2
      simp only [singleIns, prepIns, List.getElem_mapIdx]
      by_cases c : j = k
      · simp [c]
      · simp [c, inWith]
  have hkn : (prepIns t.txIns k s).length = t.txIns.length := prepIns_length ..
  rw [hins]
  generalize houts : ((prepIns t.txIns k s).map (fun _ => blankOut)).set k (t.txOuts[j]'ho) = outs
  have houtl : outs.length = t.txIns.length := by rw [← houts]; simp [hkn]
  have houtb : outs.map (·.bytes) = (List.replicate t.txIns.length (List.replicate 8 0xff ++ [0x00])).set k (t.sig.outs.getD j []) := by
    rw [← houts, List.map_set, List.map_map]
    congr 1
    · rw [← hkn]
      apply List.ext_getElem
      · simp
      · intro j _ _; simp [blankOut]
    · simp only [Tx.sig]
      rw [← outs_map h, List.getD_eq_getElem?_getD, List.getElem?_map, List.getElem?_eq_getElem ho]; rfl
  have hinl : (singleIns t.txIns k s).length = t.txIns.length := by simp [singleIns]
  have hpos : 0 < t.txIns.length := by omega
  have ok : TxArgsOK E t.version none (singleIns t.txIns k s) outs none t.lockTime := by
    refine ⟨a1, a2, .inl rfl, by intro h; exact absurd rfl h, ?_, ?_, by rw [hinl]; exact a7, by rw [houtl]; exact a7⟩
    · intro hh; rw [hh] at hinl; simp at hinl; omega
    · intro hh; rw [hh] at houtl; simp at houtl; omega
  have hcopy : Tx.copy E (txObj E t.version none (prepIns t.txIns k s) t.txOuts none t.lockTime)
      (txIns := some (singleIns t.txIns k s)) (txOuts := some outs) =
      .ok (txObj E t.version none (singleIns t.txIns k s) outs none t.lockTime) := by
    unfold Tx.copy
    exact Tx.make_iff.2 ⟨ok, rfl⟩
  simp only [txObj] at hcopy ⊢
  rw [hcopy, ok_bind]
  obtain ⟨h1, h2, h3, h4⟩ := sigType_facts true acp
  unfold legacyIns
  rw [h1, ← singleIns_bytes h k s h2, ← houtb]
  cases acp with
  | false =>
    simp only [Bool.false_eq_true, if_false]
    exact Tx.final_eq E t.version (singleIns t.txIns k s) outs t.lockTime h3
  | true =>
    simp only [if_true]
    have hks : pyIndex index (singleIns t.txIns k s).length = some k := by rw [hinl]; exact hi
    have := Tx.acp_eq ok hks true
    simp only [if_true, txObj] at this
    rw [this]
    rw [List.drop_eq_getElem_cons (by simpa [hinl] using hk)]
    simp

theorem Tx.sighashSingle_legacy {E : Env} {t : Tx} (h : t.Built E) (hf : E.net.forkid = none) (hw : t.isWitness = false)
    {k : Nat} (hk : k < t.txIns.length) (ho : k < t.txOuts.length) {s : Bytes} (hs : s.length ≤ 1650) (hz : LenOK E.net s.length)
    (v : Option Bytes) (acp : Bool) :
    t.sighashSingle E k (varBytes s) v acp = .ok (E.hash256 (wireLegacy t.version (legacyIns t.sig k (sigType true acp) s)
      (codeSingleOuts t.txIns.length t.sig.outs k) t.lockTime ++ leBytes 4 (sigType true acp))) :=
  Tx.sighashSingle_read h hf hw (pyIndex_nat hk) (pyIndex_nat ho) (VarInt.fromBytes_var hs hz) (List.drop_left ..) hs v acp

theorem codeSingleOuts_last {outs : List Bytes} {k : Nat} (h : k < outs.length) :
    codeSingleOuts (k + 1) outs k = List.replicate k (List.replicate 8 0xff ++ [0x00]) ++ (outs.drop k).take 1 := by
  unfold codeSingleOuts
  rw [List.replicate_succ', List.set_append_right _ _ (by simp), List.getD_eq_getElem?_getD, List.getElem?_eq_getElem h,
    List.drop_eq_getElem_cons h, List.length_replicate, Nat.sub_self]
  rfl

theorem codeSingleOuts_length (n : Nat) (outs : List Bytes) (k : Nat) : (codeSingleOuts n outs k).length = n := by
  simp [codeSingleOuts]

theorem legacyIns_eq_of_single {t : SigTx} {k : Nat} {s : Bytes} {acp : Bool} : 
    legacyPreimage t k s (sigType true acp) = wireLegacy t.version (legacyIns t k (sigType true acp) s)
      (List.replicate k (List.replicate 8 0xff ++ [0x00]) ++ (t.outs.drop k).take 1) t.lockTime ++ leBytes 4 (sigType true acp) := by
  unfold legacyPreimage legacyOuts
  rw [(sigType_facts true acp).2.1]; rfl

/-- Different numbers of outputs make different preimages. -/
theorem wireLegacy_ne {v lt x : Bytes} {ins outs outs' : List Bytes} (h : outs.length ≠ outs'.length) (l : outs.length < 2 ^ 64)
    (l' : outs'.length < 2 ^ 64) : wireLegacy v ins outs lt ++ x ≠ wireLegacy v ins outs' lt ++ x := by
  intro e
  unfold wireLegacy at e
  simp only [List.append_assoc] at e
  have e2 := List.append_cancel_left (List.append_cancel_left e)
  unfold vector at e2
  simp only [List.append_assoc] at e2
  exact h (compactSize_inj l l' e2).1

end Verif
