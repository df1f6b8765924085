import Verif.Lemmas.DecredSig
import Verif.Lemmas.TxParse

namespace Verif
open Spec Props

attribute [local irreducible] blake256

def DecredTxIn.withSeq (sq : Bytes) (i : DecredTxIn) : DecredTxIn := ⟨i.outpoint, sq, i.outpoint.bytes ++ sq⟩

theorem DecredTxIn.withSeq_copy {net : Network} (hn : net.isDecred = true) {i : DecredTxIn} (h : i.Built net) {sq : Bytes} (hq : sq.length = 4) :
    i.copy net (sequence := some sq) = .ok (i.withSeq sq) :=
  DecredTxIn.make_iff.2 ⟨hn, h.eq.1.length, hq, rfl⟩

def singleDcrIns (ins : List DecredTxIn) (k : Nat) : List DecredTxIn :=
  ins.mapIdx fun j i => if j = k then i else i.withSeq [0, 0, 0, 0]

theorem singleDcrIns_bytes {net : Network} {t : DecredTx} (h : t.Facts net) (k : Nat) {T : Nat} (ha : acpBit T = false) (hb : baseType T = 3) :
    (singleDcrIns t.txIns k).map (·.bytes) = dcrSigIns t.sig k T := by
  unfold dcrSigIns dcrSigned dcrPosition
  simp only [ha, hb, Bool.false_eq_true, if_false]
  apply List.ext_getElem
  · simp [singleDcrIns, DecredTx.sig]
  · intro j h1 h2
    have hj : j < t.txIns.length := by simpa [singleDcrIns] using h1
    have hw := h.ins _ (List.getElem_mem hj)
    obtain ⟨o1, o2, o3⟩ := hw.eq
    obtain ⟨-, -, -, o4⟩ := o1.eq
    have e4 := congrArg DecredOutpoint.bytes o4
    have e3 := congrArg DecredTxIn.bytes o3
    simp only [singleDcrIns, List.getElem_map, List.getElem_mapIdx, DecredTx.sig]
    by_cases c : j = k
    · simp only [c, if_true, ne_eq, not_true_eq_false, and_false, if_false]
      subst c
      rw [e3]; show t.txIns[j].outpoint.bytes ++ _ = _; rw [e4]
    · simp only [c, if_false, ne_eq, not_false_eq_true, and_true, true_or, if_true]
      show t.txIns[j].outpoint.bytes ++ _ = _; rw [e4]

/-- The outputs the code hashes for SINGLE: one for each input. -/
def dcrCodeOuts (n : Nat) (outs : List (Bytes × Bytes × Bytes)) (i : Nat) : List Bytes :=
  (List.range n).map fun j => if j = i then ((outs[i]?).map fun o => dcrOut o.1 o.2.1 o.2.2).getD [] else
    dcrOut (List.replicate 8 0xff) [0, 0] []

theorem singleDcrOuts_bytes {net : Network} {t : DecredTx} (h : t.Facts net) {k : Nat} (hk : k < t.txOuts.length) (n : Nat) :
    ((List.replicate n blankDcrOut).set k t.txOuts[k]).map (·.bytes) = dcrCodeOuts n t.sig.outs k := by
  apply List.ext_getElem
  · simp [dcrCodeOuts]
  · intro j h1 h2
    simp only [dcrCodeOuts, List.getElem_map, List.getElem_range, List.getElem_set, DecredTx.sig]
    by_cases c : k = j
    · subst c
      simp only [if_true, List.getElem?_map, List.getElem?_eq_getElem hk, Option.map_some, Option.getD_some]
      exact (h.outs _ (List.getElem_mem hk)).wire
    · have c' : ¬ j = k := fun hh => c hh.symm
      simp only [c, c', if_false, List.getElem_replicate]
      rfl

theorem sighashSingle_decred {net : Network} {t : DecredTx} (h : t.Facts net) {k : Nat} (hw : k < t.txWitnesses.length)
    (hi : k < t.txIns.length) (ho : k < t.txOuts.length) (script : Option Bytes) (acp : Bool) :
    t.sighashSingle net k script acp =
      if (dcrFull t.version (t.txIns.map (·.bytes)) (t.txOuts.map (·.bytes)) t.lockTime t.expiry
          ((prepWits t.txWitnesses k (script.getD [])).map (·.bytes))).length ≤ 100000 ∧
        (dcrFull t.version (dcrSigIns t.sig k 3) (dcrCodeOuts t.txIns.length t.sig.outs k) t.lockTime t.expiry
          ((prepWits t.txWitnesses k (script.getD [])).map (·.bytes))).length ≤ 100000
      then .ok (blake256 (leBytes 4 (sigType true acp) ++
        blake256 (dcrPrefix t.version (dcrSigIns t.sig k 3) (dcrCodeOuts t.txIns.length t.sig.outs k) t.lockTime t.expiry) ++
        blake256 (dcrWitnessSigning t.version (dcrSigScripts t.txWitnesses.length k (script.getD [])))))
      else .error .valueError := by
  have hn := h.args.net
  have pw := pyIndex_nat hw
  have pi := pyIndex_nat hi
  have po := pyIndex_nat ho
  unfold DecredTx.sighashSingle
  rw [DecredTx.sighashPrep_eq h pw]
  split
  · rename_i hsz
    rw [ok_bind]
    have hsl : (script.getD []).length < 2 ^ 64 := by
      have := prep_size (v := t.version) (ins := t.txIns.map (·.bytes)) (outs := t.txOuts.map (·.bytes)) (lt := t.lockTime)
        (ex := t.expiry) hw (script.getD [])
      omega
    have hb := prepWits_built hn h.wits k hsl
    have hl : (prepWits t.txWitnesses k (script.getD [])).length < 2 ^ 64 := by rw [prepWits_length]; exact h.args.lw
    rw [DecredTx.singleOuts_eq hn (decredObj t.version t.txIns t.txOuts t.lockTime t.expiry (prepWits t.txWitnesses k (script.getD [])))
      (k := k) (k' := k) po pi, ok_bind]
    have e1 : (decredObj t.version t.txIns t.txOuts t.lockTime t.expiry (prepWits t.txWitnesses k (script.getD []))).txIns = t.txIns := rfl
    have e2 : (decredObj t.version t.txIns t.txOuts t.lockTime t.expiry (prepWits t.txWitnesses k (script.getD []))).txOuts = t.txOuts := rfl
    simp only [e1, e2]
    rw [mapPy_ok (g := fun i => DecredTxIn.withSeq [0, 0, 0, 0] i) (fun x hx => DecredTxIn.withSeq_copy hn (h.ins x hx) rfl), ok_bind,
      getItem_ok pi, ok_bind, setItem_ok (k := k) (by simpa using pi), ok_bind,
      map_set (f := fun i => DecredTxIn.withSeq [0, 0, 0, 0] i) (g := fun i => i) (h := hi)]
    have e3 : (List.mapIdx (fun j x => if j = k then x else DecredTxIn.withSeq [0, 0, 0, 0] x) t.txIns) = singleDcrIns t.txIns k := rfl
    rw [e3]
    have e4 : (decredObj t.version t.txIns t.txOuts t.lockTime t.expiry (prepWits t.txWitnesses k (script.getD []))).copy net
        (txIns := some (singleDcrIns t.txIns k)) (txOuts := some ((List.replicate t.txIns.length blankDcrOut).set k t.txOuts[k])) =
        DecredTx.make net t.version (singleDcrIns t.txIns k) ((List.replicate t.txIns.length blankDcrOut).set k t.txOuts[k]) t.lockTime
          t.expiry (prepWits t.txWitnesses k (script.getD [])) := rfl
    rw [e4]
    have b1 := singleDcrIns_bytes h k (T := 3) (by decide) (by decide)
    have b2 := singleDcrOuts_bytes h ho t.txIns.length
    have hin0 : singleDcrIns t.txIns k ≠ [] := by
      intro hh
      have := congrArg List.length hh
      simp [singleDcrIns] at this
      rw [this] at hi; simp at hi
    have hout0 : (List.replicate t.txIns.length blankDcrOut).set k t.txOuts[k] ≠ [] := by
      intro hh
      have := congrArg List.length hh
      simp at this
      rw [this] at hi; simp at hi
    by_cases hsz2 : (dcrFull t.version (dcrSigIns t.sig k 3) (dcrCodeOuts t.txIns.length t.sig.outs k) t.lockTime t.expiry
          ((prepWits t.txWitnesses k (script.getD [])).map (·.bytes))).length ≤ 100000
    · rw [if_pos ⟨hsz, hsz2⟩]
      have ha : DecredArgs net t.version (singleDcrIns t.txIns k) ((List.replicate t.txIns.length blankDcrOut).set k t.txOuts[k]) t.lockTime
          t.expiry (prepWits t.txWitnesses k (script.getD [])) :=
        ⟨hn, h.args.v4, h.args.lt4, h.args.ex4, hin0, hout0, by simpa [singleDcrIns] using h.args.li, by simpa using h.args.li, hl,
          by rw [b1, b2]; exact hsz2⟩
      rw [DecredTx.make_iff.2 ⟨ha, rfl⟩, ok_bind]
      have fin : ∀ T, T < 2 ^ 32 → DecredTx.sighashFinalHashing net
          (decredObj t.version (singleDcrIns t.txIns k) ((List.replicate t.txIns.length blankDcrOut).set k t.txOuts[k]) t.lockTime t.expiry
            (prepWits t.txWitnesses k (script.getD []))) T =
          .ok (blake256 (leBytes 4 T ++
            blake256 (dcrPrefix t.version (dcrSigIns t.sig k 3) (dcrCodeOuts t.txIns.length t.sig.outs k) t.lockTime t.expiry) ++
            blake256 (dcrWitnessSigning t.version (dcrSigScripts t.txWitnesses.length k (script.getD []))))) := by
        intro T hT
        rw [DecredTx.final_eq hn hl hb hT, ← prepWits_scripts, ← b1, ← b2]; rfl
      cases acp with
      | true => rw [if_pos rfl, DecredTx.acp_eq ha h.wits hsl pw, fin _ (by decide)]; rfl
      | false => rw [if_neg (by simp), fin _ (by decide)]; rfl
    · rw [if_neg (fun hh => hsz2 hh.2)]
      cases e : DecredTx.make net t.version (singleDcrIns t.txIns k) ((List.replicate t.txIns.length blankDcrOut).set k t.txOuts[k]) t.lockTime
          t.expiry (prepWits t.txWitnesses k (script.getD [])) with
      | error x => rw [DecredTx.make_ve _ _ _ _ _ _ _ x e]; rfl
      | ok t' =>
        have := (DecredTx.make_iff.1 e).1.size
        rw [b1, b2] at this
        exact absurd this hsz2
  · rename_i hsz
    rw [if_neg (fun hh => hsz hh.1)]; rfl

/-! ### injectivity -/

theorem dcrOut_inj {v v' r r' s s' x y : Bytes} (hv : v.length = v'.length) (hr : r.length = r'.length) (hs : s.length < 2 ^ 64)
    (hs' : s'.length < 2 ^ 64) (h : dcrOut v r s ++ x = dcrOut v' r' s' ++ y) : v = v' ∧ r = r' ∧ s = s' ∧ x = y := by
  unfold dcrOut at h
  simp only [List.append_assoc] at h
  obtain ⟨h1, h⟩ := List.append_inj h hv
  obtain ⟨h2, h⟩ := List.append_inj h hr
  obtain ⟨h3, h⟩ := varBytes_inj hs hs' h
  exact ⟨h1, h2, h3, h⟩

theorem dcrOut_selfDelim : SelfDelim (fun b => ∃ v r s : Bytes, v.length = 8 ∧ r.length = 2 ∧ s.length < 2 ^ 64 ∧ b = dcrOut v r s) := by
  rintro x y r s ⟨v, q, c, h1, h2, h3, rfl⟩ ⟨v', q', c', h1', h2', h3', rfl⟩ h
  obtain ⟨rfl, rfl, rfl, rfl⟩ := dcrOut_inj (h1.trans h1'.symm) (h2.trans h2'.symm) h3 h3' h
  exact ⟨rfl, rfl⟩

theorem dcr_fixed (n : Nat) : SelfDelim (fun b => b.length = n) := by
  intro x y r s hx hy h
  exact List.append_inj h (hx.trans hy.symm)

theorem dcrPrefix_inj {v v' : Bytes} {ins ins' outs outs' : List Bytes} {lt lt' ex ex' : Bytes} (hv : v.length = 4) (hv' : v'.length = 4)
    (hi : ∀ x ∈ ins, x.length = 41) (hi' : ∀ x ∈ ins', x.length = 41)
    (ho : ∀ b ∈ outs, ∃ v r s : Bytes, v.length = 8 ∧ r.length = 2 ∧ s.length < 2 ^ 64 ∧ b = dcrOut v r s)
    (ho' : ∀ b ∈ outs', ∃ v r s : Bytes, v.length = 8 ∧ r.length = 2 ∧ s.length < 2 ^ 64 ∧ b = dcrOut v r s)
    (li : ins.length < 2 ^ 64) (li' : ins'.length < 2 ^ 64) (lo : outs.length < 2 ^ 64) (lo' : outs'.length < 2 ^ 64)
    (hl : lt.length = lt'.length) (h : dcrPrefix v ins outs lt ex = dcrPrefix v' ins' outs' lt' ex') :
    v.take 2 = v'.take 2 ∧ ins = ins' ∧ outs = outs' ∧ lt = lt' ∧ ex = ex' := by
  unfold dcrPrefix at h
  simp only [List.append_assoc] at h
  obtain ⟨h1, h⟩ := List.append_inj h (by simp [hv, hv'])
  obtain ⟨-, h⟩ := List.append_inj h rfl
  obtain ⟨h2, h⟩ := vector_inj (dcr_fixed 41) hi hi' li li' h
  obtain ⟨h3, h⟩ := vector_inj dcrOut_selfDelim ho ho' lo lo' h
  obtain ⟨h4, h⟩ := List.append_inj h hl
  exact ⟨h1, h2, h3, h4, h⟩

theorem varBytes_selfDelim : SelfDelim (fun b => ∃ s : Bytes, s.length < 2 ^ 64 ∧ b = varBytes s) := by
  rintro x y r s ⟨c, h1, rfl⟩ ⟨c', h1', rfl⟩ h
  obtain ⟨rfl, rfl⟩ := varBytes_inj h1 h1' h
  exact ⟨rfl, rfl⟩

theorem dcrWitnessSigning_inj {v v' : Bytes} {ss ss' : List Bytes} (hv : v.length = 4) (hv' : v'.length = 4)
    (hs : ∀ s ∈ ss, s.length < 2 ^ 64) (hs' : ∀ s ∈ ss', s.length < 2 ^ 64) (l : ss.length < 2 ^ 64) (l' : ss'.length < 2 ^ 64)
    (h : dcrWitnessSigning v ss = dcrWitnessSigning v' ss') : v.take 2 = v'.take 2 ∧ ss = ss' := by
  unfold dcrWitnessSigning at h
  simp only [List.append_assoc] at h
  obtain ⟨h1, h⟩ := List.append_inj h (by simp [hv, hv'])
  obtain ⟨-, h⟩ := List.append_inj h rfl
  have h2 := vector_inj (r := []) (s := []) varBytes_selfDelim (xs := ss.map varBytes) (ys := ss'.map varBytes)
    (by intro x hx; obtain ⟨s, hs1, rfl⟩ := List.mem_map.1 hx; exact ⟨s, hs s hs1, rfl⟩)
    (by intro x hx; obtain ⟨s, hs1, rfl⟩ := List.mem_map.1 hx; exact ⟨s, hs' s hs1, rfl⟩) (by simpa using l) (by simpa using l')
    (by simpa using h)
  refine ⟨h1, map_bytes_inj (P := fun s => s.length < 2 ^ 64) (f := varBytes) ?_ hs hs' h2.1⟩
  intro x y hx hy he
  exact (varBytes_inj (r := []) (s := []) hx hy (by simpa using he)).1

theorem dcrSigScripts_inj {n n' k k' : Nat} {s s' : Bytes} (hk : k < n) (h : dcrSigScripts n k s = dcrSigScripts n' k' s') (h0 : s ≠ []) :
    n = n' ∧ k = k' ∧ s = s' := by
  have hl : n = n' := by simpa [dcrSigScripts] using congrArg List.length h
  subst hl
  have := congrArg (fun l => l[k]?) h
  simp only [dcrSigScripts, List.getElem?_map, List.getElem?_range hk, Option.map_some, if_true, Option.some.injEq] at this
  by_cases c : k = k'
  · rw [if_pos c] at this; exact ⟨rfl, c, this⟩
  · rw [if_neg c] at this; exact absurd this h0

end Verif
