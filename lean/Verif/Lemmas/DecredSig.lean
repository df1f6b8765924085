import Verif.Lemmas.Decred
import Verif.Lemmas.HashLen

namespace Verif
open Spec Props

attribute [local irreducible] blake256

/-- The witness with the given script. -/
def DecredInputWitness.withScript (s : Bytes) (w : DecredInputWitness) : DecredInputWitness :=
  ⟨w.value, w.height, w.index, s.length, s, [], s, dcrWitness w.value w.height w.index s⟩

theorem DecredInputWitness.withScript_make {net : Network} (hn : net.isDecred = true) {w : DecredInputWitness} (h : w.Built net) {s : Bytes}
    (hs : s.length < 2 ^ 64) : DecredInputWitness.make net w.value w.height w.index s [] = .ok (w.withScript s) := by
  obtain ⟨h1, h2, h3, -, -⟩ := h.eq
  exact DecredInputWitness.make_iff.2 ⟨hn, h1, h2, h3, by simpa using hs, by simp [DecredInputWitness.withScript]⟩

theorem DecredInputWitness.withScript_built {net : Network} (hn : net.isDecred = true) {w : DecredInputWitness} (h : w.Built net) {s : Bytes}
    (hs : s.length < 2 ^ 64) : (w.withScript s).Built net := ⟨_, _, _, _, _, DecredInputWitness.withScript_make hn h hs⟩

/-- The witnesses of the copy that is signed. -/
def prepWits (ws : List DecredInputWitness) (k : Nat) (s : Bytes) : List DecredInputWitness :=
  ws.mapIdx fun j w => if j = k then w.withScript s else w.withScript []

theorem prepWits_length (ws : List DecredInputWitness) (k : Nat) (s : Bytes) : (prepWits ws k s).length = ws.length := by simp [prepWits]

theorem prepWits_built {net : Network} (hn : net.isDecred = true) {ws : List DecredInputWitness} (h : ∀ w ∈ ws, w.Built net) (k : Nat)
    {s : Bytes} (hs : s.length < 2 ^ 64) : ∀ w ∈ prepWits ws k s, w.Built net := by
  intro w hw
  obtain ⟨j, hj, rfl⟩ := List.getElem_of_mem hw
  simp only [prepWits, List.getElem_mapIdx]
  rw [prepWits_length] at hj
  split
  · exact DecredInputWitness.withScript_built hn (h _ (List.getElem_mem hj)) hs
  · exact DecredInputWitness.withScript_built hn (h _ (List.getElem_mem hj)) (by simp)

theorem prepWits_scripts (ws : List DecredInputWitness) (k : Nat) (s : Bytes) :
    (prepWits ws k s).map (·.scriptSig) = dcrSigScripts ws.length k s := by
  apply List.ext_getElem
  · simp [prepWits, dcrSigScripts]
  · intro j h1 h2
    simp only [prepWits, dcrSigScripts, List.getElem_map, List.getElem_mapIdx, List.getElem_range]
    split <;> rfl

theorem blank_mapPy {net : Network} (hn : net.isDecred = true) {ws : List DecredInputWitness} (h : ∀ w ∈ ws, w.Built net) :
    mapPy (fun w => w.copy net (stackScript := some []) (redeemScript := some [])) ws = .ok (ws.map (·.withScript [])) :=
  mapPy_ok fun w hw => by
    unfold DecredInputWitness.copy
    exact DecredInputWitness.withScript_make hn (h w hw) (by simp)

theorem DecredTx.make_eq {net : Network} {v : Bytes} {ins : List DecredTxIn} {outs : List DecredTxOut} {lt ex : Bytes}
    {ws ws' : List DecredInputWitness} (h : DecredArgs net v ins outs lt ex ws) (hl : ws'.length < 2 ^ 64) :
    DecredTx.make net v ins outs lt ex ws' =
      if (dcrFull v (ins.map (·.bytes)) (outs.map (·.bytes)) lt ex (ws'.map (·.bytes))).length ≤ 100000
      then .ok (decredObj v ins outs lt ex ws') else .error .valueError := by
  split
  · rename_i hs
    exact DecredTx.make_iff.2 ⟨⟨h.net, h.v4, h.lt4, h.ex4, h.ins0, h.outs0, h.li, h.lo, hl, hs⟩, rfl⟩
  · rename_i hs
    cases e : DecredTx.make net v ins outs lt ex ws' with
    | error x => rw [DecredTx.make_ve net v ins outs lt ex ws' x e]
    | ok t => exact absurd (DecredTx.make_iff.1 e).1.size hs

theorem withScript_long {net : Network} {w : DecredInputWitness} (h : w.Built net) {s : Bytes} (hs : ¬ s.length < 2 ^ 64) (r : Bytes) :
    DecredInputWitness.make net w.value w.height w.index s r = .error .valueError ∨ net.isDecred = false := by
  by_cases hn : net.isDecred = true
  · left
    obtain ⟨h1, h2, h3, -, -⟩ := h.eq
    unfold DecredInputWitness.make decredGate
    simp only [check_bind, if_pos hn, validateBytes_eq, if_pos h1, if_pos h2, if_pos h3, validateBytes_none, ok_bind]
    rw [VarInt.make_len_error (by omega)]; rfl
  · right; simpa using hn

theorem flatten_length_ge {l : List Bytes} {x : Bytes} (h : x ∈ l) : x.length ≤ l.flatten.length := by
  induction l with
  | nil => cases h
  | cons y ys ih =>
    simp only [List.flatten_cons, List.length_append]
    cases h with
    | head => omega
    | tail _ h => have := ih h; omega

/-- The size of the copy that is signed is at least that of the script. -/
theorem prep_size {v : Bytes} {ins outs : List Bytes} {lt ex : Bytes} {ws : List DecredInputWitness} {k : Nat} (hk : k < ws.length)
    (s : Bytes) : s.length ≤ (dcrFull v ins outs lt ex ((prepWits ws k s).map (·.bytes))).length := by
  have hm : dcrWitness ws[k].value ws[k].height ws[k].index s ∈ (prepWits ws k s).map (·.bytes) := by
    refine List.mem_map.2 ⟨ws[k].withScript s, ?_, rfl⟩
    have : (prepWits ws k s)[k]'(by rw [prepWits_length]; exact hk) = ws[k].withScript s := by simp [prepWits]
    rw [← this]; exact List.getElem_mem _
  have := flatten_length_ge hm
  unfold dcrFull vector
  simp only [List.length_append]
  simp only [dcrWitness, varBytes, List.length_append] at this
  omega

theorem DecredTx.sighashPrep_eq {net : Network} {t : DecredTx} (h : t.Facts net) {index : Int} {k : Nat}
    (hi : pyIndex index t.txWitnesses.length = some k) (script : Option Bytes) :
    t.sighashPrep net index script =
      if (dcrFull t.version (t.txIns.map (·.bytes)) (t.txOuts.map (·.bytes)) t.lockTime t.expiry
        ((prepWits t.txWitnesses k (script.getD [])).map (·.bytes))).length ≤ 100000
      then .ok (decredObj t.version t.txIns t.txOuts t.lockTime t.expiry (prepWits t.txWitnesses k (script.getD [])))
      else .error .valueError := by
  have hn := h.args.net
  have hk := pyIndex_lt hi
  unfold DecredTx.sighashPrep
  rw [blank_mapPy hn h.wits, ok_bind]
  have hi' : pyIndex index (t.txWitnesses.map (·.withScript [])).length = some k := by simpa using hi
  rw [getItem_ok hi', ok_bind]
  have hw := h.wits _ (List.getElem_mem hk)
  have e : (List.map (fun x => DecredInputWitness.withScript [] x) t.txWitnesses)[k]'(pyIndex_lt hi') =
      (t.txWitnesses[k]).withScript [] := by simp
  rw [e]
  have hc : DecredInputWitness.copy net ((t.txWitnesses[k]).withScript []) (stackScript := script) (redeemScript := some []) =
      DecredInputWitness.make net t.txWitnesses[k].value t.txWitnesses[k].height t.txWitnesses[k].index (script.getD []) [] := rfl
  rw [hc]
  by_cases hs : (script.getD []).length < 2 ^ 64
  · rw [DecredInputWitness.withScript_make hn hw hs, ok_bind, setItem_ok hi', ok_bind]
    rw [map_set (f := fun w => DecredInputWitness.withScript [] w) (g := fun w => DecredInputWitness.withScript (script.getD []) w) (h := hk)]
    exact DecredTx.make_eq h.args (by simpa using h.args.lw)
  · rcases withScript_long hw hs [] with he | he
    · rw [he, error_bind, if_neg]
      have := prep_size (v := t.version) (ins := t.txIns.map (·.bytes)) (outs := t.txOuts.map (·.bytes)) (lt := t.lockTime)
        (ex := t.expiry) hk (script.getD [])
      omega
    · rw [hn] at he; cases he

theorem DecredTx.sighashPrep_index {net : Network} {t : DecredTx} (h : t.Facts net) {index : Int}
    (hi : pyIndex index t.txWitnesses.length = none) (script : Option Bytes) :
    t.sighashPrep net index script = .error .indexError := by
  unfold DecredTx.sighashPrep
  rw [blank_mapPy h.args.net h.wits, ok_bind, getItem_none (by simpa using hi), error_bind]

theorem signingPart_eq {net : Network} {w : DecredInputWitness} (h : w.Built net) :
    DecredTx.signingPart w = .ok (varBytes w.scriptSig) := by
  obtain ⟨-, h2, h3⟩ := h.script
  unfold DecredTx.signingPart
  rw [h2, VarInt.make_len h3]; rfl

theorem DecredTx.witnessSigning_eq {net : Network} (hn : net.isDecred = true) {t : DecredTx} (hl : t.txWitnesses.length < 2 ^ 64)
    (hw : ∀ w ∈ t.txWitnesses, w.Built net) :
    t.witnessSigning net = .ok (dcrWitnessSigning t.version (t.txWitnesses.map (·.scriptSig))) := by
  unfold DecredTx.witnessSigning decredGate
  rw [check_bind, if_pos hn, VarInt.make_len hl, ok_bind, mapPy_ok (g := fun w => varBytes w.scriptSig) (fun w h => signingPart_eq (hw w h)),
    ok_bind]
  have e : leBytes 2 3 = [0x03, 0x00] := by decide
  simp [dcrWitnessSigning, vector, e, slice, Function.comp_def]

theorem DecredTx.witness_eq {net : Network} (hn : net.isDecred = true) {t : DecredTx} (hl : t.txWitnesses.length < 2 ^ 64) :
    t.witness net = .ok (dcrWitnessOnly t.version (t.txWitnesses.map (·.bytes))) := by
  unfold DecredTx.witness decredGate
  rw [check_bind, if_pos hn, VarInt.make_len hl, ok_bind]
  have e : leBytes 2 2 = [0x02, 0x00] := by decide
  simp [dcrWitnessOnly, vector, e, slice, List.flatMap_def]

theorem DecredTx.final_eq {net : Network} (hn : net.isDecred = true) {t : DecredTx} (hl : t.txWitnesses.length < 2 ^ 64)
    (hw : ∀ w ∈ t.txWitnesses, w.Built net) {T : Nat} (hT : T < 2 ^ 32) : DecredTx.sighashFinalHashing net t T =
      .ok (blake256 (leBytes 4 T ++ t.txIdLe ++ blake256 (dcrWitnessSigning t.version (t.txWitnesses.map (·.scriptSig))))) := by
  unfold DecredTx.sighashFinalHashing decredGate DecredTx.witnessSigningHash
  rw [check_bind, if_pos hn, i2lePadded4 hT, ok_bind, DecredTx.witnessSigning_eq hn hl hw, ok_bind, ok_bind]
  rfl

theorem withScript_withScript (s r : Bytes) (w : DecredInputWitness) : (w.withScript r).withScript s = w.withScript s := rfl

theorem DecredTx.acp_eq {net : Network} {v : Bytes} {ins : List DecredTxIn} {outs : List DecredTxOut} {lt ex : Bytes}
    {ws : List DecredInputWitness} {k : Nat} {s : Bytes} (h : DecredArgs net v ins outs lt ex (prepWits ws k s))
    (hw : ∀ w ∈ ws, w.Built net) (hs : s.length < 2 ^ 64) {index : Int} (hi : pyIndex index ws.length = some k) (T : Nat) :
    DecredTx.sighashAnyoneCanPay net index (decredObj v ins outs lt ex (prepWits ws k s)) T =
      DecredTx.sighashFinalHashing net (decredObj v ins outs lt ex (prepWits ws k s)) (T ||| SIGHASH_ANYONECANPAY) := by
  have hb := prepWits_built h.net hw k hs
  unfold DecredTx.sighashAnyoneCanPay
  have e1 : (decredObj v ins outs lt ex (prepWits ws k s)).txWitnesses = prepWits ws k s := rfl
  rw [e1, blank_mapPy h.net hb, ok_bind]
  have hi1 : pyIndex index (prepWits ws k s).length = some k := by rw [prepWits_length]; exact hi
  have hi2 : pyIndex index ((prepWits ws k s).map (·.withScript [])).length = some k := by simpa using hi1
  have hk := pyIndex_lt hi1
  rw [getItem_ok hi1, ok_bind, setItem_ok hi2, ok_bind]
  have e2 : (List.map (fun x => DecredInputWitness.withScript [] x) (prepWits ws k s)).set k ((prepWits ws k s)[k]'hk) = prepWits ws k s := by
    apply List.ext_getElem
    · simp
    · intro j h1 h2
      rw [List.getElem_set]
      split
      · rename_i c; subst c; rfl
      · rename_i c
        have c' : ¬ j = k := fun hh => c hh.symm
        simp [prepWits, c', withScript_withScript]
  rw [e2]
  have e3 : (decredObj v ins outs lt ex (prepWits ws k s)).copy net (txWitnesses := some (prepWits ws k s)) =
      .ok (decredObj v ins outs lt ex (prepWits ws k s)) := DecredTx.make_iff.2 ⟨h, rfl⟩
  rw [e3, ok_bind]

/-- The fields covered by signatures. -/
def DecredTx.sig (t : DecredTx) : DcrSigTx :=
  ⟨t.version, t.txIns.map (fun i => (i.outpoint.txId ++ i.outpoint.index ++ i.outpoint.tree, i.sequence)),
    t.txOuts.map (fun o => (o.value, o.version, o.outputScript)), t.lockTime, t.expiry⟩

theorem sighashAll_decred {net : Network} {t : DecredTx} (h : t.Facts net) {index : Int} {k : Nat}
    (hi : pyIndex index t.txWitnesses.length = some k) (script : Option Bytes) (acp : Bool) :
    t.sighashAll net index script acp =
      if (dcrFull t.version (t.txIns.map (·.bytes)) (t.txOuts.map (·.bytes)) t.lockTime t.expiry
        ((prepWits t.txWitnesses k (script.getD [])).map (·.bytes))).length ≤ 100000
      then .ok (blake256 (leBytes 4 (sigType false acp) ++ t.txIdLe ++
        blake256 (dcrWitnessSigning t.version (dcrSigScripts t.txWitnesses.length k (script.getD [])))))
      else .error .valueError := by
  have hn := h.args.net
  have hk := pyIndex_lt hi
  unfold DecredTx.sighashAll
  rw [DecredTx.sighashPrep_eq h hi]
  split
  · rename_i hsz
    have hsl : (script.getD []).length < 2 ^ 64 := by
      have := prep_size (v := t.version) (ins := t.txIns.map (·.bytes)) (outs := t.txOuts.map (·.bytes)) (lt := t.lockTime)
        (ex := t.expiry) hk (script.getD [])
      omega
    have hb := prepWits_built hn h.wits k hsl
    have hl : (prepWits t.txWitnesses k (script.getD [])).length < 2 ^ 64 := by rw [prepWits_length]; exact h.args.lw
    have ha : DecredArgs net t.version t.txIns t.txOuts t.lockTime t.expiry (prepWits t.txWitnesses k (script.getD [])) :=
      ⟨hn, h.args.v4, h.args.lt4, h.args.ex4, h.args.ins0, h.args.outs0, h.args.li, h.args.lo, hl, hsz⟩
    have hid : (decredObj t.version t.txIns t.txOuts t.lockTime t.expiry (prepWits t.txWitnesses k (script.getD []))).txIdLe = t.txIdLe :=
      (congrArg DecredTx.txIdLe h.obj).symm
    have fin : ∀ T, T < 2 ^ 32 → DecredTx.sighashFinalHashing net
        (decredObj t.version t.txIns t.txOuts t.lockTime t.expiry (prepWits t.txWitnesses k (script.getD []))) T =
        .ok (blake256 (leBytes 4 T ++ t.txIdLe ++
          blake256 (dcrWitnessSigning t.version (dcrSigScripts t.txWitnesses.length k (script.getD []))))) := by
      intro T hT
      rw [DecredTx.final_eq hn hl hb hT, hid, ← prepWits_scripts]; rfl
    rw [ok_bind]
    cases acp with
    | true =>
      rw [if_pos rfl, DecredTx.acp_eq ha h.wits hsl hi, fin _ (by decide)]; rfl
    | false => rw [if_neg (by simp), fin _ (by decide)]; rfl
  · rfl

/-- The output SINGLE puts at other positions. -/
def blankDcrOut : DecredTxOut := ⟨List.replicate 8 0xff, [0, 0], [], 0, dcrOut (List.replicate 8 0xff) [0, 0] []⟩

theorem DecredTx.singleOuts_eq {net : Network} (hn : net.isDecred = true) (t : DecredTx) {index : Int} {k k' : Nat}
    (ho : pyIndex index t.txOuts.length = some k') (hi : pyIndex index t.txIns.length = some k) :
    DecredTx.singleOuts net t index =
      .ok ((List.replicate t.txIns.length blankDcrOut).set k (t.txOuts[k']'(pyIndex_lt ho))) := by
  unfold DecredTx.singleOuts
  have e : ∀ x ∈ t.txIns, (fun (_ : DecredTxIn) => DecredTxOut.make net (List.replicate 8 0xff) [0, 0] []) x = .ok ((fun _ => blankDcrOut) x) :=
    fun x _ => DecredTxOut.make_iff.2 ⟨hn, by simp, rfl, by simp, rfl⟩
  rw [mapPy_ok e, ok_bind, getItem_ok ho, ok_bind, setItem_ok (k := k) (by simpa using hi), List.map_const']
  rfl

theorem DecredTx.singleOuts_none {net : Network} (hn : net.isDecred = true) (t : DecredTx) {index : Int}
    (ho : pyIndex index t.txOuts.length = none ∨ pyIndex index t.txIns.length = none) :
    DecredTx.singleOuts net t index = .error .notImplementedError := by
  unfold DecredTx.singleOuts
  have e : ∀ x ∈ t.txIns, (fun (_ : DecredTxIn) => DecredTxOut.make net (List.replicate 8 0xff) [0, 0] []) x = .ok ((fun _ => blankDcrOut) x) :=
    fun x _ => DecredTxOut.make_iff.2 ⟨hn, by simp, rfl, by simp, rfl⟩
  rw [mapPy_ok e, ok_bind]
  cases h : pyIndex index t.txOuts.length with
  | none => rw [getItem_none h, error_bind]; rfl
  | some k =>
    rw [getItem_ok h, ok_bind]
    rcases ho with ho | ho
    · rw [ho] at h; cases h
    · unfold setItem
      simp only [List.length_map, ho]
      rfl

end Verif
