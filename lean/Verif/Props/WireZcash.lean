import Verif.Lemmas.WireZcash
import Verif.Props.WireTx
import Verif.Props.SpendZcash
import Verif.Props.Zcash

/-! Property C109: which Zcash transactions are read from the wire unchanged. -/

namespace Verif.Props
open Verif Spec

/-- What is asked of transactions of every version: counts and input scripts of lengths that can be read, input scripts of at most 1650 bytes that are
kept when they are taken apart, output scripts of fewer than 252 bytes, at most five joinsplits of which none both takes and gives transparent
value, and at most 100000 bytes in all. -/
structure ZRead (net : Network) (w : ZTx) : Prop where
  counts : CountRead net w.ins.length ∧ CountRead net w.outs.length
  ins : ∀ i ∈ w.ins, i.script.length ≤ 1650 ∧ CountRead net i.script.length ∧ KeptIn net i
  outs : ∀ o ∈ w.outs, o.script.length < 252
  js : w.js.length ≤ 5 ∧ ∀ j ∈ w.js, leValue (j.take 8) = 0 ∨ leValue ((j.drop 8).take 8) = 0
  size : w.bytes.length ≤ 100000

/-! ## From fields to objects -/

/-- The input with the fields `i`, its script unsplit. -/
def mkIn (i : WireIn) : TxIn :=
  ⟨⟨i.txId, i.index, i.txId ++ i.index⟩, i.script, [], i.script, i.sequence, (i.txId ++ i.index) ++ varBytes i.script ++ i.sequence⟩

def mkOut (o : WireOut) : TxOut := ⟨o.value, o.script, wireOut o.value o.script⟩

theorem mkIn_built {i : WireIn} (h : i.WF) (hl : i.script.length ≤ 1650) : (mkIn i).Built :=
  ⟨⟨i.txId, i.index, i.txId ++ i.index⟩, i.script, [], i.sequence, ⟨_, _, Outpoint.make_iff.2 ⟨h.txId, h.index, rfl⟩⟩,
    TxIn.make_iff.2 ⟨by simp [h.txId, h.index], h.sequence, by simpa using hl, by simp [mkIn]⟩⟩

theorem mkOut_built {o : WireOut} (h : o.WF) : (mkOut o).Built := ⟨_, _, TxOut.make_iff.2 ⟨h.value, h.script, rfl⟩⟩

theorem mkIns_bytes (l : List WireIn) : (l.map mkIn).map (·.bytes) = l.map WireIn.bytes := by
  rw [List.map_map]
  apply List.map_congr_left
  intro i _
  simp [mkIn, WireIn.bytes, wireIn]

theorem mkOuts_bytes (l : List WireOut) : (l.map mkOut).map (·.bytes) = l.map WireOut.bytes := by
  rw [List.map_map]; rfl

theorem ins_stable' {net : Network} (hn : net.Supported) {w : ZTx} (hwi : ∀ i ∈ w.ins, i.WF) (hwo : ∀ o ∈ w.outs, o.WF) (h : ZRead net w) :
    (∀ i ∈ w.ins.map mkIn, i.Built) ∧ (∀ o ∈ w.outs.map mkOut, o.Built) ∧ InsOutsStable net (w.ins.map mkIn) (w.outs.map mkOut) := by
  refine ⟨?_, ?_, ?_, ?_, ?_, ?_⟩
  · simp only [List.mem_map]; rintro _ ⟨i, hi, rfl⟩; exact mkIn_built (hwi i hi) (h.ins i hi).1
  · simp only [List.mem_map]; rintro _ ⟨o, ho, rfl⟩; exact mkOut_built (hwo o ho)
  · rw [List.length_map]; exact countRead_iff.1 h.counts.1
  · rw [List.length_map]; exact countRead_iff.1 h.counts.2
  · simp only [List.mem_map]
    rintro _ ⟨i, hi, rfl⟩
    refine ⟨countRead_iff.1 (h.ins i hi).2.1, ?_⟩
    rcases (h.ins i hi).2.2 with ⟨h1, h2⟩ | h1
    · left; simp only [mkIn]; rw [h1, h2]
    · exact .inr (.inr (.inr ((parseScriptSig_exact hn _).2 h1)))
  · simp only [List.mem_map]; rintro _ ⟨o, ho, rfl⟩; exact h.outs o ho

theorem ins_stable {net : Network} (hn : net.Supported) {w : ZTx} (hw : w.WF) (h : ZRead net w) :
    (∀ i ∈ w.ins.map mkIn, i.Built) ∧ (∀ o ∈ w.outs.map mkOut, o.Built) ∧ InsOutsStable net (w.ins.map mkIn) (w.outs.map mkOut) :=
  ins_stable' hn hw.ins.2 hw.outs.2 h

/-- Objects with given bytes. -/
theorem exists_objs {α : Type} {B : α → Prop} {bytes : α → Bytes} (l : List Bytes) (h : ∀ j ∈ l, ∃ x, B x ∧ bytes x = j) :
    ∃ xs : List α, (∀ x ∈ xs, B x) ∧ xs.map bytes = l := by
  induction l with
  | nil => exact ⟨[], by simp, rfl⟩
  | cons j l ih =>
    obtain ⟨x, h1, h2⟩ := h j (by simp)
    obtain ⟨xs, h3, h4⟩ := ih fun y hy => h y (by simp [hy])
    exact ⟨x :: xs, by simpa [h1] using h3, by simp [h2, h4]⟩

theorem sproutJs_objs {net : Network} (hz : net.isZcash = true) {l : List Bytes} (hl : ∀ j ∈ l, j.length = 1802)
    (hv : ∀ j ∈ l, leValue (j.take 8) = 0 ∨ leValue ((j.drop 8).take 8) = 0) :
    ∃ xs : List SproutJoinsplit, (∀ x ∈ xs, x.Built net) ∧ xs.map (·.bytes) = l :=
  exists_objs l fun j hj => by
    obtain ⟨t, -, h1, h2⟩ := (C54_sprout_joinsplit_parse net j).1 ⟨hz, by rw [hl j hj], by
      have := hv j hj
      rw [leToNat_eq_leValue, leToNat_eq_leValue]; omega⟩
    exact ⟨t, h1, by rw [h2, List.take_of_length_le (by rw [hl j hj])]⟩

theorem saplingJs_objs {net : Network} (hz : net.isZcash = true) {l : List Bytes} (hl : ∀ j ∈ l, j.length = 1698)
    (hv : ∀ j ∈ l, leValue (j.take 8) = 0 ∨ leValue ((j.drop 8).take 8) = 0) :
    ∃ xs : List SaplingJoinsplit, (∀ x ∈ xs, x.Built net) ∧ xs.map (·.bytes) = l :=
  exists_objs l fun j hj => by
    obtain ⟨t, -, h1, h2⟩ := (C54_sapling_joinsplit_parse net j).1 ⟨hz, by rw [hl j hj], by
      have := hv j hj
      rw [leToNat_eq_leValue, leToNat_eq_leValue]; omega⟩
    exact ⟨t, h1, by rw [h2, List.take_of_length_le (by rw [hl j hj])]⟩

/-! ## From bytes to fields -/

/-- Inputs and outputs can be told from what follows. -/
theorem body_inj {ins ins' : List WireIn} {outs outs' : List WireOut} {r r' : Bytes} (hi : ins.length < 2 ^ 64 ∧ ∀ i ∈ ins, i.WF)
    (hi' : ins'.length < 2 ^ 64 ∧ ∀ i ∈ ins', i.WF) (ho : outs.length < 2 ^ 64 ∧ ∀ i ∈ outs, i.WF)
    (ho' : outs'.length < 2 ^ 64 ∧ ∀ i ∈ outs', i.WF)
    (e : vector (ins.map WireIn.bytes) ++ (vector (outs.map WireOut.bytes) ++ r) = vector (ins'.map WireIn.bytes) ++
      (vector (outs'.map WireOut.bytes) ++ r')) : ins = ins' ∧ outs = outs' ∧ r = r' := by
  have mem : ∀ {α : Type} {P : α → Prop} {g : α → Bytes} {l : List α}, (∀ i ∈ l, P i) → ∀ x ∈ l.map g, ∃ i, P i ∧ x = g i := by
    intro α P g l hl x hx
    obtain ⟨i, h1, rfl⟩ := List.mem_map.1 hx
    exact ⟨i, hl i h1, rfl⟩
  obtain ⟨h2, e⟩ := vector_inj WireIn.selfDelim (mem hi.2) (mem hi'.2) (by simpa using hi.1) (by simpa using hi'.1) e
  obtain ⟨h3, e⟩ := vector_inj WireOut.selfDelim (mem ho.2) (mem ho'.2) (by simpa using ho.1) (by simpa using ho'.1) e
  refine ⟨?_, ?_, e⟩
  · refine map_bytes_inj (P := WireIn.WF) (f := WireIn.bytes) (fun x y hx hy e => ?_) hi.2 hi'.2 h2
    have e' : wireIn x.txId x.index x.script x.sequence ++ [] = wireIn y.txId y.index y.script y.sequence ++ [] := by
      simpa [WireIn.bytes] using e
    obtain ⟨h1, h2, h3, h4, -⟩ := wireIn_inj (by rw [hx.txId, hy.txId]) (by rw [hx.index, hy.index]) (by rw [hx.sequence, hy.sequence])
      hx.script hy.script e'
    cases x; cases y; simp only at h1 h2 h3 h4; rw [h1, h2, h3, h4]
  · refine map_bytes_inj (P := WireOut.WF) (f := WireOut.bytes) (fun x y hx hy e => ?_) ho.2 ho'.2 h3
    have e' : wireOut x.value x.script ++ [] = wireOut y.value y.script ++ [] := by simpa [WireOut.bytes] using e
    obtain ⟨h1, h2, -⟩ := wireOut_inj (by rw [hx.value, hy.value]) hx.script hy.script e'
    cases x; cases y; simp only at h1 h2; rw [h1, h2]

/-- What the object says of the fields. -/
theorem zread_of {net : Network} (hn : net.Supported) {w : ZTx} {ins : List TxIn} {outs : List TxOut} (hi : ∀ i ∈ ins, i.Built)
    (hs : InsOutsStable net ins outs) (hf : ∀ i ∈ ins, i.outpoint.bytes = List.replicate 32 0x00 ++ List.replicate 4 0xff ∨
      ∃ x y, TxIn.parseScriptSig net i.scriptSig = .ok (x, y) ∧ x ++ y = i.scriptSig)
    (ei : w.ins = ins.map wireOf) (eo : w.outs = wireOuts outs)
    (hj : w.js.length ≤ 5 ∧ ∀ j ∈ w.js, leValue (j.take 8) = 0 ∨ leValue ((j.drop 8).take 8) = 0) (hb : w.bytes.length ≤ 100000) :
    ZRead net w := by
  refine ⟨⟨?_, ?_⟩, ?_, ?_, hj, hb⟩
  · rw [ei, List.length_map]; exact countRead_iff.2 hs.nIns
  · rw [eo, wireOuts, List.length_map]; exact countRead_iff.2 hs.nOuts
  · rw [ei]
    simp only [List.mem_map]
    rintro _ ⟨i, hi', rfl⟩
    have e := (hi i hi').eq
    refine ⟨by have := e.2.2.2.1; simp only [wireOf]; omega, countRead_iff.2 (hs.ins i hi').1, ?_⟩
    rcases hf i hi' with h1 | h1
    · left
      rw [e.1.eq.2.2] at h1
      exact List.append_inj h1 (by rw [List.length_replicate]; exact e.1.eq.1)
    · right
      exact (parseScriptSig_exact hn _).1 h1
  · rw [eo]
    simp only [wireOuts, List.mem_map]
    rintro _ ⟨o, ho, rfl⟩
    exact hs.outs o ho

theorem wireJoinsplits_inj {n : Nat} {js js' : List Bytes} {pk pk' sg sg' r r' : Bytes} (hl : js.length < 2 ^ 64 ∧ ∀ j ∈ js, j.length = n)
    (hl' : js'.length < 2 ^ 64 ∧ ∀ j ∈ js', j.length = n) (hk : js ≠ [] → pk.length = 32 ∧ sg.length = 64)
    (hk' : js' ≠ [] → pk'.length = 32 ∧ sg'.length = 64) (e : wireJoinsplits js pk sg ++ r = wireJoinsplits js' pk' sg' ++ r') :
    js = js' ∧ (js ≠ [] → pk = pk' ∧ sg = sg') ∧ r = r' := by
  unfold wireJoinsplits at e
  simp only [List.append_assoc] at e
  obtain ⟨rfl, e⟩ := vector_inj (fixed_selfDelim n) hl.2 hl'.2 hl.1 hl'.1 e
  refine ⟨rfl, ?_⟩
  by_cases c : js = []
  · rw [if_pos c, if_pos c] at e; exact ⟨fun h => absurd c h, e⟩
  · rw [if_neg c, if_neg c, List.append_assoc, List.append_assoc] at e
    obtain ⟨h1, e⟩ := List.append_inj e (by rw [(hk c).1, (hk' c).1])
    obtain ⟨h2, e⟩ := List.append_inj e (by rw [(hk c).2, (hk' c).2])
    exact ⟨fun _ => ⟨h1, h2⟩, e⟩

theorem js_vpub {net : Network} {t : SproutJoinsplit} (h : t.Built net) :
    leValue (t.bytes.take 8) = 0 ∨ leValue ((t.bytes.drop 8).take 8) = 0 := by
  have h1 := (C54_sprout_joinsplit_roundtrip net t h []).2
  rw [List.append_nil] at h1
  have h2 := (C54_sprout_joinsplit_parse net t.bytes).2
  by_cases c : leValue (t.bytes.take 8) = 0 ∨ leValue ((t.bytes.drop 8).take 8) = 0
  · exact c
  · rw [h2 (by rw [leToNat_eq_leValue, leToNat_eq_leValue]; omega)] at h1
    cases h1

theorem js_vpubS {net : Network} {t : SaplingJoinsplit} (h : t.Built net) :
    leValue (t.bytes.take 8) = 0 ∨ leValue ((t.bytes.drop 8).take 8) = 0 := by
  have h1 := (C54_sapling_joinsplit_roundtrip net t h []).2
  rw [List.append_nil] at h1
  have h2 := (C54_sapling_joinsplit_parse net t.bytes).2
  by_cases c : leValue (t.bytes.take 8) = 0 ∨ leValue ((t.bytes.drop 8).take 8) = 0
  · exact c
  · rw [h2 (by rw [leToNat_eq_leValue, leToNat_eq_leValue]; omega)] at h1
    cases h1

/-! ## Overwinter -/

theorem over_zcash {net : Network} (hs : net.Supported) (h : net.isOverwinter = true) : net.isZcash = true := by
  have key : ∀ n : Network, n.Supported → n.isOverwinter = true → n.isZcash = true := by
    unfold Network.Supported; decide +kernel
  exact key net hs h

theorem ztx3_fields {v w : ZTx} (hwf : v.WF) (hv' : v.version = 3) (hw : w.WF) (hv : w.version = 3) (hf : v.bytes = w.bytes) :
    v.ins = w.ins ∧ v.outs = w.outs ∧ v.lockTime = w.lockTime ∧ v.expiry = w.expiry ∧ v.js = w.js ∧ (v.js ≠ [] → v.jsPubkey = w.jsPubkey ∧ v.jsSig = w.jsSig) := by
  have hjs := hw.js
  have hjs' := hwf.js
  rw [hv, if_neg (by decide), if_neg (by decide)] at hjs
  rw [hv', if_neg (by decide), if_neg (by decide)] at hjs'
  unfold ZTx.bytes at hf
  rw [if_pos hv', if_pos hv, wireOverwinter_eq, wireOverwinter_eq] at hf
  obtain ⟨e1, e2, hf⟩ := body_inj hwf.ins hw.ins hwf.outs hw.outs (List.append_cancel_left hf)
  obtain ⟨e3, hf⟩ := List.append_inj hf (by rw [hwf.lockTime, hw.lockTime])
  obtain ⟨e4, hf⟩ := List.append_inj hf (by rw [hwf.expiry (by omega), hw.expiry (by omega)])
  obtain ⟨e5, e6, -⟩ := wireJoinsplits_inj (r := []) (r' := []) hjs' hjs hwf.jsKeys hw.jsKeys (by simpa using hf)
  exact ⟨e1, e2, e3, e4, e5, e6⟩

theorem over_fields {E : Env} {t : OverwinterTx} (f : t.Facts E) {w : ZTx} (hw : w.WF) (hv : w.version = 3) (hb : t.bytes = w.bytes) :
    (overFields t).ins = w.ins ∧ (overFields t).outs = w.outs ∧ (overFields t).lockTime = w.lockTime ∧ (overFields t).expiry = w.expiry ∧
    (overFields t).js = w.js ∧ ((overFields t).js ≠ [] → (overFields t).jsPubkey = w.jsPubkey ∧ (overFields t).jsSig = w.jsSig) :=
  ztx3_fields (overFields_wf f) rfl hw hv ((overFields_bytes f).trans hb)

/-- What is asked of version 3: at most height 499999999 to expire, something to spend, and fewer than 253 outputs if there are joinsplits. -/
structure OverRead (net : Network) (w : ZTx) : Prop where
  read : ZRead net w
  expiry : leValue w.expiry ≤ 499999999
  spends : w.ins ≠ [] ∨ w.js ≠ []
  few : w.js = [] ∨ w.outs.length < 253

/-- C109 for version 3: what is read, whatever follows. -/
theorem C109_overwinter_rest (E : Env) (hn : E.net.Supported) (hz : E.net.isOverwinter = true) (w : ZTx) (hw : w.WF) (hv : w.version = 3)
    (h : OverRead E.net w) (rest : Bytes) : ∃ t, OverwinterTx.fromBytes E (w.bytes ++ rest) = .ok t ∧ t.bytes = w.bytes := by
  have zc := over_zcash hn hz
  obtain ⟨hi, ho, hs⟩ := ins_stable hn hw h.read
  have hjs := hw.js
  rw [hv, if_neg (by decide), if_neg (by decide)] at hjs
  obtain ⟨js, j1, j2⟩ := sproutJs_objs zc hjs.2 h.read.js.2
  have jn : js = [] ↔ w.js = [] := by rw [← j2, List.map_eq_nil_iff]
  have jl : js.length = w.js.length := by rw [← j2, List.length_map]
  have hb : wireOverwinter ((w.ins.map mkIn).map (·.bytes)) ((w.outs.map mkOut).map (·.bytes)) w.lockTime w.expiry (js.map (·.bytes)) w.jsPubkey
      w.jsSig = w.bytes := by
    rw [mkIns_bytes, mkOuts_bytes, j2]
    unfold ZTx.bytes
    rw [if_pos hv]
  have args : OverArgs E (w.ins.map mkIn) (w.outs.map mkOut) w.lockTime w.expiry js (some w.jsPubkey) (some w.jsSig) := {
    zc := zc
    ow := hz
    lt4 := hw.lockTime
    ex4 := hw.expiry (by omega)
    expiry := by unfold le2i; rw [leToNat_eq_leValue]; exact h.expiry
    js5 := by rw [jl]; exact h.read.js.1
    keys := fun c => ⟨⟨_, rfl, (hw.jsKeys fun c' => c (jn.2 c')).1⟩, _, rfl, (hw.jsKeys fun c' => c (jn.2 c')).2⟩
    some := by
      rintro ⟨c1, c2⟩
      rcases h.spends with c | c
      · exact c (List.map_eq_nil_iff.1 c2)
      · exact c (jn.1 c1)
    li := by rw [List.length_map]; exact hw.ins.1
    lo := by rw [List.length_map]; exact hw.outs.1
    size := by rw [Option.getD_some, Option.getD_some, hb]; exact h.read.size }
  obtain ⟨t, h1, h2, -⟩ := C57_roundtrip_partial E hn _ ⟨_, _, _, _, _, _, _, hi, ho, j1, OverwinterTx.make_iff.2 ⟨args, rfl⟩⟩ hs
    (h.few.imp jn.2 fun c => by simpa [overObj] using c) rest
  have hb' : (overObj E (w.ins.map mkIn) (w.outs.map mkOut) w.lockTime w.expiry js (some w.jsPubkey) (some w.jsSig)).bytes = w.bytes := hb
  rw [hb'] at h1 h2
  exact ⟨t, h1, h2⟩

/-- C109 for version 3: a transaction is read as a transaction with the same bytes exactly if it has few enough of everything and its input scripts
are kept. -/
theorem C109_overwinter (E : Env) (hn : E.net.Supported) (hz : E.net.isOverwinter = true) (w : ZTx) (hw : w.WF) (hv : w.version = 3) :
    (∃ t, OverwinterTx.fromBytes E w.bytes = .ok t ∧ t.bytes = w.bytes) ↔ OverRead E.net w := by
  constructor
  case mpr => intro h; simpa using C109_overwinter_rest E hn hz w hw hv h []
  rintro ⟨t, ht, hb⟩
  have hB := (OverwinterTx.fromBytes_ok hn ht).1
  have f := hB.facts
  rw [← hb] at ht
  -- the object is read from its own bytes
  have hself : InsOutsStable E.net t.txIns t.txOuts ∧ ∀ i ∈ t.txIns, i.outpoint.bytes = List.replicate 32 0x00 ++ List.replicate 4 0xff ∨
      ∃ x y, TxIn.parseScriptSig E.net i.scriptSig = .ok (x, y) ∧ x ++ y = i.scriptSig := by
    obtain ⟨p, js, pk, sig, h1, -, h3⟩ := OverwinterTx.fromBytes_steps ht
    obtain ⟨-, e⟩ := OverwinterTx.make_iff.1 h3
    have e1 : t.txIns = p.txIns := by rw [e]; rfl
    have e2 : t.txOuts = p.txOuts := by rw [e]; rfl
    rw [f.bytes, wireOverwinter_eq, e1, e2] at h1
    rw [e1, e2]
    obtain ⟨a, b, -⟩ := parseInsOuts_self (pre := overHeader) hn (by rw [← e1]; exact f.args.li) (by rw [← e2]; exact f.args.lo) h1
    exact ⟨a, b⟩
  -- and the fields are its fields
  obtain ⟨e1, e2, -, e4, e5, -⟩ := over_fields f hw hv hb
  have e5' : w.js = t.txJoinsplits.map (·.bytes) := e5.symm
  have h4 : leValue w.expiry ≤ 499999999 := by
    rw [← e4, ← leToNat_eq_leValue]; exact f.args.expiry
  refine ⟨zread_of hn f.ins hself.1 hself.2 e1.symm e2.symm ⟨?_, ?_⟩ ?_, h4, ?_, ?_⟩
  · rw [e5', List.length_map]; exact f.args.js5
  · rw [e5']
    simp only [List.mem_map]
    rintro _ ⟨j, hj, rfl⟩
    exact js_vpub (f.js j hj)
  · rw [← hb, f.bytes]; exact f.args.size
  · by_cases c : w.ins = []
    · right
      intro c'
      apply f.args.some
      rw [e5', List.map_eq_nil_iff] at c'
      have c1 : t.txIns.map wireOf = [] := e1.trans c
      exact ⟨c', List.map_eq_nil_iff.1 c1⟩
    · exact .inl c
  · by_cases c : w.js = []
    · exact .inl c
    · right
      by_cases c2 : w.outs.length < 253
      · exact c2
      · exfalso
        have := C57_false E hn t hB hself.1 (by rintro h; rw [e5', h] at c; exact c rfl) (by
          rw [← e2] at c2
          simp only [overFields, wireOuts, List.length_map] at c2
          omega)
        rw [this] at ht
        cases ht

/-! ## Sapling -/

theorem sap_zcash {net : Network} (hs : net.Supported) (h : net.isSapling = true) : net.isZcash = true := by
  have key : ∀ n : Network, n.Supported → n.isSapling = true → n.isZcash = true := by
    unfold Network.Supported; decide +kernel
  exact key net hs h

/-- What is asked of version 4: at most height 499999999 to expire, something to spend, no balance without shielded parts, a number of spends that can
be read, and fewer than 253 transparent outputs if there are joinsplits or shielded parts. -/
structure SapRead (net : Network) (w : ZTx) : Prop where
  read : ZRead net w
  expiry : leValue w.expiry ≤ 499999999
  spends : w.ins ≠ [] ∨ w.js ≠ [] ∨ w.spends ≠ []
  balance : w.spends = [] → w.outputs = [] → w.balance = List.replicate 8 0
  count : CountRead net w.spends.length
  few : (w.js = [] ∧ w.spends = [] ∧ w.outputs = []) ∨ w.outs.length < 253

theorem wireSapling_parts (ins outs : List Bytes) (lt ex vb : Bytes) (ss so js : List Bytes) (pk sig bs : Bytes) :
    wireSapling ins outs lt ex vb ss so js pk sig bs = saplingHeader ++ (vector ins ++ (vector outs ++ (lt ++ (ex ++ (vb ++ (vector ss ++
      (vector so ++ (wireJoinsplits js pk sig ++ (if ss = [] ∧ so = [] then [] else bs))))))))) := by
  simp [wireSapling, saplingHeader]

theorem shielded_objs {net : Network} (hz : net.isZcash = true) {w : ZTx} (hw : w.WF) (hv : w.version = 4) :
    (∃ xs : List SaplingShieldedSpend, (∀ x ∈ xs, x.Built net) ∧ xs.map (·.bytes) = w.spends.map fun s => s.1 ++ s.2) ∧
    ∃ xs : List SaplingShieldedOutput, (∀ x ∈ xs, x.Built net) ∧ xs.map (·.bytes) = w.outputs := by
  have h1 := hw.spends
  have h2 := hw.outputs
  rw [if_pos hv] at h1 h2
  constructor
  · refine exists_objs _ fun j hj => ?_
    obtain ⟨s, hs, rfl⟩ := List.mem_map.1 hj
    have hl : (s.1 ++ s.2).length = 384 := by rw [List.length_append, (h1.2 s hs).1, (h1.2 s hs).2]
    obtain ⟨t, -, a, b⟩ := (C54_shielded_spend_parse net (s.1 ++ s.2)).1 ⟨hz, by rw [hl]⟩
    exact ⟨t, a, by rw [b, List.take_of_length_le (by rw [hl])]⟩
  · refine exists_objs _ fun j hj => ?_
    obtain ⟨t, -, a, b⟩ := (C54_shielded_output_parse net j).1 ⟨hz, by rw [h2.2 j hj]⟩
    exact ⟨t, a, by rw [b, List.take_of_length_le (by rw [h2.2 j hj])]⟩

theorem ztx4_fields {v w : ZTx} (hwf : v.WF) (hv' : v.version = 4) (hw : w.WF) (hv : w.version = 4) (hf : v.bytes = w.bytes) :
    v.ins = w.ins ∧ v.outs = w.outs ∧ v.lockTime = w.lockTime ∧ v.expiry = w.expiry ∧ v.balance = w.balance ∧
    v.spends.map (fun s => s.1 ++ s.2) = w.spends.map (fun s => s.1 ++ s.2) ∧ v.outputs = w.outputs ∧
    v.js = w.js ∧ (v.js ≠ [] → v.jsPubkey = w.jsPubkey ∧ v.jsSig = w.jsSig) ∧ (¬ (w.spends = [] ∧ w.outputs = []) → v.binding = w.binding) := by
  have hjs := hw.js
  have hjs' := hwf.js
  have hsp := hw.spends
  have hsp' := hwf.spends
  have hso := hw.outputs
  have hso' := hwf.outputs
  rw [hv, if_neg (by decide), if_pos rfl] at hjs
  rw [if_pos hv] at hsp hso
  rw [hv', if_neg (by decide), if_pos rfl] at hjs'
  rw [if_pos hv'] at hsp' hso'
  have fixed : ∀ l : List (Bytes × Bytes), (∀ s ∈ l, s.1.length = 320 ∧ s.2.length = 64) → ∀ x ∈ l.map (fun s => s.1 ++ s.2), x.length = 384 := by
    intro l hl x hx
    obtain ⟨s, hs, rfl⟩ := List.mem_map.1 hx
    rw [List.length_append, (hl s hs).1, (hl s hs).2]
  unfold ZTx.bytes at hf
  rw [if_neg (show ¬ v.version = 3 by omega), if_pos hv', if_neg (show ¬ w.version = 3 by omega), if_pos hv, wireSapling_parts, wireSapling_parts] at hf
  obtain ⟨e1, e2, hf⟩ := body_inj hwf.ins hw.ins hwf.outs hw.outs (List.append_cancel_left hf)
  obtain ⟨e3, hf⟩ := List.append_inj hf (by rw [hwf.lockTime, hw.lockTime])
  obtain ⟨e4, hf⟩ := List.append_inj hf (by rw [hwf.expiry (by omega), hw.expiry (by omega)])
  obtain ⟨e5, hf⟩ := List.append_inj hf (by rw [hwf.balance hv', hw.balance hv])
  obtain ⟨e6, hf⟩ := vector_inj (fixed_selfDelim 384) (fixed _ hsp'.2) (fixed _ hsp.2) (by simpa using hsp'.1) (by simpa using hsp.1) hf
  obtain ⟨e7, hf⟩ := vector_inj (fixed_selfDelim 948) hso'.2 hso.2 hso'.1 hso.1 hf
  obtain ⟨e8, e9, hf⟩ := wireJoinsplits_inj hjs' hjs hwf.jsKeys hw.jsKeys hf
  refine ⟨e1, e2, e3, e4, e5, e6, e7, e8, e9, fun c => ?_⟩
  rw [e6, e7] at hf
  have c' : ¬ (w.spends.map (fun s => s.1 ++ s.2) = [] ∧ w.outputs = []) := by rwa [List.map_eq_nil_iff]
  rwa [if_neg c', if_neg c'] at hf

theorem sap_fields {E : Env} {t : SaplingTx} (f : t.Facts E) {w : ZTx} (hw : w.WF) (hv : w.version = 4) (hb : t.bytes = w.bytes) :
    (sapFields t).ins = w.ins ∧ (sapFields t).outs = w.outs ∧ (sapFields t).lockTime = w.lockTime ∧ (sapFields t).expiry = w.expiry ∧
    (sapFields t).balance = w.balance ∧ (sapFields t).spends.map (fun s => s.1 ++ s.2) = w.spends.map (fun s => s.1 ++ s.2) ∧
    (sapFields t).outputs = w.outputs ∧
    (sapFields t).js = w.js ∧ ((sapFields t).js ≠ [] → (sapFields t).jsPubkey = w.jsPubkey ∧ (sapFields t).jsSig = w.jsSig) ∧
    (¬ (w.spends = [] ∧ w.outputs = []) → (sapFields t).binding = w.binding) :=
  ztx4_fields (sapFields_wf f) rfl hw hv ((sapFields_bytes f).trans hb)

/-- C109 for version 4: what is read, whatever follows. -/
theorem C109_sapling_rest (E : Env) (hn : E.net.Supported) (hz : E.net.isSapling = true) (w : ZTx) (hw : w.WF) (hv : w.version = 4)
    (h : SapRead E.net w) (rest : Bytes) : ∃ t, SaplingTx.fromBytes E (w.bytes ++ rest) = .ok t ∧ t.bytes = w.bytes := by
  have zc := sap_zcash hn hz
  obtain ⟨hi, ho, hs⟩ := ins_stable hn hw h.read
  have hjs := hw.js
  have hsp := hw.spends
  have hso := hw.outputs
  rw [hv, if_neg (by decide), if_pos rfl] at hjs
  rw [if_pos hv] at hsp hso
  obtain ⟨js, j1, j2⟩ := saplingJs_objs zc hjs.2 h.read.js.2
  obtain ⟨⟨ss, s1, s2⟩, so, o1, o2⟩ := shielded_objs zc hw hv
  have jn : js = [] ↔ w.js = [] := by rw [← j2, List.map_eq_nil_iff]
  have jl : js.length = w.js.length := by rw [← j2, List.length_map]
  have sn : ss = [] ↔ w.spends = [] := by rw [← List.map_eq_nil_iff (f := fun x : SaplingShieldedSpend => x.bytes), s2, List.map_eq_nil_iff]
  have sl : ss.length = w.spends.length := by
    have := congrArg List.length s2
    rwa [List.length_map, List.length_map] at this
  have on : so = [] ↔ w.outputs = [] := by rw [← o2, List.map_eq_nil_iff]
  have ol : so.length = w.outputs.length := by rw [← o2, List.length_map]
  have hb : saplingBytes (w.ins.map mkIn) (w.outs.map mkOut) w.lockTime w.expiry w.balance ss so js (some w.jsPubkey) (some w.jsSig)
      (if ss = [] ∧ so = [] then none else some w.binding) = w.bytes := by
    unfold saplingBytes
    rw [mkIns_bytes, mkOuts_bytes, j2, s2, o2, Option.getD_some, Option.getD_some]
    unfold ZTx.bytes
    rw [if_neg (show ¬ w.version = 3 by omega), if_pos hv, wireSapling_parts, wireSapling_parts]
    by_cases c : ss = [] ∧ so = []
    · have c' : w.spends.map (fun s => s.1 ++ s.2) = [] ∧ w.outputs = [] := ⟨List.map_eq_nil_iff.2 (sn.1 c.1), on.1 c.2⟩
      rw [if_pos c', if_pos c']
    · rw [if_neg c, Option.getD_some]
  have args : SaplingArgs E (w.ins.map mkIn) (w.outs.map mkOut) w.lockTime w.expiry w.balance ss so js (some w.jsPubkey) (some w.jsSig)
      (if ss = [] ∧ so = [] then none else some w.binding) := {
    zc := zc
    sp := hz
    lt4 := hw.lockTime
    ex4 := hw.expiry (by omega)
    vb8 := hw.balance hv
    expiry := by unfold le2i; rw [leToNat_eq_leValue]; exact h.expiry
    balance := fun c1 c2 => h.balance (sn.1 c1) (on.1 c2)
    bs64 := by
      intro s e
      by_cases c : ss = [] ∧ so = []
      · rw [if_pos c] at e; cases e
      · rw [if_neg c] at e
        cases e
        apply hw.binding
        by_cases c1 : ss = []
        · exact .inr fun c2 => c ⟨c1, on.2 c2⟩
        · exact .inl fun c2 => c1 (sn.2 c2)
    binding := by
      intro c
      rw [if_neg (by rintro ⟨c1, c2⟩; exact c.elim (fun h => h c1) fun h => h c2)]
      exact ⟨_, rfl⟩
    js5 := by rw [jl]; exact h.read.js.1
    keys := fun c => ⟨⟨_, rfl, (hw.jsKeys fun c' => c (jn.2 c')).1⟩, _, rfl, (hw.jsKeys fun c' => c (jn.2 c')).2⟩
    some := by
      rintro ⟨c1, c2, c3⟩
      rcases h.spends with c | c | c
      · exact c (List.map_eq_nil_iff.1 c2)
      · exact c (jn.1 c1)
      · exact c (sn.1 c3)
    li := by rw [List.length_map]; exact hw.ins.1
    lo := by rw [List.length_map]; exact hw.outs.1
    ls := by rw [sl]; exact hsp.1
    lso := by rw [ol]; exact hso.1
    size := by rw [hb]; exact h.read.size }
  obtain ⟨t, h1, h2, -⟩ := C58_roundtrip_partial E hn _ ⟨_, _, _, _, _, _, _, _, _, _, _, hi, ho, s1, o1, j1, SaplingTx.make_iff.2 ⟨args, rfl⟩⟩ hs
    (by
      have := h.count (.inr hz)
      rw [← sl] at this
      simp only [saplingObj]
      omega)
    (h.few.imp (fun c => ⟨jn.2 c.1, sn.2 c.2.1, on.2 c.2.2⟩) fun c => by simpa [saplingObj] using c) rest
  have hb' : (saplingObj E (w.ins.map mkIn) (w.outs.map mkOut) w.lockTime w.expiry w.balance ss so js (some w.jsPubkey) (some w.jsSig)
      (if ss = [] ∧ so = [] then none else some w.binding)).bytes = w.bytes := hb
  rw [hb'] at h1 h2
  exact ⟨t, h1, h2⟩

/-- C109 for version 4: a transaction is read as a transaction with the same bytes exactly if it has few enough of everything and its input scripts
are kept. -/
theorem C109_sapling (E : Env) (hn : E.net.Supported) (hz : E.net.isSapling = true) (w : ZTx) (hw : w.WF) (hv : w.version = 4) :
    (∃ t, SaplingTx.fromBytes E w.bytes = .ok t ∧ t.bytes = w.bytes) ↔ SapRead E.net w := by
  constructor
  case mpr => intro h; simpa using C109_sapling_rest E hn hz w hw hv h []
  rintro ⟨t, ht, hb⟩
  have hB := (SaplingTx.fromBytes_ok hn ht).1
  have f := hB.facts
  rw [← hb] at ht
  have hself : InsOutsStable E.net t.txIns t.txOuts ∧ (∀ i ∈ t.txIns, i.outpoint.bytes = List.replicate 32 0x00 ++ List.replicate 4 0xff ∨
      ∃ x y, TxIn.parseScriptSig E.net i.scriptSig = .ok (x, y) ∧ x ++ y = i.scriptSig) ∧ LenOK E.net t.txShieldedSpends.length := by
    obtain ⟨p, r, h1, h2, h3⟩ := SaplingTx.fromBytes_steps ht
    obtain ⟨-, e⟩ := SaplingTx.make_iff.1 h3
    have e1 : t.txIns = p.txIns := by rw [e]; rfl
    have e2 : t.txOuts = p.txOuts := by rw [e]; rfl
    have hbb := f.bytes
    rw [saplingBytes, wireSapling_parts, e1, e2] at hbb
    rw [hbb] at h1
    obtain ⟨a, b, c⟩ := parseInsOuts_self (pre := saplingHeader) hn (by rw [← e1]; exact f.args.li) (by rw [← e2]; exact f.args.lo) h1
    rw [e1, e2]
    refine ⟨a, b, ?_⟩
    unfold SaplingTx.parseRest at h2
    obtain ⟨ns, h2, -⟩ := bind_ok_iff.1 h2
    have l : p.current + 16 = (saplingHeader ++ (vector (p.txIns.map (·.bytes)) ++ (vector (p.txOuts.map (·.bytes)) ++ (t.lockTime ++
        (t.expiryHeight ++ t.valueBalance))))).length := by
      rw [c]
      simp only [List.length_append, f.args.lt4, f.args.ex4, f.args.vb8]
      omega
    have d : ∀ a b c d e g r : Bytes, a ++ (b ++ (c ++ (d ++ (e ++ (g ++ r))))) = (a ++ (b ++ (c ++ (d ++ (e ++ g))))) ++ r := by
      intro a b c d e g r; simp
    rw [hbb, l, d, List.drop_left] at h2
    unfold vector at h2
    rw [List.append_assoc, List.length_map] at h2
    exact VarInt.len_of_ok h2
  obtain ⟨hst, hkept, hlen⟩ := hself
  obtain ⟨e1, e2, -, e4, e5, e6, e7, e8, -⟩ := sap_fields f hw hv hb
  have e8' : w.js = t.txJoinsplits.map (·.bytes) := e8.symm
  have e7' : w.outputs = t.txShieldedOutputs.map (·.bytes) := e7.symm
  have sl : w.spends.length = t.txShieldedSpends.length := by
    have := congrArg List.length e6
    simpa [sapFields] using this.symm
  have sn : w.spends = [] ↔ t.txShieldedSpends = [] := by rw [← List.length_eq_zero_iff, sl, List.length_eq_zero_iff]
  have on : w.outputs = [] ↔ t.txShieldedOutputs = [] := by rw [e7', List.map_eq_nil_iff]
  have jn : w.js = [] ↔ t.txJoinsplits = [] := by rw [e8', List.map_eq_nil_iff]
  have h4 : leValue w.expiry ≤ 499999999 := by
    rw [← e4, ← leToNat_eq_leValue]; exact f.args.expiry
  refine ⟨zread_of hn f.ins hst hkept e1.symm e2.symm ⟨?_, ?_⟩ ?_, h4, ?_, ?_, ?_, ?_⟩
  · rw [e8', List.length_map]; exact f.args.js5
  · rw [e8']
    simp only [List.mem_map]
    rintro _ ⟨j, hj, rfl⟩
    exact js_vpubS (f.js j hj)
  · rw [← hb, f.bytes]; exact f.args.size
  · by_cases c : w.ins = []
    · right
      by_cases c' : w.js = []
      · right
        intro c3
        have c1 : t.txIns.map wireOf = [] := e1.trans c
        exact f.args.some ⟨jn.1 c', List.map_eq_nil_iff.1 c1, sn.1 c3⟩
      · exact .inl c'
    · exact .inl c
  · intro c1 c2
    rw [← e5]
    exact f.args.balance (sn.1 c1) (on.1 c2)
  · rw [sl]; exact countRead_iff.2 hlen
  · by_cases c2 : w.outs.length < 253
    · exact .inr c2
    left
    have hl := countRead_iff.2 hlen (.inr hz)
    by_cases c : t.txJoinsplits ≠ [] ∨ t.txShieldedSpends ≠ [] ∨ t.txShieldedOutputs ≠ []
    · exfalso
      have := C58_false E hn t hB hst (by omega) c (by
        rw [← e2] at c2
        simp only [sapFields, wireOuts, List.length_map] at c2
        omega)
      rw [this] at ht
      cases ht
    · simp only [not_or, Classical.not_not] at c
      exact ⟨jn.2 c.1, sn.2 c.2.1, on.2 c.2.2⟩

/-! ## Sprout -/

theorem sprout_flags {net : Network} (hs : net.Supported) (h : net.isSprout = true) : net.isZcash = true := by
  have key : ∀ n : Network, n.Supported → n.isSprout = true → n.isZcash = true := by
    unfold Network.Supported; decide +kernel
  exact key net hs h

theorem sprout_bytes {w : ZTx} (hv : w.version = 2) : w.bytes = v2 ++ (vector (w.ins.map WireIn.bytes) ++ (vector (w.outs.map WireOut.bytes) ++
    (w.lockTime ++ wireJoinsplits w.js w.jsPubkey w.jsSig))) := by
  have e : leBytes 4 2 = v2 := by decide
  unfold ZTx.bytes wireSprout wireLegacy
  rw [if_neg (by omega), if_neg (by omega), hv, e, if_pos rfl]
  simp

theorem sproutTx_bytes {E : Env} {t : SproutTx} (f : t.Facts E) (hv : t.version = v2) : t.bytes = v2 ++ (vector (t.txIns.map (·.bytes)) ++
    (vector (t.txOuts.map (·.bytes)) ++ (t.lockTime ++ (vector (t.txJoinsplits.map (·.bytes)) ++ (t.joinsplitPubkey.getD [] ++
      t.joinsplitSig.getD []))))) := by
  have h := congrArg SproutTx.bytes f.obj
  have h' : t.bytes = sproutBytes t.version (t.txIns.map (·.bytes)) (t.txOuts.map (·.bytes)) t.lockTime (t.txJoinsplits.map (·.bytes))
      (t.joinsplitPubkey.getD []) (t.joinsplitSig.getD []) := h
  rw [h', sproutBytes_v2 hv, hv]
  simp [wireLegacy]

/-- C109 for versions 1 and 2: a transaction, whatever follows it, is read as a transaction with the same bytes exactly if it has version 2 and
joinsplits, few enough of everything, and its input scripts are kept. -/
theorem C109_sprout (E : Env) (hn : E.net.Supported) (hz : E.net.isSprout = true) (w : ZTx) (hw : w.WF) (hv : w.version ≤ 2) (rest : Bytes) :
    (∃ t, SproutTx.fromBytes E (w.bytes ++ rest) = .ok t ∧ t.bytes = w.bytes) ↔ w.version = 2 ∧ w.js ≠ [] ∧ ZRead E.net w := by
  have zc := sprout_flags hn hz
  constructor
  · rintro ⟨t, ht, hb⟩
    obtain ⟨hB, tv, -⟩ := SproutTx.fromBytes_ok hn ht
    have f := hB.facts
    have v2' : w.version = 2 := by
      by_cases c : w.version = 2
      · exact c
      · exfalso
        have hv1 : w.version = 1 := by have := hw.version; omega
        have e : leBytes 4 1 = [1, 0, 0, 0] := by decide
        have := (SproutTx.fromBytes_steps ht).1
        unfold ZTx.bytes wireSprout wireLegacy at this
        rw [if_neg (by omega), if_neg (by omega), hv1, e] at this
        simp [slice, v2] at this
    refine ⟨v2', ?_⟩
    rw [← hb] at ht
    have tb := sproutTx_bytes f tv
    have hself : InsOutsStable E.net t.txIns t.txOuts ∧ (∀ i ∈ t.txIns, i.outpoint.bytes = List.replicate 32 0x00 ++ List.replicate 4 0xff ∨
        ∃ x y, TxIn.parseScriptSig E.net i.scriptSig = .ok (x, y) ∧ x ++ y = i.scriptSig) := by
      obtain ⟨-, p, n, js, cur, h1, -, -, h3⟩ := SproutTx.fromBytes_steps ht
      obtain ⟨-, e⟩ := SproutTx.make_iff.1 h3
      have e1 : t.txIns = p.txIns := by rw [e]; rfl
      have e2 : t.txOuts = p.txOuts := by rw [e]; rfl
      rw [tb, e1, e2] at h1
      simp only [List.append_assoc] at h1
      rw [e1, e2]
      obtain ⟨a, b, -⟩ := parseInsOuts_self (pre := v2) hn (by rw [← e1]; exact f.args.li) (by rw [← e2]; exact f.args.lo) h1
      exact ⟨a, b⟩
    have hjs := hw.js
    rw [v2', if_neg (by decide), if_neg (by decide)] at hjs
    rw [tb, sprout_bytes v2', ← ins_fields f.ins, ← outs_fields f.outs] at hb
    have size : w.bytes.length ≤ 100000 := by
      have := f.args.size
      rw [sprout_bytes v2', ← hb]
      rw [sproutBytes_v2 tv, tv] at this
      rw [ins_fields f.ins, outs_fields f.outs]
      simp only [wireLegacy, List.length_append, Option.getD_some] at this ⊢
      omega
    rcases f.args.ver with ⟨c, -⟩ | ⟨-, ⟨l, hl, l5⟩, ⟨pk, hpk, pk32⟩, sg, hsg, -⟩
    · rw [tv] at c; cases c
    cases hl
    obtain ⟨e1, e2, hb⟩ := body_inj ⟨by simpa using f.args.li, ins_wf f.ins⟩ hw.ins ⟨by simpa [wireOuts] using f.args.lo, outs_wf f.outs⟩ hw.outs
      (List.append_cancel_left hb)
    obtain ⟨e3, hb⟩ := List.append_inj hb (by rw [f.args.lt4, hw.lockTime])
    unfold wireJoinsplits at hb
    obtain ⟨e4, hb⟩ := vector_inj (fixed_selfDelim 1802) (by
      simp only [List.mem_map]; rintro _ ⟨j, hj, rfl⟩; exact (f.js j hj).length) hjs.2 (by simp; omega) hjs.1 hb
    have hne : w.js ≠ [] := by
      intro c
      rw [if_pos c, hpk, Option.getD_some] at hb
      have := congrArg List.length hb
      simp [pk32] at this
    refine ⟨hne, zread_of hn f.ins hself.1 hself.2 e1.symm e2.symm ⟨?_, ?_⟩ size⟩
    · rw [← e4, List.length_map]; exact l5
    · rw [← e4]
      simp only [List.mem_map]
      rintro _ ⟨j, hj, rfl⟩
      exact js_vpub (f.js j hj)
  · rintro ⟨v2', hne, h⟩
    obtain ⟨hi, ho, hs⟩ := ins_stable hn hw h
    have hjs := hw.js
    rw [v2', if_neg (by decide), if_neg (by decide)] at hjs
    obtain ⟨js, j1, j2⟩ := sproutJs_objs zc hjs.2 h.js.2
    have jl : js.length = w.js.length := by rw [← j2, List.length_map]
    have hb : sproutBytes v2 ((w.ins.map mkIn).map (·.bytes)) ((w.outs.map mkOut).map (·.bytes)) w.lockTime (js.map (·.bytes)) w.jsPubkey
        w.jsSig = w.bytes := by
      rw [mkIns_bytes, mkOuts_bytes, j2, sproutBytes_v2 rfl, sprout_bytes v2', wireJoinsplits, if_neg hne]
      simp [wireLegacy]
    have args : SproutArgs E v2 (w.ins.map mkIn) (w.outs.map mkOut) w.lockTime (some js) (some w.jsPubkey) (some w.jsSig) := {
      zc := zc
      sp := hz
      v4 := rfl
      lt4 := hw.lockTime
      ver := .inr ⟨rfl, ⟨js, rfl, by rw [jl]; exact h.js.1⟩, ⟨_, rfl, (hw.jsKeys hne).1⟩, _, rfl, .inr (hw.jsKeys hne).2⟩
      li := by rw [List.length_map]; exact hw.ins.1
      lo := by rw [List.length_map]; exact hw.outs.1
      size := by rw [Option.getD_some, Option.getD_some, Option.getD_some, hb]; exact h.size }
    obtain ⟨t, h1, h2, -⟩ := C55_roundtrip E hn _ ⟨_, _, _, _, some js, _, _, hi, ho, j1, SproutTx.make_iff.2 ⟨args, rfl⟩⟩ hs rfl rest
      (.inl ⟨w.jsSig, by simp [sproutObj], (hw.jsKeys hne).2⟩)
    have hb' : (sproutObj E v2 (w.ins.map mkIn) (w.outs.map mkOut) w.lockTime js (some w.jsPubkey) (some w.jsSig)).bytes = w.bytes := hb
    rw [show (some js).getD [] = js from rfl, hb'] at h1 h2
    exact ⟨t, h1, h2⟩

/-! ## The fields -/

/-- C109: and then all the fields are those that were sent, and the id is the hash of what was sent. -/
theorem C109_fields_overwinter (E : Env) (hn : E.net.Supported) (w : ZTx) (hw : w.WF) (hv : w.version = 3) (rest : Bytes) (t : OverwinterTx)
    (ht : OverwinterTx.fromBytes E (w.bytes ++ rest) = .ok t) (hb : t.bytes = w.bytes) :
    t.txIns.map (fun i => (⟨i.outpoint.txId, i.outpoint.index, i.scriptSig, i.sequence⟩ : WireIn)) = w.ins ∧
    t.txOuts.map (fun o => (⟨o.value, o.outputScript⟩ : WireOut)) = w.outs ∧ t.lockTime = w.lockTime ∧ t.expiryHeight = w.expiry ∧
    t.txJoinsplits.map (·.bytes) = w.js ∧ (w.js ≠ [] → t.joinsplitPubkey = some w.jsPubkey ∧ t.joinsplitSig = some w.jsSig) ∧
    t.txIdLe = E.hash256 w.bytes ∧ t.txId = (E.hash256 w.bytes).reverse := by
  have f := (OverwinterTx.fromBytes_ok hn ht).1.facts
  obtain ⟨e1, e2, e3, e4, e5, e6⟩ := over_fields f hw hv hb
  refine ⟨e1, e2, e3, e4, e5, fun c => ?_, ?_, ?_⟩
  · rw [← e5] at c
    obtain ⟨⟨p, p1, -⟩, q, q1, -⟩ := f.args.keys (map_ne_nil c)
    obtain ⟨a, b⟩ := e6 c
    simp only [overFields, p1, q1, Option.getD_some] at a b
    rw [p1, q1, a, b]
    exact ⟨rfl, rfl⟩
  · have h := congrArg OverwinterTx.txIdLe f.obj
    have h' := f.bytes
    rw [← hb]
    rw [h', h]
    rfl
  · have h := congrArg OverwinterTx.txId f.obj
    rw [← hb, f.bytes, h]
    rfl

theorem C109_fields_sapling (E : Env) (hn : E.net.Supported) (w : ZTx) (hw : w.WF) (hv : w.version = 4) (rest : Bytes) (t : SaplingTx)
    (ht : SaplingTx.fromBytes E (w.bytes ++ rest) = .ok t) (hb : t.bytes = w.bytes) :
    t.txIns.map (fun i => (⟨i.outpoint.txId, i.outpoint.index, i.scriptSig, i.sequence⟩ : WireIn)) = w.ins ∧
    t.txOuts.map (fun o => (⟨o.value, o.outputScript⟩ : WireOut)) = w.outs ∧ t.lockTime = w.lockTime ∧ t.expiryHeight = w.expiry ∧
    t.valueBalance = w.balance ∧ t.txShieldedSpends.map (·.bytes) = w.spends.map (fun s => s.1 ++ s.2) ∧
    t.txShieldedOutputs.map (·.bytes) = w.outputs ∧
    t.txJoinsplits.map (·.bytes) = w.js ∧ (w.js ≠ [] → t.joinsplitPubkey = some w.jsPubkey ∧ t.joinsplitSig = some w.jsSig) ∧
    (w.spends ≠ [] ∨ w.outputs ≠ [] → t.bindingSig = some w.binding) ∧
    t.txIdLe = E.hash256 w.bytes ∧ t.txId = (E.hash256 w.bytes).reverse := by
  have f := (SaplingTx.fromBytes_ok hn ht).1.facts
  obtain ⟨e1, e2, e3, e4, e5, e6, e7, e8, e9, e10⟩ := sap_fields f hw hv hb
  have e6' := e6
  simp only [sapFields] at e6'
  rw [sapSpends f] at e6'
  refine ⟨e1, e2, e3, e4, e5, e6', e7, e8, fun c => ?_, fun c => ?_, ?_, ?_⟩
  · rw [← e8] at c
    obtain ⟨⟨p, p1, -⟩, q, q1, -⟩ := f.args.keys (map_ne_nil c)
    obtain ⟨a, b⟩ := e9 c
    simp only [sapFields, p1, q1, Option.getD_some] at a b
    rw [p1, q1, a, b]
    exact ⟨rfl, rfl⟩
  · have c' : ¬ (w.spends = [] ∧ w.outputs = []) := fun h => c.elim (fun k => k h.1) fun k => k h.2
    obtain ⟨s, hs⟩ := f.args.binding (by
      rcases c with c | c
      · left; rintro h; rw [h] at e6'; exact c (List.map_eq_nil_iff.1 e6'.symm)
      · right; exact map_ne_nil (f := (·.bytes)) (by rw [show t.txShieldedOutputs.map (·.bytes) = w.outputs from e7]; exact c))
    have := e10 c'
    simp only [sapFields, hs, Option.getD_some] at this
    rw [hs, this]
  · have h := congrArg SaplingTx.txIdLe f.obj
    rw [← hb, f.bytes, h]
    rfl
  · have h := congrArg SaplingTx.txId f.obj
    rw [← hb, f.bytes, h]
    rfl

/-! ## Examples -/

example : overEnv.net.Supported ∧ overEnv.net.isOverwinter = true ∧ (overFields (exOver 3)).WF ∧ (overFields (exOver 3)).js ≠ [] ∧
    OverRead overEnv.net (overFields (exOver 3)) := by
  have f := (exOver_built (n := 3) (by omega)).facts
  have hB := overFields_bytes f
  refine ⟨zcash_supported.2.1, by decide, overFields_wf f, List.cons_ne_nil _ _,
    (C109_overwinter overEnv zcash_supported.2.1 (by decide) _ (overFields_wf f) rfl).1 ?_⟩
  obtain ⟨t, h1, h2, -⟩ := C57_roundtrip_partial overEnv zcash_supported.2.1 (exOver 3) (exOver_built (by omega)) (ex_stable _ (by omega))
    (.inr (show (List.replicate 3 exOut).length < 253 by rw [List.length_replicate]; omega)) []
  rw [List.append_nil] at h1
  rw [hB]
  exact ⟨t, h1, h2⟩

example : sapEnv.net.Supported ∧ sapEnv.net.isSapling = true ∧ (sapFields (exSap 3)).WF ∧ (sapFields (exSap 3)).spends ≠ [] ∧
    SapRead sapEnv.net (sapFields (exSap 3)) := by
  have f := (exSap_built (n := 3) (by omega)).facts
  have hB := sapFields_bytes f
  refine ⟨zcash_supported.2.2, by decide, sapFields_wf f, List.cons_ne_nil _ _,
    (C109_sapling sapEnv zcash_supported.2.2 (by decide) _ (sapFields_wf f) rfl).1 ?_⟩
  obtain ⟨t, h1, h2, -⟩ := C58_roundtrip_partial sapEnv zcash_supported.2.2 (exSap 3) (exSap_built (by omega)) (ex_stable _ (by omega))
    (by show ¬ (253 ≤ [exSpend].length ∧ _); rintro ⟨h, -⟩; exact absurd h (by decide))
    (.inr (show (List.replicate 3 exOut).length < 253 by rw [List.length_replicate]; omega)) []
  rw [List.append_nil] at h1
  rw [hB]
  exact ⟨t, h1, h2⟩

/-- A version 2 transaction with one joinsplit and nothing else. -/
def exZ2 : ZTx := ⟨2, [], [], [0, 0, 0, 0], [], [], [], [], [exSproutJs.bytes], List.replicate 32 9, List.replicate 64 8, []⟩

theorem exZ2_wf : exZ2.WF where
  version := ⟨by decide, by decide⟩
  lockTime := rfl
  ins := ⟨by decide, by simp [exZ2]⟩
  outs := ⟨by decide, by simp [exZ2]⟩
  expiry := by intro h; exact absurd h (by decide)
  js := by
    show (if (2 : Nat) = 1 then _ else _)
    rw [if_neg (by decide)]
    refine ⟨by decide, ?_⟩
    simp only [exZ2, List.mem_singleton]
    rintro _ rfl
    exact exSproutJs_len
  jsKeys := fun _ => ⟨List.length_replicate, List.length_replicate⟩
  balance := by intro h; exact absurd h (by decide)
  spends := rfl
  outputs := rfl
  binding := by intro h; exact absurd h (by simp [exZ2])

example : exZ2.WF ∧ sproutEnv.net.isSprout = true ∧ ∃ t, SproutTx.fromBytes sproutEnv (exZ2.bytes ++ [7]) = .ok t ∧ t.bytes = exZ2.bytes := by
  refine ⟨exZ2_wf, by decide, (C109_sprout sproutEnv zcash_supported.1 (by decide) exZ2 exZ2_wf (by decide) [7]).2
    ⟨rfl, List.cons_ne_nil _ _, ⟨fun _ => by decide, fun _ => by decide⟩, by simp [exZ2], by simp [exZ2], ⟨by decide, ?_⟩, ?_⟩⟩
  · simp only [exZ2, List.mem_singleton]
    rintro _ rfl
    exact js_vpub (exSproutJs_built (net := zcashSproutMain) (by decide))
  · rw [sprout_bytes rfl]
    simp [exZ2, vector, compactSize_0, compactSize_1, wireJoinsplits, exSproutJs_len, v2]

/-! ## What is not read -/

/-- The script sig of a 2-of-3 multisignature output, with signatures of 71 and 72 bytes: 253 bytes. -/
def multisigSig : Bytes :=
  [0x00] ++ (0x47 :: List.replicate 71 0x30) ++ (0x48 :: List.replicate 72 0x30) ++ ([0x4c, 0x69] ++ ([0x52] ++ (0x21 :: List.replicate 33 2) ++
    (0x21 :: List.replicate 33 2) ++ (0x21 :: List.replicate 33 3) ++ [0x53, 0xae]))

theorem multisigSig_len : multisigSig.length = 253 := by decide +kernel

/-- C109 fails for common transactions: one that spends a 2-of-3 multisignature output with signatures of 71 and 72 bytes is refused on Overwinter
and Sapling networks, because its script sig has 253 bytes. -/
theorem C109_false_multisig : multisigSig.length = 253 ∧ ∃ w4 w3 : ZTx, w4.WF ∧ w4.version = 4 ∧ w3.WF ∧ w3.version = 3 ∧
    w4.ins.map WireIn.script = [multisigSig] ∧ w3.ins = w4.ins ∧ w4.js = [] ∧ w4.spends = [] ∧ w4.outputs = [] ∧
    SaplingTx.fromBytes sapEnv w4.bytes = .error .valueError ∧ OverwinterTx.fromBytes overEnv w3.bytes = .error .valueError := by
  have wf : ∀ v, v = 3 ∨ v = 4 → (⟨v, [⟨List.replicate 32 0xaa, [1, 0, 0, 0], multisigSig, [0, 0, 0, 0]⟩],
      [⟨[1, 0, 0, 0, 0, 0, 0, 0], [0x51]⟩], [0, 0, 0, 0], [0, 0, 0, 0], List.replicate 8 0, [], [], [], [], [], []⟩ : ZTx).WF := by
    intro v hv
    refine ⟨⟨by simp only; omega, by simp only; omega⟩, rfl, ⟨by simp, ?_⟩, ⟨by simp, ?_⟩, fun _ => rfl, ?_, by simp, fun _ => rfl, ?_, ?_, by simp⟩
    · simp only [List.mem_singleton]; rintro _ rfl; exact ⟨rfl, rfl, rfl, by rw [multisigSig_len]; decide⟩
    · simp only [List.mem_singleton]; rintro _ rfl; exact ⟨rfl, by decide⟩
    · split <;> simp
    · split <;> simp
    · split <;> simp
  exact ⟨multisigSig_len, _, _, wf 4 (by simp), rfl, wf 3 (by simp), rfl, rfl, rfl, rfl, rfl, rfl, by decide +kernel, by decide +kernel⟩

/-- C109 fails for every transaction of version 1, and for every one of version 2 that has no joinsplits. -/
theorem C109_false_sprout (E : Env) (hn : E.net.Supported) (hz : E.net.isSprout = true) (w : ZTx) (hw : w.WF)
    (hv : w.version = 1 ∨ (w.version = 2 ∧ w.js = [])) (rest : Bytes) (t : SproutTx) (ht : SproutTx.fromBytes E (w.bytes ++ rest) = .ok t) :
    t.bytes ≠ w.bytes := by
  intro hb
  obtain ⟨h1, h2, -⟩ := (C109_sprout E hn hz w hw (by omega) rest).1 ⟨t, ht, hb⟩
  rcases hv with h | h
  · omega
  · exact h2 h.2

example : (sproutFields exSprout1).WF ∧ (sproutFields exSprout1).version = 1 ∧ (sproutFields exSprout1).ins ≠ [] :=
  ⟨sproutFields_wf exSprout1_built.facts rfl, by decide, by decide⟩

end Verif.Props
