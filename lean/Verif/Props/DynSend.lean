import Verif.Props.DynChange
import Verif.Props.DynParse2
import Verif.Props.WireZcash

/-! Property C133: what a program makes, another program can read. -/

namespace Verif.Props
open Verif Spec Dyn

/-- The ways to read what an object `v` of the class `c` with the bytes `b` says: `c.from_bytes(v)`, `c.from_bytes(v.to_bytes())` and `c.from_hex(v.hex())`. -/
inductive Sent (c : Cls) (v : Val) (b : Bytes) : Fn → Val → Prop
  | object : Sent c v b (.fromBytes c) v
  | bytes : Sent c v b (.fromBytes c) (.bytes b)
  | hex : Sent c v b (.fromHex c) (.str (toHex b))

theorem hex_read (E : Env) (c : Cls) (b : Bytes) : readHexOf E c (.str (toHex b)) = readOf E c (.bytes b) := by
  unfold readHexOf
  show (fromHex (toHex b) >>= fun b => readOf E c (.bytes b)) = _
  rw [fromHex_toHex, ok_bind]

theorem sent_tx {E : Env} {attrs : List Val} {b : Bytes} {f : Fn} {x : Val} (h : Sent .tx (.obj .tx attrs b) b f x) :
    call E f [x] = (Tx.fromBytes E b).map embTx := by
  have e : readTx E (.bytes b) = (Tx.fromBytes E b).map embTx := (C120_bytes E b).2.2.2.2.2.1
  have e' : readTx E (.obj .tx attrs b) = readTx E (.bytes b) := (C120_objects E .tx attrs b).2.2.2.2.2.2.1
  cases h with
  | object => exact e'.trans e
  | bytes => exact e
  | hex => exact (hex_read E _ b).trans e

theorem sent_over {E : Env} {attrs : List Val} {b : Bytes} {f : Fn} {x : Val} (h : Sent .overwinterTx (.obj .overwinterTx attrs b) b f x) :
    call E f [x] = (OverwinterTx.fromBytes E b).map embOver := by
  have e : readOverwinterTx E (.bytes b) = (OverwinterTx.fromBytes E b).map embOver := (C120_bytes E b).2.2.2.2.2.2.2.2.2.2.2.2.2.1
  have e' : readOverwinterTx E (.obj .overwinterTx attrs b) = readOverwinterTx E (.bytes b) := (C120_objects E .overwinterTx attrs b).2.2.2.2.2.2.2.2.2.2.2.2.2.2.1
  cases h with
  | object => exact e'.trans e
  | bytes => exact e
  | hex => exact (hex_read E _ b).trans e

theorem sent_sap {E : Env} {attrs : List Val} {b : Bytes} {f : Fn} {x : Val} (h : Sent .saplingTx (.obj .saplingTx attrs b) b f x) :
    call E f [x] = (SaplingTx.fromBytes E b).map embSap := by
  have e : readSaplingTx E (.bytes b) = (SaplingTx.fromBytes E b).map embSap := (C120_bytes E b).2.2.2.2.2.2.2.2.2.2.2.2.2.2.1
  have e' : readSaplingTx E (.obj .saplingTx attrs b) = readSaplingTx E (.bytes b) := (C120_objects E .saplingTx attrs b).2.2.2.2.2.2.2.2.2.2.2.2.2.2.2.1
  cases h with
  | object => exact e'.trans e
  | bytes => exact e
  | hex => exact (hex_read E _ b).trans e

theorem sent_sprout {E : Env} {attrs : List Val} {b : Bytes} {f : Fn} {x : Val} (h : Sent .sproutTx (.obj .sproutTx attrs b) b f x) :
    call E f [x] = (SproutTx.fromBytes E b).map embSprout := by
  have e : readSproutTx E (.bytes b) = (SproutTx.fromBytes E b).map embSprout := (C120_bytes E b).2.2.2.2.2.2.2.2.2.2.2.2.1
  have e' : readSproutTx E (.obj .sproutTx attrs b) = readSproutTx E (.bytes b) := (C120_objects E .sproutTx attrs b).2.2.2.2.2.2.2.2.2.2.2.2.2.1
  cases h with
  | object => exact e'.trans e
  | bytes => exact e
  | hex => exact (hex_read E _ b).trans e

theorem map_ok_iff {α β : Type} {r : Py α} {f : α → β} {b : β} : r.map f = .ok b ↔ ∃ a, r = .ok a ∧ b = f a := by
  cases r with
  | error e => exact ⟨nofun, fun ⟨_, h, _⟩ => nomatch h⟩
  | ok a => exact ⟨fun h => ⟨a, rfl, by cases h; rfl⟩, fun ⟨a', h, e⟩ => by cases h; rw [e]; rfl⟩

/-- C133: a program, whatever it did, holds a `Tx`. Its bytes are those of one transaction on the wire only. Given to `from_bytes` on any network, as object, as bytes or as hex, it gives
an object with the same bytes if and only if the transaction is one that this network can read; and then that object's fields are the transaction's, and its ids their hashes. -/
theorem C133_tx (H : Hashes) (s : Session) (hr : Reach H s) (v : Val) (h : v ∈ s.vals) (hc : v.isInstance .tx = true) (n : Network) (hn : n.Supported) :
    ∃ w : WireTx, Loose w ∧ v.content = some w.bytes ∧ (∀ w', Loose w' → v.content = some w'.bytes → w' = w) ∧ ∀ f x, Sent .tx v w.bytes f x →
      ((∃ v', call ⟨n, H⟩ f [x] = .ok v' ∧ v'.content = some w.bytes) ↔ TxRead n w) ∧
      ∀ v', call ⟨n, H⟩ f [x] = .ok v' → v'.content = some w.bytes → ∃ ins outs wits,
        v' = .obj .tx [.bytes w.version, embOpt (w.wits.map fun _ => [0, 1]), .tuple ins, .tuple outs, wits,
          .bytes w.lockTime, .bytes (Env.hash256 ⟨n, H⟩ w.stripped), embOpt (w.wits.map fun _ => Env.hash256 ⟨n, H⟩ w.bytes),
          .bytes (Env.hash256 ⟨n, H⟩ w.stripped).reverse, embOpt (w.wits.map fun _ => (Env.hash256 ⟨n, H⟩ w.bytes).reverse)] w.bytes ∧
        ins.map Val.content = w.ins.map (fun i => some i.bytes) ∧ outs.map Val.content = w.outs.map (fun o => some o.bytes) ∧
        ∀ ws, w.wits = some ws → ws ≠ [] → ∃ l, wits = .tuple l ∧ l.map Val.content = ws.map fun i => some (wireWitness i) := by
  obtain ⟨w, h1, h2, ⟨h3, h3', h3''⟩, h4, h5, -, -, attrs, rfl, -⟩ := C130_tx H s hr v h hc
  have hw : Loose w := ⟨h1, h2, ⟨h3, h3', fun i hi => (h3'' i hi).1⟩, h4, h5⟩
  refine ⟨w, hw, rfl, fun w' hw' e => WireTx.bytes_inj hw' hw (Option.some.inj e).symm, fun f x hs => ?_⟩
  rw [sent_tx hs]
  have he := tx_exact ⟨n, H⟩ hn w hw [] (fun _ => rfl)
  rw [List.append_nil] at he
  refine ⟨Iff.trans ⟨?_, ?_⟩ he, ?_⟩
  · rintro ⟨v', hv, hb⟩
    obtain ⟨t, ht, rfl⟩ := map_ok_iff.1 hv
    exact ⟨t, ht, Option.some.inj hb⟩
  · rintro ⟨t, ht, hb⟩
    exact ⟨embTx t, by rw [ht]; rfl, congrArg some hb⟩
  · intro v' hv hb
    obtain ⟨t, ht, rfl⟩ := map_ok_iff.1 hv
    have hb' : t.bytes = w.bytes := Option.some.inj hb
    have hB := (Tx.fromBytes_ok hn ht).1
    obtain ⟨e1, e2, e3, e4, e5, e6, e7, e9⟩ := tx_fields ⟨n, H⟩ hn w hw [] t (by rw [List.append_nil]; exact ht) hb'
    have ho := hB.facts.obj
    have e8 : t.txId = t.txIdLe.reverse := by rw [ho]; rfl
    have e10 : t.wtxId = t.wtxIdLe.map List.reverse := by
      have a := congrArg Tx.wtxId ho
      have b := congrArg Tx.wtxIdLe ho
      simp only [txObj] at a b
      rw [a, b]
    have e11 : t.flag = w.wits.map fun _ => [0, 1] := by
      have hf := hB.facts.args.2.2.1
      rw [segwitFlag_eq hn] at hf
      cases hw : w.wits with
      | none => exact Classical.byContradiction fun c => e3.1 c hw
      | some ws => exact hf.resolve_left (e3.2 (by rw [hw]; exact nofun))
    refine ⟨t.txIns.map embIn, t.txOuts.map embOut, embWits t.txWitnesses, ?_, ?_, ?_, ?_⟩
    · unfold embTx; rw [e1, e2, e10, e9, e11, e8, e7, hb', Option.map_map]; rfl
    · rw [← e4, List.map_map, List.map_map]
      exact List.map_congr_left fun i hi => congrArg some (hB.facts.ins i hi).wire
    · rw [← e5, List.map_map, List.map_map]
      exact List.map_congr_left fun o ho => congrArg some (hB.facts.outs o ho).eq.2.2
    · intro ws hws hne
      have e := e6 ws hws
      cases ht : t.txWitnesses with
      | none => rw [ht] at e; exact absurd e.symm hne
      | some l =>
        rw [ht] at e
        refine ⟨l.map embWit, rfl, ?_⟩
        rw [← e, List.map_map, List.map_map]
        exact List.map_congr_left fun i hi => congrArg some (hB.facts.wits i (by rw [ht]; exact hi)).eq.2.2.2

theorem reach_run (H : Hashes) (ops : List Op) : Reach H (Session.run H ops) := by
  have key : ∀ (ops : List Op) (s : Session), Reach H s → Reach H (ops.foldl (Session.step H) s) := by
    intro ops
    induction ops with
    | nil => exact fun s h => h
    | cons o ops ih => exact fun s h => ih _ (.step s o h)
  exact key _ _ .start

theorem held_run {H : Hashes} {c : Cls} (ops : List Op) (h : (Session.run H ops).vals.any (·.isInstance c) = true) :
    ∃ s v, Reach H s ∧ v ∈ s.vals ∧ v.isInstance c = true := by
  obtain ⟨v, hv, hc⟩ := List.any_eq_true.1 h
  exact ⟨_, v, reach_run H ops, hv, hc⟩

/-- The hypotheses: a program that holds a transaction, on Litecoin, that was made on Bitcoin. -/
example : ∃ s v, Reach toyEnv.H s ∧ v ∈ s.vals ∧ v.isInstance .tx = true ∧ s.net = litecoinMain := by
  refine ⟨Session.run toyEnv.H exSession, ((Session.run toyEnv.H exSession).vals[15]?).getD .none, reach_run _ _, ?_, ?_, ?_⟩
  · have : ((Session.run toyEnv.H exSession).vals[15]?).isSome = true := by decide +kernel
    obtain ⟨v, h⟩ := Option.isSome_iff_exists.1 this
    rw [h]; exact List.mem_of_getElem? h
  · decide +kernel
  · decide +kernel

/-- A program that makes a transaction with an output script of `k` bytes. -/
def exSend (k : Nat) : List Op :=
  [.lit (.bytes (List.replicate 36 7)), .lit (.bytes []), .lit (.bytes [0, 0, 0, 0]), .call (.init .txIn) [0, 1, 1, 2], .lit (.bytes (List.replicate 8 0)),
    .lit (.bytes (List.replicate k 0x51)), .call (.init .txOut) [4, 5], .list [3], .list [6], .lit (.bytes [1, 0, 0, 0]), .lit .none, .call (.init .tx) [9, 10, 7, 8, 10, 2]]

/-- Not every transaction a program makes can be read, not even by itself: here the output script has 252 bytes. One with 251 bytes can. -/
theorem C133_false : (∃ v, (Session.run toyEnv.H (exSend 252)).vals[11]? = some v ∧ v.isInstance .tx = true ∧ call toyEnv (.fromBytes .tx) [v] = .error .notImplementedError) ∧
    ∃ v v', (Session.run toyEnv.H (exSend 251)).vals[11]? = some v ∧ call toyEnv (.fromBytes .tx) [v] = .ok v' ∧ v'.content = v.content := by
  have key : ∀ r : Option Val, (match r with
      | some v => v.isInstance .tx && (match call toyEnv (.fromBytes .tx) [v] with | .error e => decide (e = .notImplementedError) | .ok _ => false)
      | Option.none => false) = true → ∃ v, r = some v ∧ v.isInstance .tx = true ∧ call toyEnv (.fromBytes .tx) [v] = .error .notImplementedError := by
    intro r h
    cases r with
    | none => cases h
    | some v =>
      simp only [Bool.and_eq_true] at h
      refine ⟨v, rfl, h.1, ?_⟩
      have h2 := h.2
      cases hc : call toyEnv (.fromBytes .tx) [v] with
      | error e => rw [hc] at h2; rw [of_decide_eq_true h2]
      | ok x => rw [hc] at h2; cases h2
  have key' : ∀ r : Option Val, (match r with
      | some v => (match call toyEnv (.fromBytes .tx) [v] with | .error _ => false | .ok v' => decide (v'.content = v.content))
      | Option.none => false) = true → ∃ v v', r = some v ∧ call toyEnv (.fromBytes .tx) [v] = .ok v' ∧ v'.content = v.content := by
    intro r h
    cases r with
    | none => cases h
    | some v =>
      simp only at h
      cases hc : call toyEnv (.fromBytes .tx) [v] with
      | error e => rw [hc] at h; cases h
      | ok x => rw [hc] at h; exact ⟨v, x, rfl, hc, of_decide_eq_true h⟩
  exact ⟨key _ (by decide +kernel), key' _ (by decide +kernel)⟩

/-- C133 for `OverwinterTx`. -/
theorem C133_overwinter (H : Hashes) (s : Session) (hr : Reach H s) (v : Val) (h : v ∈ s.vals) (hc : v.isInstance .overwinterTx = true) (n : Network) (hn : n.Supported) :
    ∃ w : ZTx, w.WF ∧ w.version = 3 ∧ v.content = some w.bytes ∧ ∀ f x, Sent .overwinterTx v w.bytes f x →
      ((∃ v', call ⟨n, H⟩ f [x] = .ok v' ∧ v'.content = some w.bytes) ↔ n.isOverwinter = true ∧ OverRead n w) ∧
      ∀ v', call ⟨n, H⟩ f [x] = .ok v' → v'.content = some w.bytes → ∃ ins outs js pk sig hs ps,
        v' = .obj .overwinterTx [.tuple ins, .tuple outs, .bytes w.lockTime, .bytes w.expiry, .tuple js, pk, sig, hs, ps,
          .bytes (Env.hash256 ⟨n, H⟩ w.bytes), .bytes (Env.hash256 ⟨n, H⟩ w.bytes).reverse] w.bytes ∧
        ins.map Val.content = w.ins.map (fun i => some i.bytes) ∧ outs.map Val.content = w.outs.map (fun o => some o.bytes) ∧ js.map Val.content = w.js.map some ∧
        (w.js ≠ [] → pk = .bytes w.jsPubkey ∧ sig = .bytes w.jsSig) := by
  obtain ⟨w, h1, hw, -, -, -, -, -, -, attrs, rfl, -⟩ := C130_overwinter H s hr v h hc
  refine ⟨w, hw, h1, rfl, fun f x hs => ?_⟩
  rw [sent_over hs]
  refine ⟨⟨?_, ?_⟩, ?_⟩
  · rintro ⟨v', hv, hb⟩
    obtain ⟨t, ht, rfl⟩ := map_ok_iff.1 hv
    have hz : n.isOverwinter = true := (OverwinterTx.fromBytes_ok hn ht).1.facts.args.ow
    exact ⟨hz, (C109_overwinter ⟨n, H⟩ hn hz w hw h1).1 ⟨t, ht, Option.some.inj hb⟩⟩
  · rintro ⟨hz, ho⟩
    obtain ⟨t, ht, hb⟩ := (C109_overwinter ⟨n, H⟩ hn hz w hw h1).2 ho
    exact ⟨embOver t, by rw [ht]; rfl, congrArg some hb⟩
  · intro v' hv hb
    obtain ⟨t, ht, rfl⟩ := map_ok_iff.1 hv
    have hb' : t.bytes = w.bytes := Option.some.inj hb
    have f := (OverwinterTx.fromBytes_ok hn ht).1.facts
    obtain ⟨e1, e2, e3, e4, e5, e6, e7, e8⟩ := C109_fields_overwinter ⟨n, H⟩ hn w hw h1 [] t (by rw [List.append_nil]; exact ht) hb'
    refine ⟨t.txIns.map embIn, t.txOuts.map embOut, t.txJoinsplits.map embSproutJs, embOpt t.joinsplitPubkey, embOpt t.joinsplitSig, embBs t.hsigs, embBs t.primaryInputs, ?_, ?_, ?_, ?_, ?_⟩
    · unfold embOver; rw [e3, e4, e7, e8, hb']
    · rw [← e1, List.map_map, List.map_map]
      exact List.map_congr_left fun i hi => congrArg some (f.ins i hi).wire
    · rw [← e2, List.map_map, List.map_map]
      exact List.map_congr_left fun o ho => congrArg some (f.outs o ho).eq.2.2
    · rw [← e5, List.map_map, List.map_map]; rfl
    · intro c; rw [(e6 c).1, (e6 c).2]; exact ⟨rfl, rfl⟩

/-- The hypotheses: a program that holds one. -/
example : ∃ s v, Reach toyEnv.H s ∧ v ∈ s.vals ∧ v.isInstance .overwinterTx = true :=
  held_run (exParts ++ [.select (pystr "zcash_overwinter_main"), .call (.init .overwinterTx) [8, 9, 2, 2, 10, 5, 5]]) (by decide +kernel)

/-- C133 for `SaplingTx`. -/
theorem C133_sapling (H : Hashes) (s : Session) (hr : Reach H s) (v : Val) (h : v ∈ s.vals) (hc : v.isInstance .saplingTx = true) (n : Network) (hn : n.Supported) :
    ∃ w : ZTx, w.WF ∧ w.version = 4 ∧ v.content = some w.bytes ∧ ∀ f x, Sent .saplingTx v w.bytes f x →
      ((∃ v', call ⟨n, H⟩ f [x] = .ok v' ∧ v'.content = some w.bytes) ↔ n.isSapling = true ∧ SapRead n w) ∧
      ∀ v', call ⟨n, H⟩ f [x] = .ok v' → v'.content = some w.bytes → ∃ bind ins outs ss so js pk sig hs ps,
        v' = .obj .saplingTx [bind, .tuple ins, .tuple outs, .bytes w.lockTime, .bytes w.expiry, .bytes w.balance, .tuple ss, .tuple so, .tuple js, pk, sig, hs, ps,
          .bytes (Env.hash256 ⟨n, H⟩ w.bytes), .bytes (Env.hash256 ⟨n, H⟩ w.bytes).reverse] w.bytes ∧
        ins.map Val.content = w.ins.map (fun i => some i.bytes) ∧ outs.map Val.content = w.outs.map (fun o => some o.bytes) ∧
        ss.map Val.content = w.spends.map (fun s => some (s.1 ++ s.2)) ∧ so.map Val.content = w.outputs.map some ∧ js.map Val.content = w.js.map some ∧
        (w.js ≠ [] → pk = .bytes w.jsPubkey ∧ sig = .bytes w.jsSig) ∧ (w.spends ≠ [] ∨ w.outputs ≠ [] → bind = .bytes w.binding) := by
  obtain ⟨w, h1, hw, -, -, -, -, -, -, -, attrs, rfl, -⟩ := C130_sapling H s hr v h hc
  refine ⟨w, hw, h1, rfl, fun f x hs => ?_⟩
  rw [sent_sap hs]
  refine ⟨⟨?_, ?_⟩, ?_⟩
  · rintro ⟨v', hv, hb⟩
    obtain ⟨t, ht, rfl⟩ := map_ok_iff.1 hv
    have hz : n.isSapling = true := (SaplingTx.fromBytes_ok hn ht).1.facts.args.sp
    exact ⟨hz, (C109_sapling ⟨n, H⟩ hn hz w hw h1).1 ⟨t, ht, Option.some.inj hb⟩⟩
  · rintro ⟨hz, ho⟩
    obtain ⟨t, ht, hb⟩ := (C109_sapling ⟨n, H⟩ hn hz w hw h1).2 ho
    exact ⟨embSap t, by rw [ht]; rfl, congrArg some hb⟩
  · intro v' hv hb
    obtain ⟨t, ht, rfl⟩ := map_ok_iff.1 hv
    have hb' : t.bytes = w.bytes := Option.some.inj hb
    have f := (SaplingTx.fromBytes_ok hn ht).1.facts
    obtain ⟨e1, e2, e3, e4, e5, e6, e7, e8, e9, e10, e11, e12⟩ := C109_fields_sapling ⟨n, H⟩ hn w hw h1 [] t (by rw [List.append_nil]; exact ht) hb'
    refine ⟨embOpt t.bindingSig, t.txIns.map embIn, t.txOuts.map embOut, t.txShieldedSpends.map embSpend, t.txShieldedOutputs.map embOutput, t.txJoinsplits.map embSapJs,
      embOpt t.joinsplitPubkey, embOpt t.joinsplitSig, embBs t.hsigs, embBs t.primaryInputs, ?_, ?_, ?_, ?_, ?_, ?_, ?_, ?_⟩
    · unfold embSap; rw [e3, e4, e5, e11, e12, hb']
    · rw [← e1, List.map_map, List.map_map]
      exact List.map_congr_left fun i hi => congrArg some (f.ins i hi).wire
    · rw [← e2, List.map_map, List.map_map]
      exact List.map_congr_left fun o ho => congrArg some (f.outs o ho).eq.2.2
    · have := congrArg (List.map some) e6
      rw [List.map_map, List.map_map] at this
      rw [List.map_map]; exact this
    · rw [← e7, List.map_map, List.map_map]; rfl
    · rw [← e8, List.map_map, List.map_map]; rfl
    · intro c; rw [(e9 c).1, (e9 c).2]; exact ⟨rfl, rfl⟩
    · intro c; rw [e10 c]; rfl

/-- The hypotheses: a program that holds one. -/
example : ∃ s v, Reach toyEnv.H s ∧ v ∈ s.vals ∧ v.isInstance .saplingTx = true :=
  held_run (exParts ++ [.select (pystr "zcash_sapling_main"), .call (.init .saplingTx) [8, 9, 2, 2, 3, 10, 10, 10, 5, 5, 5]]) (by decide +kernel)

/-- The bytes of a `SproutTx` with the fields `w`: those of the transaction, but in version 2 the public key and the signature are always there. -/
def sproutSent (w : ZTx) : Bytes := if w.version = 2 ∧ w.js = [] then w.bytes ++ w.jsPubkey ++ w.jsSig else w.bytes

theorem sproutSent_v2 {w : ZTx} (hv : w.version = 2) : sproutSent w = v2 ++ (vector (w.ins.map WireIn.bytes) ++ (vector (w.outs.map WireOut.bytes) ++
    (w.lockTime ++ (vector w.js ++ (w.jsPubkey ++ w.jsSig))))) := by
  unfold sproutSent
  by_cases c : w.js = []
  · rw [if_pos ⟨hv, c⟩, sprout_bytes hv, wireJoinsplits, if_pos c]; simp
  · rw [if_neg (fun h => c h.2), sprout_bytes hv, wireJoinsplits, if_neg c]

theorem sprout_sent_exact (E : Env) (hn : E.net.Supported) (hz : E.net.isSprout = true) (w : ZTx) (hw : ∀ s : Bytes, s.length = 64 → ({ w with jsSig := s } : ZTx).WF)
    (hv : w.version = 2) (hk : w.jsPubkey.length = 32) (hsg : w.jsSig = [] ∨ w.jsSig.length = 64) (hl : (sproutSent w).length ≤ 100000) :
    (∃ t, SproutTx.fromBytes E (sproutSent w) = .ok t ∧ t.bytes = sproutSent w) ↔ ZRead E.net w := by
  have zc := sprout_flags hn hz
  have hw := hw (List.replicate 64 0) (List.length_replicate ..)
  have wl : w.lockTime.length = 4 := hw.lockTime
  have wi : w.ins.length < 2 ^ 64 ∧ ∀ i ∈ w.ins, i.WF := hw.ins
  have wo : w.outs.length < 2 ^ 64 ∧ ∀ o ∈ w.outs, o.WF := hw.outs
  have hjs : w.js.length < 2 ^ 64 ∧ ∀ j ∈ w.js, j.length = 1802 := by
    have h := hw.js
    simp only [hv] at h
    exact h
  have size : w.bytes.length ≤ 100000 := by
    refine Nat.le_trans ?_ hl
    unfold sproutSent
    split
    · simp only [List.length_append]; omega
    · exact Nat.le_refl _
  constructor
  · rintro ⟨t, ht, hb⟩
    obtain ⟨hB, tv, -⟩ := SproutTx.fromBytes_ok hn ht
    have f := hB.facts
    rw [← hb] at ht
    have tb := sproutTx_bytes f tv
    have hself : InsOutsStable E.net t.txIns t.txOuts ∧ (∀ i ∈ t.txIns, i.outpoint.bytes = List.replicate 32 0x00 ++ List.replicate 4 0xff ∨
        ∃ x y, TxIn.parseScriptSig E.net i.scriptSig = .ok (x, y) ∧ x ++ y = i.scriptSig) := by
      obtain ⟨-, p, n, js, cur, h1, -, -, h3⟩ := SproutTx.fromBytes_steps ht
      obtain ⟨-, e⟩ := SproutTx.make_iff.1 h3
      have e1 : t.txIns = p.txIns := by rw [e]; rfl
      have e2 : t.txOuts = p.txOuts := by rw [e]; rfl
      rw [tb, e1, e2] at h1
      rw [e1, e2]
      obtain ⟨a, b, -⟩ := parseInsOuts_self (pre := v2) hn (by rw [← e1]; exact f.args.li) (by rw [← e2]; exact f.args.lo) h1
      exact ⟨a, b⟩
    rw [tb, sproutSent_v2 hv, ← ins_fields f.ins, ← outs_fields f.outs] at hb
    rcases f.args.ver with ⟨c, -⟩ | ⟨-, ⟨l, hl, l5⟩, -, -, -⟩
    · rw [tv] at c; cases c
    cases hl
    obtain ⟨e1, e2, hb⟩ := body_inj ⟨by simpa using f.args.li, ins_wf f.ins⟩ wi ⟨by simpa [wireOuts] using f.args.lo, outs_wf f.outs⟩ wo
      (List.append_cancel_left hb)
    obtain ⟨-, hb⟩ := List.append_inj hb (by rw [f.args.lt4, wl])
    obtain ⟨e4, -⟩ := vector_inj (fixed_selfDelim 1802) (by
      simp only [List.mem_map]; rintro _ ⟨j, hj, rfl⟩; exact (f.js j hj).length) hjs.2 (by simp; omega) hjs.1 hb
    refine zread_of hn f.ins hself.1 hself.2 e1.symm e2.symm ⟨?_, ?_⟩ size
    · rw [← e4, List.length_map]; exact l5
    · rw [← e4]
      simp only [List.mem_map]
      rintro _ ⟨j, hj, rfl⟩
      exact js_vpub (f.js j hj)
  · intro h
    obtain ⟨hi, ho, hs⟩ := ins_stable' hn wi.2 wo.2 h
    obtain ⟨js, j1, j2⟩ := sproutJs_objs zc hjs.2 h.js.2
    have jl : js.length = w.js.length := by rw [← j2, List.length_map]
    have hb : sproutBytes v2 ((w.ins.map mkIn).map (·.bytes)) ((w.outs.map mkOut).map (·.bytes)) w.lockTime (js.map (·.bytes)) w.jsPubkey
        w.jsSig = sproutSent w := by
      rw [mkIns_bytes, mkOuts_bytes, j2, sproutBytes_v2 rfl, sproutSent_v2 hv]
      simp [wireLegacy]
    have args : Verif.SproutArgs E v2 (w.ins.map mkIn) (w.outs.map mkOut) w.lockTime (some js) (some w.jsPubkey) (some w.jsSig) := {
      zc := zc
      sp := hz
      v4 := rfl
      lt4 := wl
      ver := .inr ⟨rfl, ⟨js, rfl, by rw [jl]; exact h.js.1⟩, ⟨_, rfl, hk⟩, _, rfl, hsg⟩
      li := by rw [List.length_map]; exact wi.1
      lo := by rw [List.length_map]; exact wo.1
      size := by rw [Option.getD_some, Option.getD_some, Option.getD_some, hb]; exact hl }
    obtain ⟨t, h1, h2, -⟩ := C55_roundtrip E hn _ ⟨_, _, _, _, some js, _, _, hi, ho, j1, SproutTx.make_iff.2 ⟨args, rfl⟩⟩ hs rfl []
      (hsg.symm.imp (fun h => ⟨w.jsSig, by simp [Verif.sproutObj], h⟩) (fun h => ⟨by simp [Verif.sproutObj, h], rfl⟩))
    have hb' : (Verif.sproutObj E v2 (w.ins.map mkIn) (w.outs.map mkOut) w.lockTime js (some w.jsPubkey) (some w.jsSig)).bytes = sproutSent w := hb
    rw [show (some js).getD [] = js from rfl, hb', List.append_nil] at h1
    rw [show (some js).getD [] = js from rfl, hb'] at h2
    exact ⟨t, h1, h2⟩

theorem sprout_sent_fields (E : Env) (hn : E.net.Supported) (w : ZTx) (hw : ∀ s : Bytes, s.length = 64 → ({ w with jsSig := s } : ZTx).WF)
    (hv : w.version = 2) (hk : w.jsPubkey.length = 32) (t : SproutTx) (ht : SproutTx.fromBytes E (sproutSent w) = .ok t) (hb : t.bytes = sproutSent w) :
    t.version = v2 ∧ t.txIns.map (·.bytes) = w.ins.map WireIn.bytes ∧ t.txOuts.map (·.bytes) = w.outs.map WireOut.bytes ∧ t.lockTime = w.lockTime ∧
      t.txJoinsplits.map (·.bytes) = w.js ∧ t.joinsplitPubkey = some w.jsPubkey ∧ t.joinsplitSig = some w.jsSig ∧
      t.txIdLe = E.hash256 (sproutSent w) ∧ t.txId = (E.hash256 (sproutSent w)).reverse := by
  have hw := hw (List.replicate 64 0) (List.length_replicate ..)
  have wl : w.lockTime.length = 4 := hw.lockTime
  have wi : w.ins.length < 2 ^ 64 ∧ ∀ i ∈ w.ins, i.WF := hw.ins
  have wo : w.outs.length < 2 ^ 64 ∧ ∀ o ∈ w.outs, o.WF := hw.outs
  have hjs : w.js.length < 2 ^ 64 ∧ ∀ j ∈ w.js, j.length = 1802 := by
    have h := hw.js
    simp only [hv] at h
    exact h
  obtain ⟨hB, tv, -⟩ := SproutTx.fromBytes_ok hn ht
  have f := hB.facts
  have hb0 : t.bytes = sproutBytes t.version (t.txIns.map (·.bytes)) (t.txOuts.map (·.bytes)) t.lockTime (t.txJoinsplits.map (·.bytes))
      (t.joinsplitPubkey.getD []) (t.joinsplitSig.getD []) := congrArg SproutTx.bytes f.obj
  have i1 : t.txIdLe = E.hash256 t.bytes := by rw [hb0]; exact congrArg SproutTx.txIdLe f.obj
  have i2 : t.txId = (E.hash256 t.bytes).reverse := by rw [hb0]; exact congrArg SproutTx.txId f.obj
  rw [hb] at i1 i2
  rw [sproutTx_bytes f tv, sproutSent_v2 hv, ← ins_fields f.ins, ← outs_fields f.outs] at hb
  rcases f.args.ver with ⟨c, -⟩ | ⟨-, ⟨l, hl, l5⟩, ⟨pk, hpk, pk32⟩, sg, hsg, -⟩
  · rw [tv] at c; cases c
  cases hl
  obtain ⟨e1, e2, hb⟩ := body_inj ⟨by simpa using f.args.li, ins_wf f.ins⟩ wi ⟨by simpa [wireOuts] using f.args.lo, outs_wf f.outs⟩ wo
    (List.append_cancel_left hb)
  obtain ⟨e3, hb⟩ := List.append_inj hb (by rw [f.args.lt4, wl])
  obtain ⟨e4, hb⟩ := vector_inj (fixed_selfDelim 1802) (by
    simp only [List.mem_map]; rintro _ ⟨j, hj, rfl⟩; exact (f.js j hj).length) hjs.2 (by simp; omega) hjs.1 hb
  rw [hpk, hsg, Option.getD_some, Option.getD_some] at hb
  obtain ⟨e5, e6⟩ := List.append_inj hb (by rw [pk32, hk])
  exact ⟨tv, by rw [← ins_fields f.ins, e1], by rw [← outs_fields f.outs, e2], e3, e4, by rw [hpk, e5], by rw [hsg, e6], i1, i2⟩

/-- C133 for `SproutTx`. Its bytes are those of a transaction, except that in version 2 the public key and the signature are there also without joinsplits, and the signature may be
missing (C116). They are read back nevertheless; but those of version 1 never are. -/
theorem C133_sprout (H : Hashes) (s : Session) (hr : Reach H s) (v : Val) (h : v ∈ s.vals) (hc : v.isInstance .sproutTx = true) (n : Network) (hn : n.Supported) :
    ∃ w : ZTx, (w.version = 1 ∨ w.version = 2) ∧ (∀ s : Bytes, s.length = 64 → ({ w with jsSig := s } : ZTx).WF) ∧ (w.jsSig = [] ∨ w.jsSig.length = 64) ∧
      v.content = some (sproutSent w) ∧ ∀ f x, Sent .sproutTx v (sproutSent w) f x →
        ((∃ v', call ⟨n, H⟩ f [x] = .ok v' ∧ v'.content = some (sproutSent w)) ↔ n.isSprout = true ∧ w.version = 2 ∧ ZRead n w) ∧
        ∀ v', call ⟨n, H⟩ f [x] = .ok v' → v'.content = some (sproutSent w) → ∃ ins outs js hs ps,
          v' = .obj .sproutTx [.bytes [2, 0, 0, 0], .tuple ins, .tuple outs, .tuple js, .bytes w.lockTime, .bytes w.jsPubkey, .bytes w.jsSig, hs, ps,
            .bytes (Env.hash256 ⟨n, H⟩ (sproutSent w)), .bytes (Env.hash256 ⟨n, H⟩ (sproutSent w)).reverse] (sproutSent w) ∧
          ins.map Val.content = w.ins.map (fun i => some i.bytes) ∧ outs.map Val.content = w.outs.map (fun o => some o.bytes) ∧ js.map Val.content = w.js.map some := by
  obtain ⟨w, b, h1, hw, hw', -, hl, hb, hsg, -, -, attrs, rfl, -⟩ := C130_sprout H s hr v h hc
  have hb : b = sproutSent w := by
    unfold sproutSent
    rcases hb with ⟨e, c⟩ | ⟨c1, c2, e⟩
    · rw [if_neg c]; exact e
    · rw [if_pos ⟨c1, c2⟩]; exact e
  subst hb
  refine ⟨w, h1.imp (·.1) (·.1), hw', hsg, rfl, fun f x hs => ?_⟩
  rw [sent_sprout hs]
  have key : (∃ v', (SproutTx.fromBytes ⟨n, H⟩ (sproutSent w)).map embSprout = .ok v' ∧ v'.content = some (sproutSent w)) ↔
      ∃ t, SproutTx.fromBytes ⟨n, H⟩ (sproutSent w) = .ok t ∧ t.bytes = sproutSent w := by
    constructor
    · rintro ⟨v', hv', hb⟩
      obtain ⟨t, ht, rfl⟩ := map_ok_iff.1 hv'
      exact ⟨t, ht, Option.some.inj hb⟩
    · rintro ⟨t, ht, hb⟩
      exact ⟨embSprout t, by rw [ht]; rfl, congrArg some hb⟩
  have main : (∃ t, SproutTx.fromBytes ⟨n, H⟩ (sproutSent w) = .ok t ∧ t.bytes = sproutSent w) ↔ n.isSprout = true ∧ w.version = 2 ∧ ZRead n w := by
    rcases h1 with ⟨e, -, c⟩ | ⟨e, hk⟩
    · have es : sproutSent w = w.bytes := if_neg (by omega)
      rw [es]
      refine ⟨?_, fun ⟨_, c, _⟩ => by omega⟩
      rintro ⟨t, ht, hb⟩
      have hz : n.isSprout = true := (SproutTx.fromBytes_ok hn ht).1.facts.args.sp
      obtain ⟨c1, -⟩ := (C109_sprout ⟨n, H⟩ hn hz w (hw (.inr c)) (by omega) []).1 ⟨t, by rw [List.append_nil]; exact ht, hb⟩
      omega
    · constructor
      · rintro ⟨t, ht, hb⟩
        have hz : n.isSprout = true := (SproutTx.fromBytes_ok hn ht).1.facts.args.sp
        exact ⟨hz, e, (sprout_sent_exact ⟨n, H⟩ hn hz w hw' e hk hsg hl).1 ⟨t, ht, hb⟩⟩
      · rintro ⟨hz, -, hr⟩
        exact (sprout_sent_exact ⟨n, H⟩ hn hz w hw' e hk hsg hl).2 hr
  refine ⟨key.trans main, fun v' hv hb => ?_⟩
  obtain ⟨-, e, -⟩ := main.1 (key.1 ⟨v', hv, hb⟩)
  obtain ⟨t, ht, rfl⟩ := map_ok_iff.1 hv
  have hb' : t.bytes = sproutSent w := Option.some.inj hb
  obtain ⟨e1, e2, e3, e4, e5, e6, e7, e8, e9⟩ := sprout_sent_fields ⟨n, H⟩ hn w hw' e (h1.elim (fun c => by omega) (·.2)) t ht hb'
  refine ⟨t.txIns.map embIn, t.txOuts.map embOut, t.txJoinsplits.map embSproutJs, embBs t.hsigs, embBs t.primaryInputs, ?_, ?_, ?_, ?_⟩
  · unfold embSprout; rw [e1, e4, e6, e7, e8, e9, hb']; rfl
  · have := congrArg (List.map some) e2
    rw [List.map_map, List.map_map] at this
    rw [List.map_map]; exact this
  · have := congrArg (List.map some) e3
    rw [List.map_map, List.map_map] at this
    rw [List.map_map]; exact this
  · rw [← e5, List.map_map, List.map_map]; rfl

/-- The hypotheses: a program that holds one. -/
example : ∃ s v, Reach toyEnv.H s ∧ v ∈ s.vals ∧ v.isInstance .sproutTx = true :=
  held_run (exParts ++ [.select (pystr "zcash_sprout_main"), .lit (.bytes (List.replicate 32 7)), .call (.init .sproutTx) [6, 8, 9, 2, 10, 11, 1]]) (by decide +kernel)

/-- That one, of version 2 without joinsplits and signature, is read back; one of version 1 is not. -/
example : ((Session.run toyEnv.H (exParts ++ [.select (pystr "zcash_sprout_main"), .lit (.bytes (List.replicate 32 7)), .call (.init .sproutTx) [6, 8, 9, 2, 10, 11, 1],
      .call (.fromBytes .sproutTx) [12]])).vals.map (·.isInstance .sproutTx)).count true = 2 ∧
    ((Session.run toyEnv.H (exParts ++ [.select (pystr "zcash_sprout_main"), .lit (.bytes [1, 0, 0, 0]), .call (.init .sproutTx) [11, 8, 9, 2, 10, 5, 5],
      .call (.fromBytes .sproutTx) [12]])).vals.map (·.isInstance .sproutTx)).count true = 1 := by
  constructor <;> decide +kernel

end Verif.Props
