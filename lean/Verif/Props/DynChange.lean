import Verif.Model.DynChange
import Verif.Props.DynGoodApi

/-! Property C130: even if a program changes lists and bytearrays, the objects it holds are of the wire format. -/

namespace Verif.Props
open Verif Spec Dyn

theorem good_select {E E' : Env} (hn : E.net.Supported) (hH : E'.H = E.H) {v : Val} (h : GoodOn Network.Supported E v) : GoodOn Network.Supported E' v := by
  induction h with
  | none => exact .none
  | int n => exact .int n
  | str s => exact .str s
  | bytes b => exact .bytes b
  | bytearray b => exact .bytearray b
  | list l _ ih => exact .list l ih
  | tuple l _ ih => exact .tuple l ih
  | obj c t t0 b _ hm hl hd hi ih => exact .obj c t t0 b ih (made_select hn hH hm) hl hd hi

theorem index_of_mem {α β : Type} {l : List α} {m : List β} (hl : l.length = m.length) {w : β} (hw : w ∈ m) : ∃ (i : Nat) (v : α), l[i]? = some v ∧ m[i]? = some w ∧ v ∈ l := by
  obtain ⟨i, hi⟩ := List.mem_iff_getElem?.1 hw
  have hi' : i < l.length := by rw [hl]; exact (List.getElem?_eq_some_iff.1 hi).1
  exact ⟨i, l[i], List.getElem?_eq_getElem hi', hi, List.getElem_mem hi'⟩

theorem changed_id {Q : Val → Prop} {v w : Val} (h : Changed Q v w) (hv : IsId v = true) : w = v := by
  cases h <;> simp [IsId] at hv <;> rfl

/-- Ids stay. -/
theorem changed_ids {Q : Val → Prop} {t t' : List Val} (hl : t.length = t'.length) (hc : ∀ (i : Nat) (v w : Val), t[i]? = some v → t'[i]? = some w → Changed Q v w) (k : Nat)
    (hi : (t.drop k).all IsId = true) : t'.drop k = t.drop k := by
  refine List.ext_getElem? fun j => ?_
  rw [List.getElem?_drop, List.getElem?_drop]
  by_cases hj : k + j < t.length
  · have e := List.getElem?_eq_getElem hj
    have e' := List.getElem?_eq_getElem (hl ▸ hj : k + j < t'.length)
    have hm : t[k + j] ∈ t.drop k := List.mem_iff_getElem?.2 ⟨j, by rw [List.getElem?_drop, e]⟩
    rw [e, e', changed_id (hc _ _ _ e e') (List.all_eq_true.1 hi _ hm)]
  · rw [List.getElem?_eq_none (by omega), List.getElem?_eq_none (by omega)]

/-- What is good stays so by a change, if what the program holds after it is good; of that, only what is smaller matters. -/
theorem changed_good {S : Network → Prop} {E : Env} {Q : Val → Prop} {v w : Val} (h : Changed Q v w) : GoodOn S E v → (∀ u, Q u → sizeOf u < sizeOf w → GoodOn S E u) → GoodOn S E w := by
  induction h with
  | none => exact fun _ _ => .none
  | int n => exact fun _ _ => .int n
  | str s => exact fun _ _ => .str s
  | bytes b => exact fun _ _ => .bytes b
  | bytearray b b' => exact fun _ _ => .bytearray b'
  | byteData b b' => exact fun _ _ => .other b'
  | list l m l' hl hc hq ih =>
    intro hv hu
    refine .list _ fun w hw => ?_
    have hlt : sizeOf w < sizeOf (Val.list l') := by
      have := List.sizeOf_lt_of_mem hw
      simp only [Val.list.sizeOf_spec]; omega
    rcases hq w hw with h | h
    · obtain ⟨i, v, h1, h2, h3⟩ := index_of_mem hl h
      exact ih i v w h1 h2 (good_seq hv (.inl rfl) v h3) fun u hQ hs => hu u hQ (by omega)
    · exact hu w h hlt
  | tuple l l' hl hc ih =>
    intro hv hu
    refine .tuple _ fun w hw => ?_
    have hlt : sizeOf w < sizeOf (Val.tuple l') := by
      have := List.sizeOf_lt_of_mem hw
      simp only [Val.tuple.sizeOf_spec]; omega
    obtain ⟨i, v, h1, h2, h3⟩ := index_of_mem hl hw
    exact ih i v w h1 h2 (good_seq hv (.inr rfl) v h3) fun u hQ hs => hu u hQ (by omega)
  | obj c t t' b hl hc ih =>
    intro hv hu
    have ha := good_attrs hv
    cases hv with
    | obj _ _ t0 _ _ hm hl0 hd hi =>
      have e := changed_ids hl hc (idAt c) hi
      refine .obj c t' t0 b (fun w hw => ?_) hm (hl.symm.trans hl0) (e.trans hd) (by rw [e]; exact hi)
      have hlt : sizeOf w < sizeOf (Val.obj c t' b) := by
        have := List.sizeOf_lt_of_mem hw
        simp only [Val.obj.sizeOf_spec]; omega
      obtain ⟨i, v, h1, h2, h3⟩ := index_of_mem hl hw
      exact ih i v w h1 h2 (ha v h3) fun u hQ hs => hu u hQ (by omega)

/-- What a program holds is good, and a supported network is selected. -/
theorem reach_good {H : Hashes} {s : Session} (h : Reach H s) : s.net.Supported ∧ ∀ v ∈ s.vals, GoodOn Network.Supported ⟨s.net, H⟩ v := by
  induction h with
  | start => exact ⟨(run_ok H []).1, all_nil⟩
  | step s o _ ih =>
    have hn : (s.step H o).net.Supported := by
      cases o with
      | select name => exact supported_select ih.1
      | _ => exact ih.1
    refine ⟨hn, fun v hv => good_select (E := ⟨s.net, H⟩) (E' := ⟨(s.step H o).net, H⟩) ih.1 rfl ?_⟩
    rcases List.mem_append.1 hv with hv | hv
    · exact ih.2 v hv
    · exact good_give ih.2 (Option.mem_toList.1 hv)
  | change s vals _ hl hc ih =>
    refine ⟨ih.1, ?_⟩
    have key : ∀ (n : Nat) (w : Val), sizeOf w < n → w ∈ vals → GoodOn Network.Supported ⟨s.net, H⟩ w := by
      intro n
      induction n with
      | zero => exact fun w h => absurd h (Nat.not_lt_zero _)
      | succ n ihn =>
        intro w hs hw
        obtain ⟨i, v, h1, h2, h3⟩ := index_of_mem hl hw
        exact changed_good (hc i v w h1 h2) (ih.2 v h3) fun u hu hlt => ihn u (by omega) hu
    exact fun w hw => key _ w (Nat.lt_succ_self _) hw

/-- An object that is good has the bytes and the ids of one that can be made. -/
theorem good_inv {S : Network → Prop} {E : Env} {v : Val} {c : Cls} (h : GoodOn S E v) (hc : v.isInstance c = true) :
    ∃ t t0 b, v = .obj c t b ∧ MadeOn S E (.obj c t0 b) ∧ t.drop (idAt c) = t0.drop (idAt c) := by
  cases v <;> simp [Val.isInstance] at hc
  next c' t x =>
  subst hc
  cases h with
  | obj _ _ t0 _ _ hm _ hd => exact ⟨t, t0, x, rfl, hm, hd⟩

theorem is_obj (c : Cls) (t : List Val) (b : Bytes) : (Val.obj c t b).isInstance c = true := by simp [Val.isInstance]

/-- C130: a program does what C125 says, and between its steps changes lists and bytearrays that it holds, or that are elements or attributes of what it holds, in any way: by setting,
adding and removing items and bytes. A `Tx` that it then holds is still a transaction, with the ids that it had when it was made: its bytes are those of a transaction on the wire with
inputs and outputs, all fields of their widths, and no witnesses or one for each input; its ids are the hashes, by the hash function of a supported network, of the transaction without
and with witnesses. -/
theorem C130_tx (H : Hashes) (s : Session) (hr : Reach H s) (v : Val) (h : v ∈ s.vals) (hc : v.isInstance .tx = true) :
    ∃ w : WireTx, w.version.length = 4 ∧ w.lockTime.length = 4 ∧
      (w.ins ≠ [] ∧ w.ins.length < 2 ^ 64 ∧ ∀ i ∈ w.ins, i.WF ∧ i.script.length ≤ 1650) ∧ (w.outs ≠ [] ∧ w.outs.length < 2 ^ 64 ∧ ∀ o ∈ w.outs, o.WF) ∧
      (∀ ws, w.wits = some ws → (ws = [] ∨ ws.length = w.ins.length) ∧ ∀ s ∈ ws, WitWF s) ∧
      ∃ n : Network, n.Supported ∧ ∃ attrs, v = .obj .tx attrs w.bytes ∧
        attrs[6]? = some (.bytes (Env.hash256 ⟨n, H⟩ w.stripped)) ∧ attrs[8]? = some (.bytes (Env.hash256 ⟨n, H⟩ w.stripped).reverse) ∧
        (w.wits = none → attrs[7]? = some .none ∧ attrs[9]? = some .none) ∧
        (w.wits ≠ none → attrs[7]? = some (.bytes (Env.hash256 ⟨n, H⟩ w.bytes)) ∧ attrs[9]? = some (.bytes (Env.hash256 ⟨n, H⟩ w.bytes).reverse)) := by
  obtain ⟨hn, hv⟩ := reach_good hr
  obtain ⟨t, t0, b, rfl, hm, hd⟩ := good_inv (hv v h) hc
  obtain ⟨w, h1, h2, h3, h4, h5, n, hs, attrs, he, h6, h8, h7, h7'⟩ := tx_on (fun _ h => h) _ hn _ hm (is_obj _ _ _)
  cases he
  have e : ∀ k, t[6 + k]? = t0[6 + k]? := fun k => by rw [← List.getElem?_drop, ← List.getElem?_drop]; exact congrArg (·[k]?) hd
  exact ⟨w, h1, h2, h3, h4, h5, n, of_held hn hs, t, rfl, (e 0).trans h6, (e 2).trans h8, fun hw => ⟨(e 1).trans (h7 hw).1, (e 3).trans (h7 hw).2⟩,
    fun hw => ⟨(e 1).trans (h7' hw).1, (e 3).trans (h7' hw).2⟩⟩

/-- C130: an `OverwinterTx`. -/
theorem C130_overwinter (H : Hashes) (s : Session) (hr : Reach H s) (v : Val) (h : v ∈ s.vals) (hc : v.isInstance .overwinterTx = true) :
    ∃ w : ZTx, w.version = 3 ∧ w.WF ∧ (w.ins ≠ [] ∨ w.js ≠ []) ∧ w.js.length ≤ 5 ∧ leValue w.expiry ≤ 499999999 ∧ w.bytes.length ≤ 100000 ∧
      ∃ n : Network, n.Supported ∧ ∃ attrs, v = .obj .overwinterTx attrs w.bytes ∧
        attrs.drop 9 = [.bytes (Env.hash256 ⟨n, H⟩ w.bytes), .bytes (Env.hash256 ⟨n, H⟩ w.bytes).reverse] := by
  obtain ⟨hn, hv⟩ := reach_good hr
  obtain ⟨t, t0, b, rfl, hm, hd⟩ := good_inv (hv v h) hc
  obtain ⟨w, h1, h2, h3, h4, h5, h6, n, hs, attrs, he, h7⟩ := overwinter_on _ _ hm (is_obj _ _ _)
  cases he
  exact ⟨w, h1, h2, h3, h4, h5, h6, n, of_held hn hs, t, rfl, hd.trans h7⟩

/-- C130: a `SaplingTx`. -/
theorem C130_sapling (H : Hashes) (s : Session) (hr : Reach H s) (v : Val) (h : v ∈ s.vals) (hc : v.isInstance .saplingTx = true) :
    ∃ w : ZTx, w.version = 4 ∧ w.WF ∧ (w.ins ≠ [] ∨ w.js ≠ [] ∨ w.spends ≠ []) ∧ w.js.length ≤ 5 ∧ leValue w.expiry ≤ 499999999 ∧ w.bytes.length ≤ 100000 ∧
      (w.spends = [] → w.outputs = [] → w.balance = List.replicate 8 0) ∧
      ∃ n : Network, n.Supported ∧ ∃ attrs, v = .obj .saplingTx attrs w.bytes ∧
        attrs.drop 13 = [.bytes (Env.hash256 ⟨n, H⟩ w.bytes), .bytes (Env.hash256 ⟨n, H⟩ w.bytes).reverse] := by
  obtain ⟨hn, hv⟩ := reach_good hr
  obtain ⟨t, t0, b, rfl, hm, hd⟩ := good_inv (hv v h) hc
  obtain ⟨w, h1, h2, h3, h4, h5, h6, h7, n, hs, attrs, he, h8⟩ := sapling_on _ _ hm (is_obj _ _ _)
  cases he
  exact ⟨w, h1, h2, h3, h4, h5, h6, h7, n, of_held hn hs, t, rfl, hd.trans h8⟩

/-- C130: a `SproutTx`; as C116 says, a version 2 transaction without joinsplits has a key (and perhaps a signature) too many, and one with joinsplits may lack the signature. -/
theorem C130_sprout (H : Hashes) (s : Session) (hr : Reach H s) (v : Val) (h : v ∈ s.vals) (hc : v.isInstance .sproutTx = true) :
    ∃ w : ZTx, ∃ b : Bytes, (w.version = 1 ∧ w.ins ≠ [] ∧ w.js = [] ∨ w.version = 2 ∧ w.jsPubkey.length = 32) ∧ (w.jsSig ≠ [] ∨ w.js = [] → w.WF) ∧
      (∀ s : Bytes, s.length = 64 → ({ w with jsSig := s } : ZTx).WF) ∧ w.js.length ≤ 5 ∧
      b.length ≤ 100000 ∧ (b = w.bytes ∧ ¬(w.version = 2 ∧ w.js = []) ∨ w.version = 2 ∧ w.js = [] ∧ b = w.bytes ++ w.jsPubkey ++ w.jsSig) ∧ (w.jsSig = [] ∨ w.jsSig.length = 64) ∧
      ∃ n : Network, n.Supported ∧ ∃ attrs, v = .obj .sproutTx attrs b ∧ attrs.drop 9 = [.bytes (Env.hash256 ⟨n, H⟩ b), .bytes (Env.hash256 ⟨n, H⟩ b).reverse] := by
  obtain ⟨hn, hv⟩ := reach_good hr
  obtain ⟨t, t0, b, rfl, hm, hd⟩ := good_inv (hv v h) hc
  obtain ⟨w, b, h1, h2, h3, h4, h5, h6, h7, n, hs, attrs, he, h8⟩ := sprout_on _ _ hm (is_obj _ _ _)
  cases he
  exact ⟨w, _, h1, h2, h3, h4, h5, h6, h7, n, of_held hn hs, t, rfl, hd.trans h8⟩

/-- C130: a `DecredTx`. -/
theorem C130_decred (H : Hashes) (s : Session) (hr : Reach H s) (v : Val) (h : v ∈ s.vals) (hc : v.isInstance .dcrTx = true) :
    ∃ w : DcrTx, w.version.length = 4 ∧ w.lockTime.length = 4 ∧ w.expiry.length = 4 ∧
      (w.ins ≠ [] ∧ w.ins.length < 2 ^ 64 ∧ ∀ i ∈ w.ins, i.txId.length = 32 ∧ i.index.length = 4 ∧ i.tree.length = 1 ∧ i.sequence.length = 4) ∧
      (w.outs ≠ [] ∧ w.outs.length < 2 ^ 64 ∧ ∀ o ∈ w.outs, o.value.length = 8 ∧ o.version.length = 2 ∧ o.script.length < 2 ^ 64) ∧
      (w.wits.length < 2 ^ 64 ∧ ∀ x ∈ w.wits, x.value.length = 8 ∧ x.height.length = 4 ∧ x.index.length = 4 ∧ x.script.length < 2 ^ 64) ∧ w.bytes.length ≤ 100000 ∧
      ∃ attrs b, v = .obj .dcrTx attrs w.bytes ∧ attrs.drop 6 = [.bytes (blake256 b), .bytes (blake256 b).reverse] ∧
        b = dcrPrefix w.version (w.ins.map fun i => dcrIn i.txId i.index i.tree i.sequence) (w.outs.map fun o => dcrOut o.value o.version o.script) w.lockTime w.expiry := by
  obtain ⟨-, hv⟩ := reach_good hr
  obtain ⟨t, t0, b, rfl, hm, hd⟩ := good_inv (hv v h) hc
  obtain ⟨w, h1, h2, h3, h4, h5, h6, h7, attrs, b, he, h8, h9⟩ := C117_safe _ _ hm (is_obj _ _ _)
  cases he
  exact ⟨w, h1, h2, h3, h4, h5, h6, h7, t, b, rfl, hd.trans h8, h9⟩

/-- C130: the parts of transactions: inputs, outputs and witnesses; joinsplits, which move value in at most one direction; spends and outputs of Sapling. -/
theorem C130_parts (H : Hashes) (s : Session) (hr : Reach H s) (v : Val) (h : v ∈ s.vals) :
    (v.isInstance .txIn = true → ∃ w : WireIn, (w.WF ∧ w.script.length ≤ 1650) ∧ v.content = some w.bytes) ∧
    (v.isInstance .txOut = true → ∃ w : WireOut, w.WF ∧ v.content = some w.bytes) ∧
    (v.isInstance .witness = true → ∃ w : List Bytes, WitWF w ∧ v.content = some (wireWitness w)) ∧
    (v.isInstance .sproutJs = true → ∃ b : Bytes, b.length = 1802 ∧ (leValue (b.take 8) = 0 ∨ leValue ((b.drop 8).take 8) = 0) ∧ v.content = some b) ∧
    (v.isInstance .saplingJs = true → ∃ b : Bytes, b.length = 1698 ∧ (leValue (b.take 8) = 0 ∨ leValue ((b.drop 8).take 8) = 0) ∧ v.content = some b) ∧
    (v.isInstance .saplingSpend = true → ∃ s : Bytes × Bytes, (s.1.length = 320 ∧ s.2.length = 64) ∧ v.content = some (s.1 ++ s.2)) ∧
    (v.isInstance .saplingOutput = true → ∃ b : Bytes, b.length = 948 ∧ v.content = some b) := by
  have hg := (reach_good hr).2 v h
  cases v with
  | obj c t b =>
    cases hg with
    | obj _ _ t0 _ _ hm => exact made_parts (v := .obj c t0 b) hm
  | _ => exact ⟨nofun, nofun, nofun, nofun, nofun, nofun, nofun⟩

/-- C130: the same of outpoints, stack items, proofs, and the parts of Decred transactions. -/
theorem C130_small (H : Hashes) (s : Session) (hr : Reach H s) (v : Val) (h : v ∈ s.vals) :
    (v.isInstance .outpoint = true → ∃ b : Bytes, b.length = 36 ∧ v.content = some b) ∧
    (v.isInstance .item = true → ∃ b : Bytes, b.length < 2 ^ 64 ∧ v.content = some (varBytes b)) ∧
    (v.isInstance .sproutProof = true → ∃ b : Bytes, b.length = 296 ∧ v.content = some b) ∧
    (v.isInstance .saplingProof = true → ∃ b : Bytes, b.length = 192 ∧ v.content = some b) ∧
    (v.isInstance .dcrOutpoint = true → ∃ b : Bytes, b.length = 37 ∧ v.content = some b) ∧
    (v.isInstance .dcrTxIn = true → ∃ b : Bytes, b.length = 41 ∧ v.content = some b) ∧
    (v.isInstance .dcrTxOut = true → ∃ x y s : Bytes, (x.length = 8 ∧ y.length = 2 ∧ s.length < 2 ^ 64) ∧ v.content = some (dcrOut x y s)) ∧
    (v.isInstance .dcrWitness = true → ∃ x y z s : Bytes, (x.length = 8 ∧ y.length = 4 ∧ z.length = 4 ∧ s.length < 2 ^ 64) ∧ v.content = some (Spec.dcrWitness x y z s)) := by
  have hg := (reach_good hr).2 v h
  cases v with
  | obj c t b =>
    cases hg with
    | obj _ _ t0 _ _ hm => exact made_small (v := .obj c t0 b) hm
  | _ => exact ⟨nofun, nofun, nofun, nofun, nofun, nofun, nofun, nofun⟩

/-- A program makes an input of a bytearray (the outpoint) and puts it into a list, -/
def exChange : List Op :=
  [.lit (.bytearray (List.replicate 36 7)), .lit (.bytes []), .lit (.bytes [0, 0, 0, 0]), .call (.init .txIn) [0, 1, 1, 2], .list [3], .lit .none]

/-- and then holds these values. -/
example : (Session.run toyEnv.H exChange).vals =
    [.bytearray (List.replicate 36 7), .bytes [], .bytes [0, 0, 0, 0],
      .obj .txIn [.bytearray (List.replicate 36 7), .bytes [], .bytes [], .bytes [], .bytes [0, 0, 0, 0]] (List.replicate 36 7 ++ [0, 0, 0, 0, 0]),
      .list [.obj .txIn [.bytearray (List.replicate 36 7), .bytes [], .bytes [], .bytes [], .bytes [0, 0, 0, 0]] (List.replicate 36 7 ++ [0, 0, 0, 0, 0])], .none] := rfl

/-- The input with its attribute cleared. -/
def exCleared : Val := .obj .txIn [.bytearray [], .bytes [], .bytes [], .bytes [], .bytes [0, 0, 0, 0]] (List.replicate 36 7 ++ [0, 0, 0, 0, 0])

/-- What it holds when the bytearray is cleared and added to the list, and the input is in the list twice. -/
def exVals : List Val := [.bytearray [], .bytes [], .bytes [0, 0, 0, 0], exCleared, .list [exCleared, .bytearray [], exCleared], .none]

theorem exReach : Reach toyEnv.H ⟨bitcoinMain, exVals⟩ := by
  have h0 : Reach toyEnv.H (Session.run toyEnv.H exChange) := by
    have key : ∀ (ops : List Op) (s : Session), Reach toyEnv.H s → Reach toyEnv.H (ops.foldl (Session.step toyEnv.H) s) := by
      intro ops
      induction ops with
      | nil => exact fun s h => h
      | cons o ops ih => exact fun s h => ih _ (.step s o h)
    exact key _ _ .start
  have hin : ∀ Q, Changed Q (.obj .txIn [.bytearray (List.replicate 36 7), .bytes [], .bytes [], .bytes [], .bytes [0, 0, 0, 0]] (List.replicate 36 7 ++ [0, 0, 0, 0, 0])) exCleared := by
    refine fun Q => .obj _ _ _ _ rfl fun i v w h1 h2 => ?_
    match i with
    | 0 => cases h1; cases h2; exact .bytearray _ _
    | 1 => cases h1; cases h2; exact .bytes _
    | 2 => cases h1; cases h2; exact .bytes _
    | 3 => cases h1; cases h2; exact .bytes _
    | 4 => cases h1; cases h2; exact .bytes _
    | i + 5 => cases h1
  refine .change (Session.run toyEnv.H exChange) exVals h0 rfl fun i v w h1 h2 => ?_
  match i with
  | 0 => cases h1; cases h2; exact .bytearray _ _
  | 1 => cases h1; cases h2; exact .bytes _
  | 2 => cases h1; cases h2; exact .bytes _
  | 3 => cases h1; cases h2; exact hin _
  | 4 =>
    cases h1; cases h2
    refine .list _ [exCleared] _ rfl (fun i v w h1 h2 => ?_) ?_
    · match i with
      | 0 => cases h1; cases h2; exact hin _
      | i + 1 => cases h1
    · simp [exVals]
  | 5 => cases h1; cases h2; exact .none
  | i + 6 => cases h1

/-- The input is still an input on the wire. It cannot be copied any more, and the list is no longer one of inputs; but without the bytearray it is one, and a transaction can be made of it. -/
example : (Session.give toyEnv.H ⟨bitcoinMain, exVals⟩ (.call .copy [3, 5, 5, 5, 5])).isNone = true ∧
    (∃ w : WireIn, (w.WF ∧ w.script.length ≤ 1650) ∧ exCleared.content = some w.bytes) ∧
    ∃ o, txOut (.bytes (List.replicate 8 0)) (.bytes []) = .ok o ∧ (Dyn.tx toyEnv (.bytes [1, 0, 0, 0]) .none (.list [exCleared, .bytearray [], exCleared]) (.tuple [o]) .none (.bytes [0, 0, 0, 0])).toOption.isNone ∧
      (Dyn.tx toyEnv (.bytes [1, 0, 0, 0]) .none (.list [exCleared, exCleared]) (.tuple [o]) .none (.bytes [0, 0, 0, 0])).toOption.isSome :=
  ⟨by decide +kernel, (C130_parts toyEnv.H _ exReach exCleared (by simp [exVals])).1 rfl, _, rfl, rfl, rfl⟩

end Verif.Props
