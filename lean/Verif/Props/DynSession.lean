import Verif.Model.DynApi
import Verif.Props.DynAttrs
import Verif.Props.DynZSafe
import Verif.Props.Networks

/-! Property C125: whatever a program does with the library, the objects it holds are of the wire format. -/

namespace Verif.Props
open Verif Spec Dyn

/-! ### programs that select other networks hold what can be made -/

/-- Of what can be made on the supported networks it does not matter which is selected now. -/
theorem made_select {E E' : Env} (hn : E.net.Supported) (hH : E'.H = E.H) {v : Val} (h : MadeOn Network.Supported E v) : MadeOn Network.Supported E' v := by
  have hs : ∀ n, n = E.net ∨ n.Supported → n.Supported := by
    rintro n (rfl | h)
    · exact hn
    · exact h
  induction h with
  | none => exact .none
  | int n => exact .int n
  | str s => exact .str s
  | bytes b => exact .bytes b
  | bytearray b => exact .bytearray b
  | other b => exact .other b
  | list l _ ih => exact .list l ih
  | tuple l _ ih => exact .tuple l ih
  | outpoint _ _ _ _ _ h i0 i1 => exact .outpoint _ _ _ i0 i1 h
  | txIn _ _ _ _ _ _ _ _ _ h i0 i1 i2 i3 => exact .txIn _ _ _ _ _ i0 i1 i2 i3 h
  | txOut _ _ _ _ _ h i0 i1 => exact .txOut _ _ _ i0 i1 h
  | item _ _ _ h i0 => exact .item _ _ i0 h
  | witness _ _ _ h i0 => exact .witness _ _ i0 h
  | txOn n _ _ _ _ _ _ _ hn _ _ _ _ _ _ h i0 i1 i2 i3 i4 i5 => exact .txOn n _ _ _ _ _ _ _ (.inr (hs n hn)) i0 i1 i2 i3 i4 i5 (by rw [hH]; exact h)
  | sproutProofOn n _ _ _ _ _ _ _ _ _ hn _ _ _ _ _ _ _ _ h i0 i1 i2 i3 i4 i5 i6 i7 => exact .sproutProofOn n _ _ _ _ _ _ _ _ _ (.inr (hs n hn)) i0 i1 i2 i3 i4 i5 i6 i7 h
  | saplingProofOn n _ _ _ _ hn _ _ _ h i0 i1 i2 => exact .saplingProofOn n _ _ _ _ (.inr (hs n hn)) i0 i1 i2 h
  | sproutJsOn n _ _ _ _ _ _ _ _ _ _ _ hn _ _ _ _ _ _ _ _ _ _ h i0 i1 i2 i3 i4 i5 i6 i7 i8 i9 => exact .sproutJsOn n _ _ _ _ _ _ _ _ _ _ _ (.inr (hs n hn)) i0 i1 i2 i3 i4 i5 i6 i7 i8 i9 h
  | saplingJsOn n _ _ _ _ _ _ _ _ _ _ _ hn _ _ _ _ _ _ _ _ _ _ h i0 i1 i2 i3 i4 i5 i6 i7 i8 i9 => exact .saplingJsOn n _ _ _ _ _ _ _ _ _ _ _ (.inr (hs n hn)) i0 i1 i2 i3 i4 i5 i6 i7 i8 i9 h
  | saplingSpendOn n _ _ _ _ _ _ _ hn _ _ _ _ _ _ h i0 i1 i2 i3 i4 i5 => exact .saplingSpendOn n _ _ _ _ _ _ _ (.inr (hs n hn)) i0 i1 i2 i3 i4 i5 h
  | saplingOutputOn n _ _ _ _ _ _ _ hn _ _ _ _ _ _ h i0 i1 i2 i3 i4 i5 => exact .saplingOutputOn n _ _ _ _ _ _ _ (.inr (hs n hn)) i0 i1 i2 i3 i4 i5 h
  | sproutTxOn n _ _ _ _ _ _ _ _ hn _ _ _ _ _ _ _ h i0 i1 i2 i3 i4 i5 i6 => exact .sproutTxOn n _ _ _ _ _ _ _ _ (.inr (hs n hn)) i0 i1 i2 i3 i4 i5 i6 (by rw [hH]; exact h)
  | overwinterTxOn n _ _ _ _ _ _ _ _ hn _ _ _ _ _ _ _ h i0 i1 i2 i3 i4 i5 i6 => exact .overwinterTxOn n _ _ _ _ _ _ _ _ (.inr (hs n hn)) i0 i1 i2 i3 i4 i5 i6 (by rw [hH]; exact h)
  | saplingTxOn n _ _ _ _ _ _ _ _ _ _ _ _ hn _ _ _ _ _ _ _ _ _ _ _ h i0 i1 i2 i3 i4 i5 i6 i7 i8 i9 i10 => exact .saplingTxOn n _ _ _ _ _ _ _ _ _ _ _ _ (.inr (hs n hn)) i0 i1 i2 i3 i4 i5 i6 i7 i8 i9 i10 (by rw [hH]; exact h)
  | dcrOutpointOn n _ _ _ _ hn _ _ _ h i0 i1 i2 => exact .dcrOutpointOn n _ _ _ _ (.inr (hs n hn)) i0 i1 i2 h
  | dcrTxInOn n _ _ _ hn _ _ h i0 i1 => exact .dcrTxInOn n _ _ _ (.inr (hs n hn)) i0 i1 h
  | dcrTxOutOn n _ _ _ _ hn _ _ _ h i0 i1 i2 => exact .dcrTxOutOn n _ _ _ _ (.inr (hs n hn)) i0 i1 i2 h
  | dcrWitnessOn n _ _ _ _ _ _ hn _ _ _ _ _ h i0 i1 i2 i3 i4 => exact .dcrWitnessOn n _ _ _ _ _ _ (.inr (hs n hn)) i0 i1 i2 i3 i4 h
  | dcrTxOn n _ _ _ _ _ _ _ hn _ _ _ _ _ _ h i0 i1 i2 i3 i4 i5 => exact .dcrTxOn n _ _ _ _ _ _ _ (.inr (hs n hn)) i0 i1 i2 i3 i4 i5 h

theorem made_init {S : Network → Prop} {E : Env} {c : Cls} {args : List Val} (ha : ∀ a ∈ args, MadeOn S E a) {v : Val} (h : initOf E c args = .ok v) : MadeOn S E v := by
  unfold initOf at h
  split at h
  · exact .outpoint _ _ _ (ha _ (by simp)) (ha _ (by simp)) h
  · exact .txIn _ _ _ _ _ (ha _ (by simp)) (ha _ (by simp)) (ha _ (by simp)) (ha _ (by simp)) h
  · exact .txOut _ _ _ (ha _ (by simp)) (ha _ (by simp)) h
  · exact .item _ _ (ha _ (by simp)) h
  · exact .witness _ _ (ha _ (by simp)) h
  · exact .tx _ _ _ _ _ _ _ (ha _ (by simp)) (ha _ (by simp)) (ha _ (by simp)) (ha _ (by simp)) (ha _ (by simp)) (ha _ (by simp)) h
  · exact .sproutProof _ _ _ _ _ _ _ _ _ (ha _ (by simp)) (ha _ (by simp)) (ha _ (by simp)) (ha _ (by simp)) (ha _ (by simp)) (ha _ (by simp)) (ha _ (by simp)) (ha _ (by simp)) h
  · exact .saplingProof _ _ _ _ (ha _ (by simp)) (ha _ (by simp)) (ha _ (by simp)) h
  · exact .sproutJs _ _ _ _ _ _ _ _ _ _ _ (ha _ (by simp)) (ha _ (by simp)) (ha _ (by simp)) (ha _ (by simp)) (ha _ (by simp)) (ha _ (by simp)) (ha _ (by simp)) (ha _ (by simp)) (ha _ (by simp)) (ha _ (by simp)) h
  · exact .saplingJs _ _ _ _ _ _ _ _ _ _ _ (ha _ (by simp)) (ha _ (by simp)) (ha _ (by simp)) (ha _ (by simp)) (ha _ (by simp)) (ha _ (by simp)) (ha _ (by simp)) (ha _ (by simp)) (ha _ (by simp)) (ha _ (by simp)) h
  · exact .saplingSpend _ _ _ _ _ _ _ (ha _ (by simp)) (ha _ (by simp)) (ha _ (by simp)) (ha _ (by simp)) (ha _ (by simp)) (ha _ (by simp)) h
  · exact .saplingOutput _ _ _ _ _ _ _ (ha _ (by simp)) (ha _ (by simp)) (ha _ (by simp)) (ha _ (by simp)) (ha _ (by simp)) (ha _ (by simp)) h
  · exact .sproutTx _ _ _ _ _ _ _ _ (ha _ (by simp)) (ha _ (by simp)) (ha _ (by simp)) (ha _ (by simp)) (ha _ (by simp)) (ha _ (by simp)) (ha _ (by simp)) h
  · exact .overwinterTx _ _ _ _ _ _ _ _ (ha _ (by simp)) (ha _ (by simp)) (ha _ (by simp)) (ha _ (by simp)) (ha _ (by simp)) (ha _ (by simp)) (ha _ (by simp)) h
  · exact .saplingTx _ _ _ _ _ _ _ _ _ _ _ _ (ha _ (by simp)) (ha _ (by simp)) (ha _ (by simp)) (ha _ (by simp)) (ha _ (by simp)) (ha _ (by simp)) (ha _ (by simp)) (ha _ (by simp)) (ha _ (by simp)) (ha _ (by simp)) (ha _ (by simp)) h
  · exact .dcrOutpoint _ _ _ _ (ha _ (by simp)) (ha _ (by simp)) (ha _ (by simp)) h
  · exact .dcrTxIn _ _ _ (ha _ (by simp)) (ha _ (by simp)) h
  · exact .dcrTxOut _ _ _ _ (ha _ (by simp)) (ha _ (by simp)) (ha _ (by simp)) h
  · exact .dcrWitness _ _ _ _ _ _ (ha _ (by simp)) (ha _ (by simp)) (ha _ (by simp)) (ha _ (by simp)) (ha _ (by simp)) h
  · exact .dcrTx _ _ _ _ _ _ _ (ha _ (by simp)) (ha _ (by simp)) (ha _ (by simp)) (ha _ (by simp)) (ha _ (by simp)) (ha _ (by simp)) h
  · cases h

theorem made_read {S : Network → Prop} {E : Env} {c : Cls} {a v : Val} (ha : MadeOn S E a) (h : readOf E c a = .ok v) : MadeOn S E v := by
  cases c with
  | outpoint => exact made_readOutpoint ha h
  | txIn => exact made_readTxIn ha h
  | txOut => exact made_readTxOut ha h
  | item => exact made_readItem ha h
  | witness => exact made_readWitness ha h
  | tx => exact made_readTx ha h
  | sproutProof => exact made_readSproutProof ha h
  | saplingProof => exact made_readSaplingProof ha h
  | sproutJs => exact made_readSproutJs ha h
  | saplingJs => exact made_readSaplingJs ha h
  | saplingSpend => exact made_readSpend ha h
  | saplingOutput => exact made_readOutput ha h
  | sproutTx => exact made_readSproutTx ha h
  | overwinterTx => exact made_readOverwinterTx ha h
  | saplingTx => exact made_readSaplingTx ha h
  | dcrOutpoint => exact made_readDcrOutpoint ha h
  | dcrTxIn => exact made_readDcrTxIn ha h
  | dcrTxOut => exact made_readDcrTxOut ha h
  | dcrWitness => cases h
  | dcrTx => cases h
  | other =>
    obtain ⟨b, -, h⟩ := (bind_ok_iff ..).1 h
    cases h
    exact .other b

theorem made_copy {S : Network → Prop} {E : Env} {a : Val} {args : List Val} (hs : MadeOn S E a) (ha : ∀ a ∈ args, MadeOn S E a) {v : Val} (h : copyOf E a args = .ok v) :
    MadeOn S E v := by
  obtain ⟨c1, c2, c3, c4, c5, c6, c7, c8, c9, c10, c11, c12, c13⟩ := C118_made E a v hs
  unfold copyOf at h
  split at h
  · split at h
    · exact (c1 _ _ (ha _ (by simp)) (ha _ (by simp)) h).1
    · exact (c2 _ _ _ _ (ha _ (by simp)) (ha _ (by simp)) (ha _ (by simp)) (ha _ (by simp)) h).1
    · exact (c3 _ _ (ha _ (by simp)) (ha _ (by simp)) h).1
    · exact (c4 _ (ha _ (by simp)) h).1
    · exact (c5 _ _ _ _ _ _ (ha _ (by simp)) (ha _ (by simp)) (ha _ (by simp)) (ha _ (by simp)) (ha _ (by simp)) (ha _ (by simp)) h).1
    · exact (c11 _ _ _ _ _ _ _ (ha _ (by simp)) (ha _ (by simp)) (ha _ (by simp)) (ha _ (by simp)) (ha _ (by simp)) (ha _ (by simp)) (ha _ (by simp)) h).1
    · exact (c12 _ _ _ _ _ _ _ (ha _ (by simp)) (ha _ (by simp)) (ha _ (by simp)) (ha _ (by simp)) (ha _ (by simp)) (ha _ (by simp)) (ha _ (by simp)) h).1
    · exact (c13 _ _ _ _ _ _ _ _ _ _ _ (ha _ (by simp)) (ha _ (by simp)) (ha _ (by simp)) (ha _ (by simp)) (ha _ (by simp)) (ha _ (by simp)) (ha _ (by simp)) (ha _ (by simp)) (ha _ (by simp)) (ha _ (by simp)) (ha _ (by simp)) h).1
    · exact (c6 _ _ _ (ha _ (by simp)) (ha _ (by simp)) (ha _ (by simp)) h).1
    · exact (c7 _ _ (ha _ (by simp)) (ha _ (by simp)) h).1
    · exact (c8 _ _ _ (ha _ (by simp)) (ha _ (by simp)) (ha _ (by simp)) h).1
    · exact (c9 _ _ _ _ _ (ha _ (by simp)) (ha _ (by simp)) (ha _ (by simp)) (ha _ (by simp)) (ha _ (by simp)) h).1
    · exact (c10 _ _ _ _ _ _ (ha _ (by simp)) (ha _ (by simp)) (ha _ (by simp)) (ha _ (by simp)) (ha _ (by simp)) (ha _ (by simp)) h).1
    · cases h
  · cases h

/-- Whatever a function of the library is called with, what it returns is something that can be made with the constructors. -/
theorem made_call {S : Network → Prop} {E : Env} {f : Fn} {args : List Val} (ha : ∀ a ∈ args, MadeOn S E a) {v : Val} (h : call E f args = .ok v) : MadeOn S E v := by
  unfold call at h
  split at h
  · exact made_init ha h
  · exact made_read (ha _ (by simp)) h
  · unfold readHexOf at h
    split at h
    · obtain ⟨b, -, h⟩ := (bind_ok_iff ..).1 h
      exact made_read (.bytes b) h
    · cases h
  · exact made_copy (ha _ (by simp)) (fun a h => ha a (.tail _ h)) h
  · exact (C121_made E _ _ _ .none (ha _ (by simp)) (ha _ (by simp)) (ha _ (by simp)) {} ⟨.none, .int _, .none, .none, .none, .none, .none, .none, .none⟩ _).1 h
  · exact (C121_made E _ _ _ .none (ha _ (by simp)) (ha _ (by simp)) (ha _ (by simp)) {} ⟨.none, .int _, .none, .none, .none, .none, .none, .none, .none⟩ _).2.1 h
  · exact (C121_made E _ _ _ .none (ha _ (by simp)) (ha _ (by simp)) (ha _ (by simp)) {} ⟨.none, .int _, .none, .none, .none, .none, .none, .none, .none⟩ _).2.2.1 h
  · exact (C121_made E _ .none .none .none (ha _ (by simp)) .none .none {} ⟨.none, .int _, .none, .none, .none, .none, .none, .none, .none⟩ _).2.2.2.1 h
  · exact (C121_made E _ .none .none .none (ha _ (by simp)) .none .none {} ⟨.none, .int _, .none, .none, .none, .none, .none, .none, .none⟩ _).2.2.2.2.1 h
  · exact (C121_made E _ _ _ .none (ha _ (by simp)) (ha _ (by simp)) (ha _ (by simp)) {} ⟨.none, .int _, .none, .none, .none, .none, .none, .none, .none⟩ _).2.2.2.2.2.1 h
  · exact (C121_made E _ _ .none .none (ha _ (by simp)) (ha _ (by simp)) .none {} ⟨.none, .int _, .none, .none, .none, .none, .none, .none, .none⟩ _).2.2.2.2.2.2.1 h
  · exact (C121_made E _ _ _ _ (ha _ (by simp)) (ha _ (by simp)) (ha _ (by simp)) {} ⟨.none, .int _, .none, .none, .none, .none, .none, .none, .none⟩ _).2.2.2.2.2.2.2.1 h
  · exact (C121_made E _ _ .none .none (ha _ (by simp)) (ha _ (by simp)) .none {} ⟨.none, .int _, .none, .none, .none, .none, .none, .none, .none⟩ _).2.2.2.2.2.2.2.2.1 h
  · exact (C121_made E _ _ _ _ (ha _ (by simp)) (ha _ (by simp)) (ha _ (by simp)) _ ⟨(ha _ (by simp)), (ha _ (by simp)), (ha _ (by simp)), (ha _ (by simp)), (ha _ (by simp)), (ha _ (by simp)), (ha _ (by simp)), (ha _ (by simp)), (ha _ (by simp))⟩ _).2.2.2.2.2.2.2.2.2 h
  · exact (C121_made_simple E _ _ .none .none (ha _ (by simp)) (ha _ (by simp)) .none {} ⟨.int _, .int _, .int _, .list _ all_nil, .list _ all_nil, .list _ all_nil⟩ _).1 h
  · exact (C121_made_simple E _ _ _ .none (ha _ (by simp)) (ha _ (by simp)) (ha _ (by simp)) {} ⟨.int _, .int _, .int _, .list _ all_nil, .list _ all_nil, .list _ all_nil⟩ _).2.1 h
  · exact (C121_made_simple E _ _ .none .none (ha _ (by simp)) (ha _ (by simp)) .none {} ⟨.int _, .int _, .int _, .list _ all_nil, .list _ all_nil, .list _ all_nil⟩ _).2.2.1 h
  · exact (C121_made_simple E _ _ .none .none (ha _ (by simp)) (ha _ (by simp)) .none _ ⟨(ha _ (by simp)), (ha _ (by simp)), (ha _ (by simp)), (ha _ (by simp)), (ha _ (by simp)), (ha _ (by simp))⟩ _).2.2.2.1 h
  · exact (C121_made_simple E _ _ _ _ (ha _ (by simp)) (ha _ (by simp)) (ha _ (by simp)) {} ⟨.int _, .int _, .int _, .list _ all_nil, .list _ all_nil, .list _ all_nil⟩ _).2.2.2.2 h
  · cases h

/-! ### sessions -/

theorem mapM_made {S : Network → Prop} {E : Env} {vals : List Val} (hv : ∀ v ∈ vals, MadeOn S E v) : ∀ (is : List Nat) (args : List Val),
    is.mapM (fun i => vals[i]?) = some args → ∀ a ∈ args, MadeOn S E a
  | [], args, h => by cases h; exact all_nil
  | i :: is, args, h => by
    rw [List.mapM_cons] at h
    cases hi : vals[i]? with
    | none => rw [hi] at h; cases h
    | some x =>
      rw [hi] at h
      cases hr : is.mapM (fun i => vals[i]?) with
      | none => rw [hr] at h; cases h
      | some r =>
        rw [hr] at h
        have h := Option.some.inj h
        rw [← h]
        exact all_cons (hv x (List.mem_of_getElem? hi)) (mapM_made hv is r hr)

/-- What an operation gives can be made. -/
theorem made_give {S : Network → Prop} {H : Hashes} {s : Session} (hv : ∀ v ∈ s.vals, MadeOn S ⟨s.net, H⟩ v) {o : Op} {v : Val} (h : s.give H o = some v) :
    MadeOn S ⟨s.net, H⟩ v := by
  cases o with
  | select name => cases h
  | lit l => cases h; cases l <;> constructor
  | list is =>
    obtain ⟨args, ha, rfl⟩ := Option.map_eq_some_iff.1 h
    exact .list _ (mapM_made hv is args ha)
  | tuple is =>
    obtain ⟨args, ha, rfl⟩ := Option.map_eq_some_iff.1 h
    exact .tuple _ (mapM_made hv is args ha)
  | elem i k =>
    simp only [Session.give] at h
    split at h
    · next l hl => exact made_seq (hv _ (List.mem_of_getElem? hl)) (.inl rfl) v (List.mem_of_getElem? h)
    · next l hl => exact made_seq (hv _ (List.mem_of_getElem? hl)) (.inr rfl) v (List.mem_of_getElem? h)
    · cases h
  | attr i k =>
    simp only [Session.give] at h
    split at h
    · next hl => exact made_attrs (hv _ (List.mem_of_getElem? hl)) v (List.mem_of_getElem? h)
    · cases h
  | call f is =>
    simp only [Session.give] at h
    split at h
    · next args ha =>
      refine made_call (mapM_made hv is args ha) (f := f) (args := args) ?_
      cases hc : Dyn.call ⟨s.net, H⟩ f args with
      | ok w => rw [hc] at h; cases h; rfl
      | error e => rw [hc] at h; cases h
    · cases h

theorem supported_select {name : PyStr} {n : Network} (h : n.Supported) : (selectNetwork name n).2.Supported := by
  unfold selectNetwork
  cases hg : getNetwork name with
  | ok m => exact List.mem_map.2 ⟨(name, m), (C33_lookup name m).1 hg, rfl⟩
  | error e => exact h

/-- What a program holds can be made, and a supported network is selected. -/
def Session.OK (H : Hashes) (s : Session) : Prop := s.net.Supported ∧ ∀ v ∈ s.vals, MadeOn Network.Supported ⟨s.net, H⟩ v

theorem step_ok {H : Hashes} {s : Session} (h : Session.OK H s) (o : Op) : Session.OK H (s.step H o) := by
  have hn : (s.step H o).net.Supported := by
    cases o with
    | select name => exact supported_select h.1
    | _ => exact h.1
  refine ⟨hn, fun v hv => made_select (E := ⟨s.net, H⟩) (E' := ⟨(s.step H o).net, H⟩) h.1 rfl ?_⟩
  rcases List.mem_append.1 hv with hv | hv
  · exact h.2 v hv
  · exact made_give h.2 (Option.mem_toList.1 hv)

theorem run_ok (H : Hashes) (ops : List Op) : Session.OK H (Session.run H ops) := by
  have key : ∀ (ops : List Op) (s : Session), Session.OK H s → Session.OK H (ops.foldl (Session.step H) s) := by
    intro ops
    induction ops with
    | nil => exact fun s h => h
    | cons o ops ih => exact fun s h => ih _ (step_ok h o)
  exact key ops _ ⟨List.mem_map.2 ⟨(pystr "bitcoin_main", bitcoinMain), (C33_lookup _ _).1 rfl, rfl⟩, all_nil⟩

theorem of_held {n m : Network} (hm : m.Supported) (h : n = m ∨ n.Supported) : n.Supported := by
  rcases h with rfl | h
  · exact hm
  · exact h

/-- C125: a program may write any values, make lists and tuples, take elements and attributes, select networks, and call the constructors, `from_bytes`, `from_hex`, `copy`, the
builder and the functions of simple.py with anything it holds, in any order and as long as it likes. A `Tx` that it then holds is a transaction: its bytes are those of a transaction
on the wire with inputs and outputs, all fields of their widths, and no witnesses or one for each input; its ids are the hashes, by the hash function of a supported network (the one
that was selected when the object was made), of the transaction without and with witnesses. -/
theorem C125_tx (H : Hashes) (ops : List Op) (v : Val) (h : v ∈ (Session.run H ops).vals) (hc : v.isInstance .tx = true) :
    ∃ w : WireTx, w.version.length = 4 ∧ w.lockTime.length = 4 ∧
      (w.ins ≠ [] ∧ w.ins.length < 2 ^ 64 ∧ ∀ i ∈ w.ins, i.WF ∧ i.script.length ≤ 1650) ∧ (w.outs ≠ [] ∧ w.outs.length < 2 ^ 64 ∧ ∀ o ∈ w.outs, o.WF) ∧
      (∀ ws, w.wits = some ws → (ws = [] ∨ ws.length = w.ins.length) ∧ ∀ s ∈ ws, WitWF s) ∧
      ∃ n : Network, n.Supported ∧ ∃ attrs, v = .obj .tx attrs w.bytes ∧
        attrs[6]? = some (.bytes (Env.hash256 ⟨n, H⟩ w.stripped)) ∧ attrs[8]? = some (.bytes (Env.hash256 ⟨n, H⟩ w.stripped).reverse) ∧
        (w.wits = none → attrs[7]? = some .none ∧ attrs[9]? = some .none) ∧
        (w.wits ≠ none → attrs[7]? = some (.bytes (Env.hash256 ⟨n, H⟩ w.bytes)) ∧ attrs[9]? = some (.bytes (Env.hash256 ⟨n, H⟩ w.bytes).reverse)) := by
  obtain ⟨hn, hv⟩ := run_ok H ops
  obtain ⟨w, h1, h2, h3, h4, h5, n, hs, h6⟩ := tx_on (fun _ h => h) _ hn v (hv v h) hc
  exact ⟨w, h1, h2, h3, h4, h5, n, of_held hn hs, h6⟩

/-- C125: an `OverwinterTx` that a program holds. -/
theorem C125_overwinter (H : Hashes) (ops : List Op) (v : Val) (h : v ∈ (Session.run H ops).vals) (hc : v.isInstance .overwinterTx = true) :
    ∃ w : ZTx, w.version = 3 ∧ w.WF ∧ (w.ins ≠ [] ∨ w.js ≠ []) ∧ w.js.length ≤ 5 ∧ leValue w.expiry ≤ 499999999 ∧ w.bytes.length ≤ 100000 ∧
      ∃ n : Network, n.Supported ∧ ∃ attrs, v = .obj .overwinterTx attrs w.bytes ∧
        attrs.drop 9 = [.bytes (Env.hash256 ⟨n, H⟩ w.bytes), .bytes (Env.hash256 ⟨n, H⟩ w.bytes).reverse] := by
  obtain ⟨hn, hv⟩ := run_ok H ops
  obtain ⟨w, h1, h2, h3, h4, h5, h6, n, hs, h7⟩ := overwinter_on _ v (hv v h) hc
  exact ⟨w, h1, h2, h3, h4, h5, h6, n, of_held hn hs, h7⟩

/-- C125: a `SaplingTx` that a program holds. -/
theorem C125_sapling (H : Hashes) (ops : List Op) (v : Val) (h : v ∈ (Session.run H ops).vals) (hc : v.isInstance .saplingTx = true) :
    ∃ w : ZTx, w.version = 4 ∧ w.WF ∧ (w.ins ≠ [] ∨ w.js ≠ [] ∨ w.spends ≠ []) ∧ w.js.length ≤ 5 ∧ leValue w.expiry ≤ 499999999 ∧ w.bytes.length ≤ 100000 ∧
      (w.spends = [] → w.outputs = [] → w.balance = List.replicate 8 0) ∧
      ∃ n : Network, n.Supported ∧ ∃ attrs, v = .obj .saplingTx attrs w.bytes ∧
        attrs.drop 13 = [.bytes (Env.hash256 ⟨n, H⟩ w.bytes), .bytes (Env.hash256 ⟨n, H⟩ w.bytes).reverse] := by
  obtain ⟨hn, hv⟩ := run_ok H ops
  obtain ⟨w, h1, h2, h3, h4, h5, h6, h7, n, hs, h8⟩ := sapling_on _ v (hv v h) hc
  exact ⟨w, h1, h2, h3, h4, h5, h6, h7, n, of_held hn hs, h8⟩

/-- C125: a `SproutTx` that a program holds; as C116 says of one network, a version 2 transaction without joinsplits has a key (and perhaps a signature) too many, and one with
joinsplits may lack the signature. -/
theorem C125_sprout (H : Hashes) (ops : List Op) (v : Val) (h : v ∈ (Session.run H ops).vals) (hc : v.isInstance .sproutTx = true) :
    ∃ w : ZTx, ∃ b : Bytes, (w.version = 1 ∧ w.ins ≠ [] ∧ w.js = [] ∨ w.version = 2 ∧ w.jsPubkey.length = 32) ∧ (w.jsSig ≠ [] ∨ w.js = [] → w.WF) ∧
      (∀ s : Bytes, s.length = 64 → ({ w with jsSig := s } : ZTx).WF) ∧ w.js.length ≤ 5 ∧
      b.length ≤ 100000 ∧ (b = w.bytes ∧ ¬(w.version = 2 ∧ w.js = []) ∨ w.version = 2 ∧ w.js = [] ∧ b = w.bytes ++ w.jsPubkey ++ w.jsSig) ∧ (w.jsSig = [] ∨ w.jsSig.length = 64) ∧
      ∃ n : Network, n.Supported ∧ ∃ attrs, v = .obj .sproutTx attrs b ∧ attrs.drop 9 = [.bytes (Env.hash256 ⟨n, H⟩ b), .bytes (Env.hash256 ⟨n, H⟩ b).reverse] := by
  obtain ⟨hn, hv⟩ := run_ok H ops
  obtain ⟨w, b, h1, h2, h3, h4, h5, h6, h7, n, hs, h8⟩ := sprout_on _ v (hv v h) hc
  exact ⟨w, b, h1, h2, h3, h4, h5, h6, h7, n, of_held hn hs, h8⟩

/-- C125: a `DecredTx` that a program holds. -/
theorem C125_decred (H : Hashes) (ops : List Op) (v : Val) (h : v ∈ (Session.run H ops).vals) (hc : v.isInstance .dcrTx = true) :
    ∃ w : DcrTx, w.version.length = 4 ∧ w.lockTime.length = 4 ∧ w.expiry.length = 4 ∧
      (w.ins ≠ [] ∧ w.ins.length < 2 ^ 64 ∧ ∀ i ∈ w.ins, i.txId.length = 32 ∧ i.index.length = 4 ∧ i.tree.length = 1 ∧ i.sequence.length = 4) ∧
      (w.outs ≠ [] ∧ w.outs.length < 2 ^ 64 ∧ ∀ o ∈ w.outs, o.value.length = 8 ∧ o.version.length = 2 ∧ o.script.length < 2 ^ 64) ∧
      (w.wits.length < 2 ^ 64 ∧ ∀ x ∈ w.wits, x.value.length = 8 ∧ x.height.length = 4 ∧ x.index.length = 4 ∧ x.script.length < 2 ^ 64) ∧ w.bytes.length ≤ 100000 ∧
      ∃ attrs b, v = .obj .dcrTx attrs w.bytes ∧ attrs.drop 6 = [.bytes (blake256 b), .bytes (blake256 b).reverse] ∧
        b = dcrPrefix w.version (w.ins.map fun i => dcrIn i.txId i.index i.tree i.sequence) (w.outs.map fun o => dcrOut o.value o.version o.script) w.lockTime w.expiry := by
  obtain ⟨-, hv⟩ := run_ok H ops
  exact C117_safe _ v (hv v h) hc

theorem made_parts {E : Env} {v : Val} (hm : MadeOn Network.Supported E v) :
    (v.isInstance .txIn = true → ∃ w : WireIn, (w.WF ∧ w.script.length ≤ 1650) ∧ v.content = some w.bytes) ∧
    (v.isInstance .txOut = true → ∃ w : WireOut, w.WF ∧ v.content = some w.bytes) ∧
    (v.isInstance .witness = true → ∃ w : List Bytes, WitWF w ∧ v.content = some (wireWitness w)) ∧
    (v.isInstance .sproutJs = true → ∃ b : Bytes, b.length = 1802 ∧ (leValue (b.take 8) = 0 ∨ leValue ((b.drop 8).take 8) = 0) ∧ v.content = some b) ∧
    (v.isInstance .saplingJs = true → ∃ b : Bytes, b.length = 1698 ∧ (leValue (b.take 8) = 0 ∨ leValue ((b.drop 8).take 8) = 0) ∧ v.content = some b) ∧
    (v.isInstance .saplingSpend = true → ∃ s : Bytes × Bytes, (s.1.length = 320 ∧ s.2.length = 64) ∧ v.content = some (s.1 ++ s.2)) ∧
    (v.isInstance .saplingOutput = true → ∃ b : Bytes, b.length = 948 ∧ v.content = some b) := by
  refine ⟨C114_safe_in _ v hm, C114_safe_out _ v hm, C114_safe_witness _ v hm, fun hc => ?_, fun hc => ?_, C116_safe_spend _ v hm, C116_safe_output _ v hm⟩
  · obtain ⟨b, h1, h2, h3, -⟩ := C116_safe_sproutJs _ v hm hc
    exact ⟨b, h1, h2, h3⟩
  · obtain ⟨b, h1, h2, h3, -⟩ := C116_safe_saplingJs _ v hm hc
    exact ⟨b, h1, h2, h3⟩

/-- C125: the parts of transactions that a program holds: inputs, outputs and witnesses; joinsplits, which move value in at most one direction; spends and outputs of Sapling. -/
theorem C125_parts (H : Hashes) (ops : List Op) (v : Val) (h : v ∈ (Session.run H ops).vals) :
    (v.isInstance .txIn = true → ∃ w : WireIn, (w.WF ∧ w.script.length ≤ 1650) ∧ v.content = some w.bytes) ∧
    (v.isInstance .txOut = true → ∃ w : WireOut, w.WF ∧ v.content = some w.bytes) ∧
    (v.isInstance .witness = true → ∃ w : List Bytes, WitWF w ∧ v.content = some (wireWitness w)) ∧
    (v.isInstance .sproutJs = true → ∃ b : Bytes, b.length = 1802 ∧ (leValue (b.take 8) = 0 ∨ leValue ((b.drop 8).take 8) = 0) ∧ v.content = some b) ∧
    (v.isInstance .saplingJs = true → ∃ b : Bytes, b.length = 1698 ∧ (leValue (b.take 8) = 0 ∨ leValue ((b.drop 8).take 8) = 0) ∧ v.content = some b) ∧
    (v.isInstance .saplingSpend = true → ∃ s : Bytes × Bytes, (s.1.length = 320 ∧ s.2.length = 64) ∧ v.content = some (s.1 ++ s.2)) ∧
    (v.isInstance .saplingOutput = true → ∃ b : Bytes, b.length = 948 ∧ v.content = some b) :=
  made_parts ((run_ok H ops).2 v h)

theorem made_small {E : Env} {v : Val} (hm : MadeOn Network.Supported E v) :
    (v.isInstance .outpoint = true → ∃ b : Bytes, b.length = 36 ∧ v.content = some b) ∧
    (v.isInstance .item = true → ∃ b : Bytes, b.length < 2 ^ 64 ∧ v.content = some (varBytes b)) ∧
    (v.isInstance .sproutProof = true → ∃ b : Bytes, b.length = 296 ∧ v.content = some b) ∧
    (v.isInstance .saplingProof = true → ∃ b : Bytes, b.length = 192 ∧ v.content = some b) ∧
    (v.isInstance .dcrOutpoint = true → ∃ b : Bytes, b.length = 37 ∧ v.content = some b) ∧
    (v.isInstance .dcrTxIn = true → ∃ b : Bytes, b.length = 41 ∧ v.content = some b) ∧
    (v.isInstance .dcrTxOut = true → ∃ x y s : Bytes, (x.length = 8 ∧ y.length = 2 ∧ s.length < 2 ^ 64) ∧ v.content = some (dcrOut x y s)) ∧
    (v.isInstance .dcrWitness = true → ∃ x y z s : Bytes, (x.length = 8 ∧ y.length = 4 ∧ z.length = 4 ∧ s.length < 2 ^ 64) ∧ v.content = some (Spec.dcrWitness x y z s)) := by
  have inv : ∀ c, v.isInstance c = true → ∃ n, MadeBy (MadeOn Network.Supported E) ⟨n, E.H⟩ v c := by
    intro c hc
    cases v <;> simp [Val.isInstance] at hc
    next c' t x =>
    subst hc
    obtain ⟨n, -, h⟩ := made_on hm
    exact ⟨n, h⟩
  refine ⟨fun hc => ?_, fun hc => ?_, fun hc => ?_, fun hc => ?_, fun hc => ?_, fun hc => ?_, fun hc => ?_, fun hc => ?_⟩
  · obtain ⟨n, a, b, h⟩ := inv _ hc
    obtain ⟨x, y, -, -, l1, l2, rfl⟩ := ((C114_outpoint _ _).1 _).1 h
    exact ⟨_, by rw [List.length_append, l1, l2], rfl⟩
  · obtain ⟨n, a, h⟩ := inv _ hc
    obtain ⟨x, -, l, rfl⟩ := ((C114_item _).1 _).1 h
    exact ⟨x, l, rfl⟩
  · cases v <;> simp [Val.isInstance] at hc
    next c t x => subst hc; exact ⟨x, safe_sproutProof hm (by simp [Val.isInstance]) rfl, rfl⟩
  · cases v <;> simp [Val.isInstance] at hc
    next c t x => subst hc; exact ⟨x, safe_saplingProof hm (by simp [Val.isInstance]) rfl, rfl⟩
  · obtain ⟨n, a, b, c, h⟩ := inv _ hc
    obtain ⟨-, bs, hf, rfl⟩ := ((C117_outpoint _ _ _ _).1 _).1 h
    have hl := fields_length hf
    exact ⟨_, by rw [List.length_flatten, hl]; rfl, rfl⟩
  · obtain ⟨n, a, b, h⟩ := inv _ hc
    obtain ⟨-, bs, hf, rfl⟩ := ((C117_txIn _ _ _).1 _).1 h
    have hl := fields_length hf
    exact ⟨_, by rw [List.length_flatten, hl]; rfl, rfl⟩
  · obtain ⟨n, a, b, c, h⟩ := inv _ hc
    obtain ⟨-, x, y, z, hf, -, l, rfl⟩ := ((C117_txOut _ _ _ _).1 _).1 h
    have hl := fields_length hf
    simp only [List.map_cons, List.map_nil, List.cons.injEq] at hl
    exact ⟨x, y, z, ⟨hl.1, hl.2.1, l⟩, rfl⟩
  · obtain ⟨n, a, b, c, d, e, h⟩ := inv _ hc
    obtain ⟨-, x, y, z, s, r, sig, hf, -, -, l, -, -, rfl⟩ := ((C117_witness _ _ _ _ _ _).1 _).1 h
    have hl := fields_length hf
    simp only [List.map_cons, List.map_nil, List.cons.injEq] at hl
    exact ⟨x, y, z, s ++ r, ⟨hl.1, hl.2.1, hl.2.2.1, l⟩, rfl⟩

/-- C125: the same of outpoints, stack items, proofs, and the parts of Decred transactions. -/
theorem C125_small (H : Hashes) (ops : List Op) (v : Val) (h : v ∈ (Session.run H ops).vals) :
    (v.isInstance .outpoint = true → ∃ b : Bytes, b.length = 36 ∧ v.content = some b) ∧
    (v.isInstance .item = true → ∃ b : Bytes, b.length < 2 ^ 64 ∧ v.content = some (varBytes b)) ∧
    (v.isInstance .sproutProof = true → ∃ b : Bytes, b.length = 296 ∧ v.content = some b) ∧
    (v.isInstance .saplingProof = true → ∃ b : Bytes, b.length = 192 ∧ v.content = some b) ∧
    (v.isInstance .dcrOutpoint = true → ∃ b : Bytes, b.length = 37 ∧ v.content = some b) ∧
    (v.isInstance .dcrTxIn = true → ∃ b : Bytes, b.length = 41 ∧ v.content = some b) ∧
    (v.isInstance .dcrTxOut = true → ∃ x y s : Bytes, (x.length = 8 ∧ y.length = 2 ∧ s.length < 2 ^ 64) ∧ v.content = some (dcrOut x y s)) ∧
    (v.isInstance .dcrWitness = true → ∃ x y z s : Bytes, (x.length = 8 ∧ y.length = 4 ∧ z.length = 4 ∧ s.length < 2 ^ 64) ∧ v.content = some (Spec.dcrWitness x y z s)) :=
  made_small ((run_ok H ops).2 v h)

/-- A program that makes a transaction on Bitcoin, of a bytearray and of what it has read, fails to select a network, selects another, fails to make a transaction of a number,
copies the transaction with two inputs taken out of its own tuple of inputs, and reads the id of the copy. -/
def exSession : List Op :=
  [.lit (.bytearray (List.replicate 36 7)), .lit (.bytes []), .lit (.int 0xFFFFFFFF), .call .makeLegacyInput [0, 1, 1, 2],
   .lit (.str (pystr "01000000000000000151")), .call (.fromHex .txOut) [4],
   .list [3], .tuple [5], .lit .none, .lit (.int 2), .lit (.int 0), .call .makeTx [9, 6, 7, 10, 8, 10, 8, 8, 8, 8, 8, 8, 8],
   .select (pystr "no_network"), .select (pystr "litecoin_main"), .call (.init .tx) [9, 8, 6, 7, 8, 1],
   .attr 11 2, .elem 12 0, .tuple [13, 13], .call .copy [11, 8, 8, 14, 8, 8, 8], .attr 15 8]

/-- What it holds at the end: 17 values, among them a transaction with one input, one with two, and the id. -/
example : (Session.run toyEnv.H exSession).net = litecoinMain ∧ (Session.run toyEnv.H exSession).vals.length = 17 ∧
    ((Session.run toyEnv.H exSession).vals.map (·.isInstance .tx)) = [false, false, false, false, false, false, false, false, false, false, false, true, false, false, false, true, false] ∧
    ((Session.run toyEnv.H exSession).vals[15]?.bind Val.content) =
      some ([2, 0, 0, 0, 2] ++ (List.replicate 36 7 ++ [0, 255, 255, 255, 255]) ++ (List.replicate 36 7 ++ [0, 255, 255, 255, 255]) ++ [1, 1, 0, 0, 0, 0, 0, 0, 0, 1, 0x51] ++ [0, 0, 0, 0]) ∧
    (∃ b, (Session.run toyEnv.H exSession).vals[16]? = some (.bytes b)) := by
  refine ⟨?_, ?_, ?_, ?_, ?_⟩
  · decide +kernel
  · decide +kernel
  · decide +kernel
  · decide +kernel
  · exact ⟨_, rfl⟩

/-- An input and an output, made on Bitcoin (values 4 and 7), then a list and a tuple of them, and some values. -/
def exParts : List Op :=
  [.lit (.bytes (List.replicate 36 7)), .lit (.bytes []), .lit (.bytes [0, 0, 0, 0]), .lit (.bytearray [0, 0, 0, 0, 0, 0, 0, 0]), .call (.init .txIn) [0, 1, 1, 2],
   .lit .none, .lit (.bytes [2, 0, 0, 0]), .call (.init .txOut) [3, 1], .list [4], .tuple [7], .tuple []]

/-- They are used on the networks of Zcash: there are transactions of each of the three kinds; the last is copied, and the attributes of the copy are used for another. -/
example : (((Session.run toyEnv.H (exParts ++ [.select (pystr "zcash_overwinter_main"), .call (.init .overwinterTx) [8, 9, 2, 2, 10, 5, 5]])).vals.map (·.isInstance .overwinterTx)).count true = 1) ∧
    (((Session.run toyEnv.H (exParts ++ [.select (pystr "zcash_sprout_main"), .lit (.bytes [1, 0, 0, 0]), .call (.init .sproutTx) [11, 8, 9, 2, 10, 5, 5]])).vals.map (·.isInstance .sproutTx)).count true = 1) ∧
    (((Session.run toyEnv.H (exParts ++ [.select (pystr "zcash_sapling_main"), .call (.init .saplingTx) [8, 9, 2, 2, 3, 10, 10, 10, 5, 5, 5],
      .call .copy [11, 5, 5, 6, 5, 5, 5, 5, 5, 5, 5, 5], .attr 12 1, .call (.init .saplingTx) [13, 9, 6, 2, 3, 10, 10, 10, 5, 5, 5]])).vals.map (·.isInstance .saplingTx)).count true = 3) := by
  refine ⟨?_, ?_, ?_⟩ <;> decide +kernel

/-- On Decred, an outpoint is read, and with it an input and a transaction are made; the transaction with a witness is a copy of one without. -/
example : ((Session.run toyEnv.H (exParts ++ [.select (pystr "decred_main"), .lit (.bytearray (List.replicate 37 9)), .call (.fromBytes .dcrOutpoint) [11], .call (.init .dcrTxIn) [12, 2],
      .lit (.bytes [0, 0]), .call .makeOutput [3, 1, 14], .tuple [13], .list [15], .call (.init .dcrTx) [6, 16, 17, 2, 2, 10],
      .call (.init .dcrWitness) [3, 2, 2, 1, 1], .list [19], .call .copy [18, 5, 5, 5, 5, 5, 20]])).vals.map (·.isInstance .dcrTx)).count true = 2 := by
  decide +kernel

end Verif.Props
