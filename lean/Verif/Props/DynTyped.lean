import Verif.Props.DynSafe
import Verif.Model.DynEmbed
import Verif.Props.Tx

/-! Properties C114 and C115, continued: on arguments of the annotated types the constructors are those of the model with types, and which bytes-like arguments are interchangeable. -/

namespace Verif.Props
open Verif Spec

theorem validate_bytes (b : Bytes) (n : Option Nat) : Val.validate (.bytes b) n = validateBytes b n := by cases n <;> rfl

theorem contents_emb {α : Type} (f : α → Val) (g : α → Bytes) (h : ∀ a, (f a).content = some (g a)) (l : List α) : Contents (l.map f) (l.map g) := by
  induction l with
  | nil => rfl
  | cons a l ih => simpa [Contents, h a] using ih

theorem all_emb {α : Type} (f : α → Val) (c : Cls) (h : ∀ a, (f a).isInstance c = true) (l : List α) : (l.map f).all (Val.isInstance c) = true := by
  rw [List.all_eq_true]; intro v hv; obtain ⟨a, -, rfl⟩ := List.mem_map.1 hv; exact h a

theorem iaddAll_emb {α : Type} (f : α → Val) (g : α → Bytes) (h : ∀ a, (f a).content = some (g a)) (l : List α) (self : Bytes) :
    Val.iaddAll self (l.map f) = .ok (self ++ l.flatMap g) := by
  rw [iaddAll_ok (contents_emb f g h l), List.flatMap_def]

theorem instances_emb {α : Type} (f : α → Val) (c : Cls) (h : ∀ a, (f a).isInstance c = true) (l : List α) {v : Val} (hv : IsSeq v (l.map f)) :
    v.allInstances c = .ok () := allInstances_ok.2 ⟨_, hv.iter.1, all_emb f c h l⟩

theorem map_bind {α β γ : Type} (x : Py α) (f : α → Py β) (g : β → γ) : Except.map g (x >>= f) = x >>= fun a => Except.map g (f a) := by
  cases x <;> rfl

/-- C114: on `bytes` arguments, and objects of the class, `Outpoint`, `TxIn`, `TxOut`, `WitnessStackItem` and `InputWitness` are the constructors of the model with types;
results and exceptions agree. -/
theorem C114_typed_parts :
    (∀ a b : Bytes, Dyn.outpoint (.bytes a) (.bytes b) = (Outpoint.make a b).map embO) ∧
    (∀ (o : Outpoint) (s r q : Bytes), Dyn.txIn (embO o) (.bytes s) (.bytes r) (.bytes q) = (TxIn.make o s r q).map embIn) ∧
    (∀ a b : Bytes, Dyn.txOut (.bytes a) (.bytes b) = (TxOut.make a b).map embOut) ∧
    (∀ a : Bytes, Dyn.item (.bytes a) = (WitnessStackItem.make a).map embItem) ∧
    (∀ (s : Val) (l : List WitnessStackItem), IsSeq s (l.map embItem) → Dyn.witness s = (InputWitness.make l).map embWit) := by
  refine ⟨fun a b => ?_, fun o s r q => ?_, fun a b => ?_, fun a => ?_, fun s l hs => ?_⟩
  · unfold Dyn.outpoint Outpoint.make
    simp only [validate_bytes, map_bind]
    rfl
  · unfold Dyn.txIn TxIn.make
    have h1 : Val.validate (embO o) (some 36) = validateBytes o.bytes (some 36) := rfl
    simp only [validate_bytes, map_bind, h1]
    simp only [Val.len, Val.iadd, Val.content, embO, Val.add, ok_bind, List.nil_append]
    rfl
  · unfold Dyn.txOut TxOut.make
    simp only [validate_bytes, map_bind]
    simp only [Val.len, Val.iadd, Val.content, ok_bind, List.nil_append]
    rfl
  · unfold Dyn.item WitnessStackItem.make
    simp only [validate_bytes, map_bind]
    simp only [Val.len, Val.iadd, Val.content, ok_bind]
    rfl
  · unfold Dyn.witness InputWitness.make
    rw [instances_emb embItem .item (fun _ => rfl) l hs, hs.iter.1, hs.iter.2]
    simp only [ok_bind, map_bind, iaddAll_emb embItem (·.bytes) (fun _ => rfl), List.length_map]
    rfl

/-- C114: on arguments of the annotated types, `Tx(…)` is the constructor of the model with types; results and exceptions agree. So what the other theorems say about `Tx.make`
holds of the constructor with its tests of types. -/
theorem C114_typed (E : Env) (version lockTime : Bytes) (flag : Option Bytes) (ins : List TxIn) (outs : List TxOut) (wits : Option (List InputWitness)) (si so sw : Val)
    (hi : IsSeq si (ins.map embIn)) (ho : IsSeq so (outs.map embOut)) (hw : ∀ ws, wits = some ws → IsSeq sw (ws.map embWit)) (hw0 : wits = none → sw = .none) :
    Dyn.tx E (.bytes version) (embOpt flag) si so sw (.bytes lockTime) = (Tx.make E version flag ins outs wits lockTime).map embTx := by
  have hf : Dyn.checkFlag E (embOpt flag) = Tx.checkFlag E flag := by
    cases flag with
    | none => rfl
    | some f =>
      show (if f != E.net.segwitTxFlag then (.error .valueError : Py Unit) else .ok ()) = check (f = E.net.segwitTxFlag) .valueError
      unfold check
      by_cases h : f = E.net.segwitTxFlag <;> simp [h]
  have hcw : Dyn.checkWitnesses (embOpt flag) si sw = Tx.checkWitnesses flag ins wits := by
    cases wits with
    | none => rw [hw0 rfl]; rfl
    | some ws =>
      have hs := hw ws rfl
      have e : Dyn.checkWitnesses (embOpt flag) si sw = (do
          let n ← sw.len
          if n ≠ 0 then
            match embOpt flag with
            | .none => .error .valueError
            | _ => do
              let ni ← si.len
              check (n = ni) .valueError
              sw.allInstances .witness
          else .ok ()) := by
        rcases hs with rfl | rfl <;> rfl
      rw [e, hs.iter.2, hi.iter.2, instances_emb embWit .witness (fun _ => rfl) ws hs]
      simp only [ok_bind, List.length_map, Tx.checkWitnesses]
      split
      · cases flag with
        | none => rfl
        | some f =>
          simp only [embOpt, Option.elim, Option.isSome, check, if_true, ok_bind]
          split <;> rfl
      · rfl
  have haw : ∀ self, Dyn.addWitnesses self sw = .ok (self ++ (wits.getD []).flatMap (·.bytes), embWits wits) := by
    intro self
    cases wits with
    | none => rw [hw0 rfl]; simp [Dyn.addWitnesses, embWits]
    | some ws =>
      have hs := hw ws rfl
      have e : Dyn.addWitnesses self sw = (do let ws ← sw.iter; let self ← Val.iaddAll self ws; .ok (self, .tuple ws)) := by
        rcases hs with rfl | rfl <;> rfl
      rw [e, hs.iter.1]
      simp only [ok_bind, iaddAll_emb embWit (·.bytes) (fun _ => rfl)]
      rfl
  have haf : ∀ self, Dyn.addFlag self (embOpt flag) = .ok (self ++ flag.getD []) := by
    intro self; cases flag <;> simp [Dyn.addFlag, embOpt, Val.iadd, Val.content]
  have hnw : Dyn.noWitness (.bytes version) (ins.map embIn) (outs.map embOut) (.bytes lockTime) = Tx.noWitness' version ins outs lockTime := by
    unfold Dyn.noWitness Tx.noWitness'
    simp only [Val.addTo, ok_bind, List.length_map, iaddAll_emb embIn (·.bytes) (fun _ => rfl), iaddAll_emb embOut (·.bytes) (fun _ => rfl), List.nil_append]
  unfold Dyn.tx Tx.make
  rw [validate_bytes, validate_bytes, hf, hcw, hi.iter.1, hi.iter.2, ho.iter.1, ho.iter.2, instances_emb embIn .txIn (fun _ => rfl) ins hi,
    instances_emb embOut .txOut (fun _ => rfl) outs ho]
  have hv : ∀ (self b : Bytes), Val.iadd self (.bytes b) = .ok (self ++ b) := fun _ _ => rfl
  simp only [ok_bind, map_bind, hv, haf, List.length_map, iaddAll_emb embIn (·.bytes) (fun _ => rfl), iaddAll_emb embOut (·.bytes) (fun _ => rfl), haw, hnw, List.nil_append]
  cases flag with
  | none => rfl
  | some f =>
    simp only [embOpt, Option.elim, Option.isSome, if_true, map_bind]
    rfl

/-! ### a case -/

/-- An input whose outpoint is a bytearray of 36 bytes, an output, an item, a witness with a tuple. -/
def valIn : Val := .obj .txIn [.bytearray (List.replicate 36 7), .bytes [], .bytearray [1], .bytes [1], .bytes [255, 255, 255, 255]]
  (List.replicate 36 7 ++ [1, 1, 255, 255, 255, 255])
def valOut : Val := .obj .txOut [.bytes [1, 0, 0, 0, 0, 0, 0, 0], .obj .other [] [0x51]] [1, 0, 0, 0, 0, 0, 0, 0, 1, 0x51]
def valItem : Val := .obj .item [.bytes [9, 9]] [2, 9, 9]
def valWit : Val := .obj .witness [.tuple [valItem]] [1, 2, 9, 9]

theorem valIn_made : Made toyEnv valIn :=
  .txIn (.bytearray (List.replicate 36 7)) (.bytes []) (.bytearray [1]) (.bytes [255, 255, 255, 255]) _ (.bytearray _) (.bytes _) (.bytearray _) (.bytes _) rfl
theorem valOut_made : Made toyEnv valOut := .txOut (.bytes [1, 0, 0, 0, 0, 0, 0, 0]) (.obj .other [] [0x51]) _ (.bytes _) (.other _) rfl
theorem valWit_made : Made toyEnv valWit :=
  .witness (.list [valItem]) _ (.list _ fun v hv => by
    rw [List.mem_singleton.1 hv]
    exact .item (.bytes [9, 9]) _ (.bytes _) rfl) rfl

/-- A transaction with a witness, made of a list, a tuple, and a bytearray as flag. -/
example : ∃ v, Made toyEnv v ∧ v.isInstance .tx = true ∧
    v.content = some ([2, 0, 0, 0, 0, 1, 1] ++ (List.replicate 36 7 ++ [1, 1, 255, 255, 255, 255]) ++ [1] ++ [1, 0, 0, 0, 0, 0, 0, 0, 1, 0x51] ++ [1, 2, 9, 9] ++ [0, 0, 0, 0]) :=
  ⟨_, .tx (.bytes [2, 0, 0, 0]) (.bytearray [0, 1]) (.list [valIn]) (.tuple [valOut]) (.list [valWit]) (.bytes [0, 0, 0, 0]) _ (.bytes _) (.bytearray _)
      (.list _ fun v hv => by rw [List.mem_singleton.1 hv]; exact valIn_made)
      (.tuple _ fun v hv => by rw [List.mem_singleton.1 hv]; exact valOut_made)
      (.list _ fun v hv => by rw [List.mem_singleton.1 hv]; exact valWit_made) (.bytes _) rfl, rfl, rfl⟩

example : Dyn.tx toyEnv (.bytes [2, 0, 0, 0]) (.str (pystr "0001")) (.list [valIn]) (.list [valOut]) .none (.bytes [0, 0, 0, 0]) = .error .attributeError ∧
    Dyn.tx toyEnv (.bytes [2, 0, 0, 0]) .none (.list [valOut]) (.list [valOut]) .none (.bytes [0, 0, 0, 0]) = .error .valueError ∧
    Dyn.tx toyEnv (.bytes [2, 0, 0, 0]) .none .none (.list [valOut]) .none (.bytes [0, 0, 0, 0]) = .error .typeError := ⟨rfl, rfl, rfl⟩

/-! ### C115: bytes-like arguments are interchangeable -/

/-- C115: `Outpoint`, `TxOut` and `WitnessStackItem` look at nothing but the bytes of their arguments: `bytes`, `bytearray` and `ByteData` objects with the same bytes give objects
with the same bytes, or the same exception. -/
theorem C115_same :
    (∀ a a' b b' : Val, a.content = a'.content → b.content = b'.content → (Dyn.outpoint a b).map Val.content = (Dyn.outpoint a' b').map Val.content) ∧
    (∀ a a' b b' : Val, a.content = a'.content → b.content = b'.content → (Dyn.txOut a b).map Val.content = (Dyn.txOut a' b').map Val.content) ∧
    (∀ a a' : Val, a.content = a'.content → (Dyn.item a).map Val.content = (Dyn.item a').map Val.content) := by
  refine ⟨fun a a' b b' ha hb => ?_, fun a a' b b' ha hb => ?_, fun a a' ha => ?_⟩
  · obtain ⟨h1, h2⟩ := C114_outpoint a b
    obtain ⟨h1', h2'⟩ := C114_outpoint a' b'
    cases h : Dyn.outpoint a b with
    | ok v =>
      obtain ⟨x, y, hx, hy, lx, ly, rfl⟩ := (h1 v).1 h
      rw [(h1' _).2 ⟨x, y, ha.symm.trans hx, hb.symm.trans hy, lx, ly, rfl⟩]; rfl
    | error e =>
      cases h' : Dyn.outpoint a' b' with
      | ok v =>
        obtain ⟨x, y, hx, hy, lx, ly, -⟩ := (h1' v).1 h'
        rw [(h1 _).2 ⟨x, y, ha.trans hx, hb.trans hy, lx, ly, rfl⟩] at h; cases h
      | error e' => rw [h2 e h, h2' e' h']
  · obtain ⟨h1, h2⟩ := C114_txOut a b
    obtain ⟨h1', h2'⟩ := C114_txOut a' b'
    cases h : Dyn.txOut a b with
    | ok v =>
      obtain ⟨x, y, hx, hy, lx, ly, rfl⟩ := (h1 v).1 h
      rw [(h1' _).2 ⟨x, y, ha.symm.trans hx, hb.symm.trans hy, lx, ly, rfl⟩]; rfl
    | error e =>
      cases h' : Dyn.txOut a' b' with
      | ok v =>
        obtain ⟨x, y, hx, hy, lx, ly, -⟩ := (h1' v).1 h'
        rw [(h1 _).2 ⟨x, y, ha.trans hx, hb.trans hy, lx, ly, rfl⟩] at h; cases h
      | error e' => rw [h2 e h, h2' e' h']
  · obtain ⟨h1, h2⟩ := C114_item a
    obtain ⟨h1', h2'⟩ := C114_item a'
    cases h : Dyn.item a with
    | ok v =>
      obtain ⟨x, hx, lx, rfl⟩ := (h1 v).1 h
      rw [(h1' _).2 ⟨x, ha.symm.trans hx, lx, rfl⟩]; rfl
    | error e =>
      cases h' : Dyn.item a' with
      | ok v =>
        obtain ⟨x, hx, lx, -⟩ := (h1' v).1 h'
        rw [(h1 _).2 ⟨x, ha.trans hx, lx, rfl⟩] at h; cases h
      | error e' => rw [h2 e h, h2' e' h']

/-- C115 for `TxIn`: the outpoint and the sequence may be any bytes-like values; the scripts may be exchanged for others with the same bytes if these are `bytes` or `bytearray`.
The full property, that they may be `ByteData` objects too, is false: `C115_false`. -/
theorem C115_txIn_partial (o o' s s' r r' q q' v : Val) (ho : o.content = o'.content) (hs : s.content = s'.content) (hr : r.content = r'.content)
    (hq : q.content = q'.content) (hs' : RawBytes s') (hr' : RawBytes r') (h : Dyn.txIn o s r q = .ok v) :
    ∃ v', Dyn.txIn o' s' r' q' = .ok v' ∧ v'.content = v.content := by
  obtain ⟨bo, bs, br, bq, sig, h1, h2, h3, h4, -, -, lo, hl, lq, -, -, -, rfl⟩ := ((C114_txIn o s r q).1 v).1 h
  obtain ⟨sig', ha⟩ := add_ok.2 ⟨hs', hr'⟩
  have hc := add_content ha (hs.symm.trans h2) (hr.symm.trans h3)
  have hraw : RawBytes sig' := by
    unfold Val.add at ha
    split at ha <;> cases ha <;> first | exact ⟨_, .inl rfl⟩ | exact ⟨_, .inr rfl⟩
  exact ⟨_, ((C114_txIn o' s' r' q').1 _).2 ⟨bo, bs, br, bq, sig', ho.symm.trans h1, hs.symm.trans h2, hr.symm.trans h3, hq.symm.trans h4, hs', hr', lo, hl, lq, hraw, hc,
    ha, rfl⟩, rfl⟩

/-- C115 for `Tx`: version, flag and lock time may be exchanged for others with the same bytes; if there is a flag, version and lock time must be `bytes` or `bytearray`. -/
theorem C115_tx_partial (E : Env) (hn : E.net.Supported) (version version' flag flag' txIns txOuts txWitnesses lockTime lockTime' v : Val)
    (hv : version.content = version'.content) (hl : lockTime.content = lockTime'.content) (hf : flag.content = flag'.content) (hf0 : flag = .none ↔ flag' = .none)
    (hr : flag = .none ∨ RawBytes version' ∧ RawBytes lockTime') (h : Dyn.tx E version flag txIns txOuts txWitnesses lockTime = .ok v) :
    ∃ v', Dyn.tx E version' flag' txIns txOuts txWitnesses lockTime' = .ok v' ∧ v'.content = v.content := by
  obtain ⟨bv, bl, ins, outs, bi, bo, stored, bw, ha, hw, hd⟩ := (C114_tx E hn _ _ _ _ _ _ _).1 h
  have ha' : TxArgs version' txIns txOuts lockTime' bv bl ins outs bi bo :=
    { ha with version := hv.symm.trans ha.version, lock := hl.symm.trans ha.lock }
  have hw' : WitsOK flag' txWitnesses ins.length stored bw := by
    rcases hw with h | h | ⟨l, h1, h2⟩
    · exact .inl h
    · exact .inr (.inl h)
    · exact .inr (.inr ⟨l, fun e => h1 (hf0.2 e), h2⟩)
  rcases hd with ⟨rfl, rfl⟩ | ⟨hc, r1, r2, rfl⟩
  · exact ⟨_, (C114_tx E hn _ _ _ _ _ _ _).2 ⟨bv, bl, ins, outs, bi, bo, stored, bw, ha', hw', .inl ⟨hf0.1 rfl, rfl⟩⟩, rfl⟩
  · have hne : flag ≠ .none := by rintro rfl; cases hc
    obtain ⟨r1', r2'⟩ := hr.resolve_left hne
    exact ⟨_, (C114_tx E hn _ _ _ _ _ _ _).2 ⟨bv, bl, ins, outs, bi, bo, stored, bw, ha', hw', .inr ⟨hf.symm.trans hc, r1', r2', rfl⟩⟩, rfl⟩

example : Dyn.tx toyEnv (.obj .other [] [2, 0, 0, 0]) .none (.list [valIn]) (.list [valOut]) .none (.bytes [0, 0, 0, 0]) |>.isOk := rfl

/-- C115 is false as it stands: a `ByteData` object with the same bytes, which `validate_bytes` accepts, makes `TxIn` raise TypeError as a script, and `Tx` as a version or lock
time of a transaction with a flag. -/
theorem C115_false :
    (∃ o s s' r q : Val, s.content = s'.content ∧ s'.validate none = .ok () ∧ (Dyn.txIn o s r q).isOk = true ∧ Dyn.txIn o s' r q = .error .typeError) ∧
    (∃ o s r r' q : Val, r.content = r'.content ∧ r'.validate none = .ok () ∧ (Dyn.txIn o s r q).isOk = true ∧ Dyn.txIn o s r' q = .error .typeError) ∧
    (∃ v v' f i o w l : Val, v.content = v'.content ∧ v'.validate (some 4) = .ok () ∧ (Dyn.tx toyEnv v f i o w l).isOk = true ∧
      Dyn.tx toyEnv v' f i o w l = .error .typeError) ∧
    (∃ v f i o w l l' : Val, l.content = l'.content ∧ l'.validate (some 4) = .ok () ∧ (Dyn.tx toyEnv v f i o w l).isOk = true ∧
      Dyn.tx toyEnv v f i o w l' = .error .typeError) := by
  refine ⟨⟨.bytes (List.replicate 36 0), .bytes [], .obj .other [] [], .bytes [], .bytes [0, 0, 0, 0], rfl, rfl, rfl, rfl⟩,
    ⟨.bytes (List.replicate 36 0), .bytes [], .bytes [], .obj .other [] [], .bytes [0, 0, 0, 0], rfl, rfl, rfl, rfl⟩,
    ⟨.bytes [2, 0, 0, 0], .obj .other [] [2, 0, 0, 0], .bytes [0, 1], .list [valIn], .list [valOut], .list [valWit], .bytes [0, 0, 0, 0], rfl, rfl, rfl, rfl⟩,
    ⟨.bytes [2, 0, 0, 0], .bytes [0, 1], .list [valIn], .list [valOut], .list [valWit], .bytes [0, 0, 0, 0], .obj .other [] [0, 0, 0, 0], rfl, rfl, rfl, rfl⟩⟩

end Verif.Props
