import Verif.Props.DynBuilder

/-! Property C121, continued: on arguments of the annotated types the functions do what the model with types says. -/

namespace Verif.Props
open Verif Spec Dyn

/-- An integer or None. -/
def embInt (n : Option Int) : Val := n.elim .none .int

/-- An output of either class. -/
def embAnyOut : AnyTxOut → Val
  | .std o => embOut o
  | .decred o => embDcrOut o

/-- An outpoint of either class. -/
def embAnyO : AnyOutpoint → Val
  | .std o => embO o
  | .decred o => embDcrO o

/-- An input of either class. -/
def embAnyIn : AnyTxIn → Val
  | .std t => embIn t
  | .decred t => embDcrIn t

/-- A transaction of any class; a `DecredTx` keeps the sequences it was given. -/
def embAnyTx (si so sw : Val) : AnyTx → Val
  | .std t => embTx t
  | .decred t => embDcrTx si so sw t
  | .sprout t => embSprout t
  | .overwinter t => embOver t
  | .sapling t => embSap t

/-- Joinsplits of either class. -/
def embJs : Joinsplits → List Val
  | .sprout l => l.map embSproutJs
  | .sapling l => l.map embSapJs

/-- `v` is None, or a list or tuple of the values given. -/
def SeqOpt (v : Val) (l : Option (List Val)) : Prop :=
  match l with
  | none => v = .none
  | some l => IsSeq v l

theorem SeqOpt.given {v : Val} {l : Option (List Val)} (h : SeqOpt v l) : v.given = l.isSome := by
  cases l with
  | none => cases h; rfl
  | some l => rcases h with rfl | rfl <;> rfl

theorem toLe_int (n : Int) (k : Nat) : (Val.int n).toLe k = (i2lePadded n k).map .bytes := by
  show (i2lePadded n k >>= fun b => (.ok (Val.bytes b) : Py Val)) = _
  cases i2lePadded n k <;> rfl

theorem toLe_embInt (n : Option Int) (k : Nat) : (embInt n).toLe k = (Builder.i2leOpt n k).map .bytes := by
  cases n with
  | none => rfl
  | some n => exact toLe_int n k

theorem byteList_bytes (b : Bytes) : Val.byteList (b.map fun x => .int x.toNat) = .ok b := by
  induction b with
  | nil => rfl
  | cons a b ih =>
    have h : (0 : Int) ≤ (a.toNat : Int) ∧ (a.toNat : Int) < 256 := by
      have := a.toNat_lt
      omega
    simp only [List.map_cons, Val.byteList, if_pos h, ih, ok_bind, Int.toNat_natCast]
    have : UInt8.ofNat a.toNat = a := by simp
    rw [this]

theorem typed_output (E : Env) (a s : Bytes) (ver : Option Bytes) :
    Dyn.makeOutput E (.bytes a) (.bytes s) (embOpt ver) = (Builder.makeOutput E a s ver).map embAnyOut := by
  unfold Dyn.makeOutput Builder.makeOutput
  by_cases hd : E.net.isDecred = true
  · rw [if_pos hd, if_pos hd]
    cases ver with
    | none =>
      simp only [embOpt, Option.elim, Dyn.dcrTxOut, validateAll_cons, validate_bytes, decredGate, check, hd, if_true, ok_bind, bind_assoc']
      cases validateBytes a (some 8) <;> rfl
    | some w =>
      show Dyn.dcrTxOut E.net (.bytes a) (.bytes w) (.bytes s) = _
      rw [(C117_typed_parts E.net).2.2.1, map_map]
      rfl
  · rw [if_neg hd, if_neg hd, C114_typed_parts.2.2.1, map_map]
    rfl

theorem freeze_opt (o : Option Bytes) : freeze (embOpt o) = embOpt o := by cases o <;> rfl

theorem freeze_anyOut (o : AnyTxOut) : freeze (embAnyOut o) = embAnyOut o := by
  cases o <;> rfl

theorem fz_makeOutput (E : Env) (a s w : Val) : Dyn.makeOutput E (freeze a) (freeze s) (freeze w) = (Dyn.makeOutput E a s w).map freeze := by
  unfold Dyn.makeOutput
  by_cases hd : E.net.isDecred = true
  · rw [if_pos hd, if_pos hd, fz_dcrTxOut]
  · rw [if_neg hd, if_neg hd, fz_txOut]

/-- The values that Python takes for false. -/
def IsFalse (v : Val) : Prop := v = .none ∨ v = .int 0 ∨ v = .str [] ∨ v.content = some [] ∨ v = .list [] ∨ v = .tuple []

theorem truthy_iff (v : Val) : v.truthy = true ↔ ¬ IsFalse v := by
  unfold IsFalse
  cases v <;> simp [Val.truthy, Val.content]

example : IsFalse (.bytearray []) ∧ IsFalse (.obj .other [] []) ∧ ¬ IsFalse (.int (-1)) ∧ ¬ IsFalse (.str (pystr "0")) ∧ ¬ IsFalse (.list [.int 0]) := by
  simp [IsFalse, Val.content]

theorem dyn_script (E : Env) (s : PyStr) : (Dyn.toOutputScript E (.str s)).map freeze = (Addresses.toOutputScript E s).map .bytes := by
  simp only [Dyn.toOutputScript]
  cases hp : Addresses.parse E s with
  | error e => simp only [Addresses.toOutputScript, hp, error_bind]; rfl
  | ok p =>
    rw [ok_bind]
    cases Addresses.toOutputScript E s with
    | error e => rfl
    | ok t =>
      simp only [ok_bind]
      split <;> rfl

/-- C121: on arguments of the annotated types, the functions that make outputs do what the model with types says. (`make_op_return_output` leaves a bytearray in the
output, and so does `simple.output` for witness addresses.) `witness` may be any value. -/
theorem C121_typed_outputs (E : Env) :
    (∀ (a s : Bytes) (ver : Option Bytes), Dyn.makeOutput E (.bytes a) (.bytes s) (embOpt ver) = (Builder.makeOutput E a s ver).map embAnyOut) ∧
    (∀ (n : Int) (s : PyStr) (w : Val) (b : Bool), (b = true ↔ ¬ IsFalse w) → Dyn.makeShOutput E (.int n) (.str s) w = (Builder.makeShOutput E n s b).map embAnyOut) ∧
    (∀ (n : Int) (p : Bytes) (w : Val) (b : Bool), (b = true ↔ ¬ IsFalse w) → Dyn.makePkhOutput E (.int n) (.bytes p) w = (Builder.makePkhOutput E n p b).map embAnyOut) ∧
    (∀ d : Bytes, (Dyn.makeOpReturnOutput E (.bytes d)).map freeze = (Builder.makeOpReturnOutput E d).map embAnyOut) ∧
    (∀ (n : Int) (s : PyStr), (Dyn.simpleOutput E (.int n) (.str s)).map freeze = (Simple.output E n s).map embAnyOut) := by
  have out : ∀ a s : Bytes, Dyn.makeOutput E (.bytes a) (.bytes s) .none = (Builder.makeOutput E a s).map embAnyOut := fun a s => typed_output E a s none
  refine ⟨typed_output E, ?_, ?_, ?_, ?_⟩
  · intro n s w b hb
    have hb : w.truthy = b := by rw [Bool.eq_iff_iff, truthy_iff, hb]
    subst hb
    simp only [Dyn.makeShOutput, Builder.makeShOutput, toLe_int, bind_map, map_bind, Dyn.makeShOutputScript, Addresses.makeShOutputScript, Val.serialize, bind_assoc', ok_bind, out]
  · intro n p w b hb
    have hb : w.truthy = b := by rw [Bool.eq_iff_iff, truthy_iff, hb]
    subst hb
    simp only [Dyn.makePkhOutput, Builder.makePkhOutput, toLe_int, bind_map, map_bind, Dyn.makePkhOutputScript, Addresses.makePkhOutputScript, bind_assoc', ok_bind]
    cases w.truthy <;> simp only [Bool.false_eq_true, if_false, if_true, ok_bind, out]
  · intro d
    unfold Dyn.makeOpReturnOutput Builder.makeOpReturnOutput
    simp only [Val.len, Val.iter, ok_bind, byteList_bytes, toLe_int, bind_map, map_bind, ← fz_makeOutput, freeze, out]
  · intro n s
    simp only [Dyn.simpleOutput, Simple.output, toLe_int, bind_map, map_bind]
    have h := dyn_script E s
    cases hd : Dyn.toOutputScript E (.str s) with
    | error e =>
      rw [hd] at h
      cases ht : Addresses.toOutputScript E s with
      | error e' => rw [ht] at h; cases h; rfl
      | ok t => rw [ht] at h; cases h
    | ok v =>
      rw [hd] at h
      cases ht : Addresses.toOutputScript E s with
      | error e' => rw [ht] at h; cases h
      | ok t =>
        rw [ht] at h
        have hv : freeze v = .bytes t := Except.ok.inj h
        simp only [ok_bind, ← out, ← hv, ← fz_makeOutput]
        rfl

/-- C121: the same for witnesses, outpoints and inputs. -/
theorem C121_typed_inputs (E : Env) :
    (∀ (s : Val) (l : List Bytes), IsSeq s (l.map .bytes) → Dyn.makeWitness s = (Builder.makeWitness l).map embWit) ∧
    (∀ (t : Bytes) (i : Int) (tree : Option Int), Dyn.makeOutpoint E (.bytes t) (.int i) (embInt tree) = (Builder.makeOutpoint E t i tree).map embAnyO) ∧
    (∀ (t : PyStr) (i : Int) (tree : Option Int), Dyn.simpleOutpoint E (.str t) (.int i) (embInt tree) = (Simple.outpoint E t i tree).map embAnyO) ∧
    (∀ (o : DecredOutpoint) (q : Int), Dyn.makeDecredInput E (embDcrO o) (.int q) = (Builder.makeDecredInput E o q).map embDcrIn) ∧
    (∀ (o : AnyOutpoint) (s r : Bytes) (q : Int), (∀ x, o = .std x → x.bytes.length = 36) → (∀ x, o = .decred x → x.bytes.length = 37) →
      Dyn.makeLegacyInput E (embAnyO o) (.bytes s) (.bytes r) (.int q) = (Builder.makeAnyLegacyInput E o s r q).map embAnyIn) := by
  have op : ∀ (t : Bytes) (i : Int) (tree : Option Int), Dyn.makeOutpoint E (.bytes t) (.int i) (embInt tree) = (Builder.makeOutpoint E t i tree).map embAnyO := by
    intro t i tree
    unfold Dyn.makeOutpoint Builder.makeOutpoint
    by_cases hd : E.net.isDecred = true
    · rw [if_pos hd, if_pos hd]
      cases tree with
      | none =>
        simp only [embInt, Option.elim, Val.given, Bool.false_eq_true, if_false, ok_bind, toLe_int, bind_map, map_bind, (C117_typed_parts E.net).1, map_ok']
        cases i2lePadded i 4 with
        | error e => rfl
        | ok b => simp only [ok_bind]; cases DecredOutpoint.make E.net t b [0] <;> rfl
      | some x =>
        simp only [embInt, Option.elim, Val.given, if_true, toLe_int, bind_map, map_bind, (C117_typed_parts E.net).1, map_ok']
        cases i2lePadded x 1 with
        | error e => rfl
        | ok y =>
          cases i2lePadded i 4 with
          | error e => rfl
          | ok b => simp only [ok_bind]; cases DecredOutpoint.make E.net t b y <;> rfl
    · rw [if_neg hd, if_neg hd]
      simp only [toLe_int, bind_map, map_bind, C114_typed_parts.1, map_ok']
      cases i2lePadded i 4 with
      | error e => rfl
      | ok b => simp only [ok_bind]; cases Outpoint.make t b <;> rfl
  have dcr : ∀ (o : DecredOutpoint) (q : Int), Dyn.makeDecredInput E (embDcrO o) (.int q) = (Builder.makeDecredInput E o q).map embDcrIn := by
    intro o q
    simp only [Dyn.makeDecredInput, Builder.makeDecredInput, toLe_int, bind_map, map_bind, (C117_typed_parts E.net).2.1]
  refine ⟨?_, op, ?_, dcr, ?_⟩
  · intro s l hs
    have hi : s.iter = .ok (l.map .bytes) := by rcases hs with rfl | rfl <;> rfl
    have hm : mapPy Dyn.item (l.map .bytes) = (mapPy WitnessStackItem.make l).map (List.map embItem) := by
      clear hs hi
      induction l with
      | nil => rfl
      | cons a l ih =>
        simp only [List.map_cons, mapPy, ih, C114_typed_parts.2.2.2.1, bind_map, map_bind, map_ok']
    unfold Dyn.makeWitness Builder.makeWitness
    rw [hi, ok_bind, hm, bind_map]
    show _ = Except.map embWit ((mapPy WitnessStackItem.make l) >>= fun stack => InputWitness.make stack)
    rw [map_bind]
    congr 1
    funext st
    exact C114_typed_parts.2.2.2.2 _ st (.inl rfl)
  · intro t i tree
    simp only [Dyn.simpleOutpoint, Simple.outpoint, map_bind, op]
  · intro o s r q h1 h2
    unfold Dyn.makeLegacyInput Builder.makeAnyLegacyInput
    by_cases hd : E.net.isDecred = true
    · rw [if_pos hd, if_pos hd]
      cases o with
      | decred o => exact (dcr o q).trans (by rw [map_map]; rfl)
      | std o =>
        have := h1 o rfl
        simp only [embAnyO, Dyn.makeDecredInput, toLe_int, bind_map, map_bind, Dyn.dcrTxIn, decredGate, check, hd, if_true, ok_bind, validateAll_cons, embO, Val.validate, Val.content,
          this, if_false, err_bind, map_err, (by decide : ¬ 36 = 37)]
    · rw [if_neg hd, if_neg hd]
      cases o with
      | std o =>
        simp only [embAnyO, Builder.makeLegacyInput, toLe_int, bind_map, map_bind, map_map, C114_typed_parts.2.1]
        rfl
      | decred o =>
        have := h2 o rfl
        simp only [embAnyO, toLe_int, bind_map, map_bind, Dyn.txIn, embDcrO, Val.validate, Val.content, check,
          this, if_false, err_bind, map_err, (by decide : ¬ 37 = 36)]

/-- C121: `make_witness_input` is `make_legacy_input` with empty scripts. -/
theorem C121_typed_witness_input (E : Env) (o : AnyOutpoint) (q : Int) (h1 : ∀ x, o = .std x → x.bytes.length = 36) (h2 : ∀ x, o = .decred x → x.bytes.length = 37) :
    Dyn.makeWitnessInput E (embAnyO o) (.int q) = (Builder.makeAnyLegacyInput E o [] [] q).map embAnyIn ∧
    (E.net.isDecred = false → ∀ x, o = .std x → Dyn.makeWitnessInput E (embO x) (.int q) = (Builder.makeWitnessInput x q).map embIn) := by
  refine ⟨(C121_typed_inputs E).2.2.2.2 o [] [] q h1 h2, ?_⟩
  intro hd x _
  unfold Dyn.makeWitnessInput Builder.makeWitnessInput
  rw [if_neg (by simp [hd])]
  simp only [toLe_int, bind_map, map_bind, C114_typed_parts.2.1]

/-- C121: `length_prepend` of a value of any type: only bytes and bytearrays pass, and what comes back are bytes, the length and the contents. -/
theorem C121_length_prepend (v : Val) (r : Bytes) : Dyn.lengthPrepend v = .ok r ↔ ∃ b, (v = .bytes b ∨ v = .bytearray b) ∧ b.length < 2 ^ 64 ∧ r = varBytes b := by
  unfold Dyn.lengthPrepend
  simp only [bind_ok_iff, VarInt.make_len_iff]
  constructor
  · rintro ⟨l, hl, n, ⟨h64, rfl⟩, h⟩
    cases v <;> simp [Val.addTo] at h <;> simp [Val.len] at hl <;> subst hl <;> subst h
    · exact ⟨_, .inl rfl, h64, rfl⟩
    · exact ⟨_, .inr rfl, h64, rfl⟩
  · rintro ⟨b, rfl | rfl, h64, rfl⟩ <;> exact ⟨_, rfl, _, ⟨h64, rfl⟩, rfl⟩

example : Dyn.lengthPrepend (.bytearray [7, 8]) = .ok [2, 7, 8] ∧ Dyn.lengthPrepend (.list [.int 7]) = .error .typeError ∧
    Dyn.lengthPrepend (.obj .other [] [7]) = .error .typeError := ⟨rfl, rfl, rfl⟩

/-! ### make_tx -/

/-- A computation that raises ValueError now or after what it does first. -/
theorem refuse_bind {α β : Type} {x : Py α} {f : α → Py β} (h : ∀ e, x = .error e → e = .valueError) (hf : ∀ a, x = .ok a → f a = .error .valueError) :
    (x >>= f) = .error .valueError := by
  cases x with
  | error e => rw [error_bind, h e rfl]
  | ok a => exact hf a rfl

theorem check_only {p : Prop} [Decidable p] : ∀ e, check p .valueError = .error e → e = .valueError := by
  intro e h
  unfold check at h
  split at h <;> cases h
  rfl

theorem validate_only {v : Val} {n : Option Nat} : ∀ e, v.validate n = .error e → e = .valueError := by
  intro e h
  unfold Val.validate at h
  split at h
  · cases h; rfl
  · split at h
    · cases h
    · exact check_only e h

theorem seq_iter {v : Val} {l : List Val} (h : IsSeq v l) : v.iter = .ok l := by rcases h with rfl | rfl <;> rfl

theorem seq_len {v : Val} {l : List Val} (h : IsSeq v l) : v.len = .ok l.length := by rcases h with rfl | rfl <;> rfl

theorem instances_only {c : Cls} {v : Val} {l : List Val} (h : IsSeq v l) : ∀ e, v.allInstances c = .error e → e = .valueError := by
  intro e he
  unfold Val.allInstances at he
  rw [seq_iter h, ok_bind] at he
  exact check_only e he

theorem instances_refuse {c : Cls} {v a : Val} {l : List Val} (h : IsSeq v (a :: l)) (ha : a.isInstance c = false) : v.allInstances c = .error .valueError := by
  unfold Val.allInstances
  rw [seq_iter h, ok_bind]
  simp [check, ha]

theorem le2i_bytes_only {b : Bytes} : ∀ e, (Val.bytes b).le2i = .error e → e = .valueError := by intro e h; cases h

/-- Joinsplits of the other class are refused by `OverwinterTx`. -/
theorem overwinter_wrong {E : Env} {si so sj pk sig : Val} {li lo lj : List Val} {a : Val} {lt ex : Bytes} (hi : IsSeq si li) (ho : IsSeq so lo) (hj : IsSeq sj (a :: lj))
    (ha : a.isInstance .sproutJs = false) : Dyn.overwinterTx E si so (.bytes lt) (.bytes ex) sj pk sig = .error .valueError := by
  unfold Dyn.overwinterTx
  refine refuse_bind check_only fun _ _ => refuse_bind check_only fun _ _ => refuse_bind validate_only fun _ _ => refuse_bind validate_only fun _ _ => ?_
  refine refuse_bind le2i_bytes_only fun _ _ => refuse_bind check_only fun _ _ => refuse_bind (instances_only hi) fun _ _ => refuse_bind (instances_only ho) fun _ _ => ?_
  rw [seq_len hj, ok_bind]
  refine refuse_bind check_only fun _ _ => ?_
  rw [instances_refuse hj ha, error_bind]

theorem checkBalance_only {vb ss so bg : Val} {ls lo : List Val} (hs : IsSeq ss ls) (ho : IsSeq so lo) : ∀ e, Dyn.checkBalance vb ss so bg = .error e → e = .valueError := by
  intro e h
  unfold Dyn.checkBalance at h
  rw [seq_len hs, seq_len ho, ok_bind, ok_bind] at h
  split at h
  · cases h; rfl
  · split at h
    · cases h
    · exact validate_only e h

/-- Joinsplits of the other class are refused by `SaplingTx`. -/
theorem sapling_wrong {E : Env} {si so ss st sj pk sig bg : Val} {li lo ls lt' lj : List Val} {a : Val} {lt ex vb : Bytes} (hi : IsSeq si li) (ho : IsSeq so lo)
    (hs : IsSeq ss ls) (ht : IsSeq st lt') (hj : IsSeq sj (a :: lj)) (ha : a.isInstance .saplingJs = false) :
    Dyn.saplingTx E si so (.bytes lt) (.bytes ex) (.bytes vb) ss st sj pk sig bg = .error .valueError := by
  unfold Dyn.saplingTx
  refine refuse_bind check_only fun _ _ => refuse_bind check_only fun _ _ => refuse_bind validate_only fun _ _ => refuse_bind validate_only fun _ _ => ?_
  refine refuse_bind validate_only fun _ _ => refuse_bind le2i_bytes_only fun _ _ => refuse_bind check_only fun _ _ => refuse_bind (checkBalance_only hs ht) fun _ _ => ?_
  refine refuse_bind (instances_only hi) fun _ _ => refuse_bind (instances_only ho) fun _ _ => ?_
  rw [seq_len hj, ok_bind]
  refine refuse_bind check_only fun _ _ => refuse_bind (instances_only hs) fun _ _ => refuse_bind (instances_only ht) fun _ _ => ?_
  rw [instances_refuse hj ha, error_bind]

/-- `SaplingTx` with None for one of its lists. -/
theorem sapling_noneList {E : Env} {ins : List TxIn} {outs : List TxOut} {si so ss st sj pk sig : Val} {bg : Option Bytes} {lt ex vb : Bytes} {sp : Option (List SaplingShieldedSpend)}
    {op : Option (List SaplingShieldedOutput)} (hi : IsSeq si (ins.map embIn)) (ho : IsSeq so (outs.map embOut)) (hs : SeqOpt ss (sp.map (List.map embSpend)))
    (ht : SeqOpt st (op.map (List.map embOutput))) (hl : lt.length = 4) (he : ex.length = 4) (hv : vb.length = 8) (hn : sp = none ∨ op = none ∨ sj = .none) :
    Dyn.saplingTx E si so (.bytes lt) (.bytes ex) (.bytes vb) ss st sj pk sig (embOpt bg) = (Builder.saplingNone E ex vb sp op bg).map embSap := by
  unfold Dyn.saplingTx Builder.saplingNone
  have v4 : ∀ b : Bytes, b.length = 4 → (Val.bytes b).validate (some 4) = .ok () := by intro b h; simp [Val.validate, Val.content, check, h]
  have v8 : (Val.bytes vb).validate (some 8) = .ok () := by simp [Val.validate, Val.content, check, hv]
  simp only [v4 lt hl, v4 ex he, v8, ok_bind, map_bind, Val.le2i]
  congr 1; funext _
  congr 1; funext _
  congr 1; funext _
  cases sp with
  | none =>
    cases hs
    rfl
  | some sp =>
    cases op with
    | none =>
      cases ht
      simp only [Dyn.checkBalance, seq_len hs, ok_bind]
      rfl
    | some op =>
      have hj : sj = .none := by simpa using hn
      subst hj
      rw [checkBalance_emb vb sp op bg ss st hs ht]
      simp only [map_bind]
      congr 1; funext _
      rw [instances_emb embIn .txIn (fun _ => rfl) ins hi, instances_emb embOut .txOut (fun _ => rfl) outs ho]
      rfl

theorem toLe_ok_length {n : Int} {k : Nat} {b : Bytes} (h : i2lePadded n k = .ok b) : b.length = k := (i2le_iff.1 h).1

/-- C121: the same for `make_tx`, on networks other than Decred. -/
theorem C121_typed_tx (E : Env) (hd : E.net.isDecred = false) (v lt vb : Int) (ex : Option Int) (ins : List TxIn) (outs : List TxOut) (sp : Option (List SaplingShieldedSpend))
    (op : Option (List SaplingShieldedOutput)) (ws : Option (List InputWitness)) (js : Option Joinsplits) (pk sig bg : Option Bytes) (si so ss st sw sj : Val)
    (hi : IsSeq si (ins.map embIn)) (ho : IsSeq so (outs.map embOut)) (hs : SeqOpt ss (sp.map (List.map embSpend))) (ht : SeqOpt st (op.map (List.map embOutput)))
    (hw : SeqOpt sw (ws.map (List.map embWit))) (hj : SeqOpt sj (js.map embJs)) :
    Dyn.makeTx E (.int v) si so (.int lt) ⟨embInt ex, .int vb, ss, st, sw, sj, embOpt pk, embOpt sig, embOpt bg⟩ =
      (Builder.makeTx E v ins outs lt ex vb sp op ws js pk sig bg).map (embAnyTx si so sw) := by
  have gj : sj.given = js.isSome := by rw [hj.given]; cases js <;> rfl
  have gw : sw.given = ws.isSome := by rw [hw.given]; cases ws <;> rfl
  unfold Dyn.makeTx Builder.makeTx
  rw [if_neg (by simp [hd])]
  simp only [gj, toLe_int, toLe_embInt, bind_map]
  by_cases h1 : E.net.isSprout = true ∧ js.isSome = true
  · rw [if_pos h1, if_pos h1]
    simp only [map_bind]
    congr 1; funext l
    unfold Dyn.sproutTx
    refine refuse_bind check_only fun _ _ => refuse_bind check_only fun _ _ => ?_
    rfl
  rw [if_neg h1, if_neg h1]
  by_cases h2 : E.net.isOverwinter = true
  · rw [if_pos h2, if_pos h2]
    simp only [map_bind]
    congr 1; funext l
    congr 1; funext x
    have fin : ∀ j : List SproutJoinsplit, ∀ sj : Val, IsSeq sj (j.map embSproutJs) →
        Dyn.overwinterTx E si so (.bytes l) (.bytes x) sj (embOpt pk) (embOpt sig) =
          (do let t ← OverwinterTx.make E ins outs l x j pk sig; (.ok (embAnyTx si so sw (.overwinter t)) : Py Val)) := by
      intro j sj hj
      rw [C116_typed_overwinter E ins outs l x j pk sig si so sj hi ho hj]
      cases OverwinterTx.make E ins outs l x j pk sig <;> rfl
    cases js with
    | none => exact fin [] _ (.inl rfl)
    | some js =>
      simp only [Option.isSome_some, if_true]
      cases js with
      | sprout j => exact fin j sj hj
      | sapling j =>
        cases j with
        | nil => exact fin [] sj hj
        | cons a j => exact overwinter_wrong hi ho hj rfl
  rw [if_neg h2, if_neg h2]
  by_cases h3 : E.net.isSapling = true
  · rw [if_pos h3, if_pos h3]
    simp only [map_bind]
    cases hl : i2lePadded lt 4 with
    | error e => rfl
    | ok l =>
    cases hx : Builder.i2leOpt ex 4 with
    | error e => rfl
    | ok x =>
    cases hb : i2lePadded vb 8 with
    | error e => rfl
    | ok b =>
    simp only [ok_bind]
    have xl : x.length = 4 := by
      cases ex with
      | none => cases hx
      | some n => exact toLe_ok_length hx
    have no : sp = none ∨ op = none ∨ sj = .none → Builder.makeSapling E ins outs l x b sp op js pk sig bg = Builder.saplingNone E x b sp op bg →
        Dyn.saplingTx E si so (.bytes l) (.bytes x) (.bytes b) ss st sj (embOpt pk) (embOpt sig) (embOpt bg) =
        (do let t ← Builder.makeSapling E ins outs l x b sp op js pk sig bg; (.ok (embAnyTx si so sw (.sapling t)) : Py Val)) := by
      intro hn he
      rw [he, sapling_noneList hi ho hs ht (toLe_ok_length hl) xl (toLe_ok_length hb) hn]
      cases Builder.saplingNone E x b sp op bg <;> rfl
    cases sp with
    | none => exact no (.inl rfl) rfl
    | some sp =>
    cases op with
    | none => exact no (.inr (.inl rfl)) rfl
    | some op =>
    cases js with
    | none => exact no (.inr (.inr hj)) rfl
    | some js =>
    have fin : ∀ j : List SaplingJoinsplit, IsSeq sj (j.map embSapJs) →
        Dyn.saplingTx E si so (.bytes l) (.bytes x) (.bytes b) ss st sj (embOpt pk) (embOpt sig) (embOpt bg) =
          (do let t ← SaplingTx.make E ins outs l x b sp op j pk sig bg; (.ok (embAnyTx si so sw (.sapling t)) : Py Val)) := by
      intro j hj
      rw [C116_typed_sapling E ins outs l x b sp op j pk sig bg si so ss st sj hi ho hs ht hj]
      cases SaplingTx.make E ins outs l x b sp op j pk sig bg <;> rfl
    cases js with
    | sapling j => exact fin j hj
    | sprout j =>
      cases j with
      | nil => exact fin [] hj
      | cons a j => exact sapling_wrong hi ho hs ht hj rfl
  rw [if_neg h3, if_neg h3]
  simp only [gw, map_bind]
  congr 1; funext a
  congr 1; funext l
  have hf : (if ws.isSome = true then Val.bytes E.net.segwitTxFlag else .none) = embOpt (if ws.isSome then some E.net.segwitTxFlag else none) := by cases ws <;> rfl
  rw [hf, C114_typed E a l _ ins outs ws si so sw hi ho (by rintro w rfl; exact hw) (by rintro rfl; exact hw)]
  cases Tx.make E a (if ws.isSome then some E.net.segwitTxFlag else none) ins outs ws l <;> rfl


/-- A list of witnesses, given or not, and joinsplits of neither class. -/
example : SeqOpt (.tuple [embWit exWit]) (some ([exWit].map embWit)) ∧ SeqOpt .none none ∧ SeqOpt (.list []) ((some (Joinsplits.sprout [])).map embJs) ∧
    IsSeq (.list [embIn exIn]) ([exIn].map embIn) ∧
    (Builder.makeTx toyEnv 2 [exIn] [exOut] 0 none 0 none none (some [exWit]) none none none none).isOk = true :=
  ⟨.inr rfl, rfl, .inl rfl, .inl rfl, by decide⟩

example : Dyn.makeShOutput toyEnv (.int 5) (.bytes [0x51]) (.int 0) = .error .typeError ∧ (Dyn.makeShOutput toyEnv (.int 5) (.bytes [0x20]) (.int 0)).isOk = true ∧
    (Dyn.makeOpReturnOutput toyEnv (.list [.int 1, .int 2])).isOk = true ∧ (Dyn.makeOpReturnOutput toyEnv (.str [])).isOk = true ∧
    Dyn.makeOpReturnOutput toyEnv (.list [.int 256]) = .error .valueError := ⟨rfl, rfl, rfl, rfl, rfl⟩

end Verif.Props
