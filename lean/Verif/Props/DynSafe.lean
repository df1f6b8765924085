import Verif.Props.DynTx
import Verif.Model.DynDecred

/-! Properties C114 and C115, continued: which exceptions `Tx(…)` raises, what the objects that a program can make are, and that the model with types agrees. -/

namespace Verif.Props
open Verif Spec

/-! ### exceptions -/

/-- All exceptions of the computation satisfy the predicate. -/
def ErrIn {α : Type} (P : PyErr → Prop) (x : Py α) : Prop := ∀ e, x = .error e → P e

theorem ErrIn.bind {α β : Type} {P : PyErr → Prop} {x : Py α} {f : α → Py β} (h1 : ErrIn P x) (h2 : ∀ a, x = .ok a → ErrIn P (f a)) : ErrIn P (x >>= f) := by
  intro e h
  cases hx : x with
  | error e' => rw [hx] at h; cases h; exact h1 e hx
  | ok a => rw [hx] at h; exact h2 a hx e h

theorem ErrIn.ok {α : Type} {P : PyErr → Prop} {a : α} : ErrIn P (.ok a : Py α) := fun _ h => by cases h

theorem ErrIn.check {P : PyErr → Prop} {p : Prop} [Decidable p] {e : PyErr} (h : P e) : ErrIn P (Verif.check p e) := by
  unfold Verif.check
  split
  · exact .ok
  · intro e' h'; cases h'; exact h

theorem ErrIn.validate {P : PyErr → Prop} (h : P .valueError) {v : Val} {n : Option Nat} : ErrIn P (v.validate n) := by
  intro e he; rw [validate_error he]; exact h

theorem ErrIn.varint {P : PyErr → Prop} (h : P .valueError) {n : Nat} : ErrIn P (VarInt.make (n : Int)) := by
  by_cases hn : n < 2 ^ 64
  · rw [VarInt.make_len hn]; exact .ok
  · rw [VarInt.make_len_error hn]; intro e he; cases he; exact h

/-- What may go wrong with the types of the arguments of `Tx(…)`. -/
def TxTypeError (flag version txIns txOuts txWitnesses lockTime : Val) : Prop :=
  txIns.len = .error .typeError ∨ txOuts.len = .error .typeError ∨ txWitnesses ≠ .none ∧ txWitnesses.len = .error .typeError ∨
  flag ≠ .none ∧ ¬ (RawBytes version ∧ RawBytes lockTime)

theorem len_error {v : Val} {e : PyErr} (h : v.len = .error e) : e = .typeError := by cases v <;> simp [Val.len] at h <;> exact h.symm

theorem iter_of_len {v : Val} {n : Nat} (h : v.len = .ok n) : ∃ l, v.iter = .ok l := by cases v <;> simp [Val.len, Val.iter] at h ⊢

/-- C114: the exceptions of `Tx(…)` are ValueError; AttributeError, if the flag is neither None nor bytes-like; and TypeError, if an argument that should be a sequence has no
length, or if there is a flag and version or lock time is a `ByteData` object. -/
theorem C114_tx_errors (E : Env) (version flag txIns txOuts txWitnesses lockTime : Val) (e : PyErr)
    (h : Dyn.tx E version flag txIns txOuts txWitnesses lockTime = .error e) :
    e = .valueError ∨ e = .attributeError ∧ flag ≠ .none ∧ flag.content = none ∨ e = .typeError ∧ TxTypeError flag version txIns txOuts txWitnesses lockTime := by
  suffices main : ErrIn (fun e => e = .valueError ∨ e = .attributeError ∧ flag ≠ .none ∧ flag.content = none ∨
      e = .typeError ∧ TxTypeError flag version txIns txOuts txWitnesses lockTime) (Dyn.tx E version flag txIns txOuts txWitnesses lockTime) from main e h
  generalize hP : (fun e : PyErr => e = .valueError ∨ e = .attributeError ∧ flag ≠ .none ∧ flag.content = none ∨
      e = .typeError ∧ TxTypeError flag version txIns txOuts txWitnesses lockTime) = P
  have pv : P .valueError := by rw [← hP]; exact .inl rfl
  have pt : TxTypeError flag version txIns txOuts txWitnesses lockTime → P .typeError := by intro h; rw [← hP]; exact .inr (.inr ⟨rfl, h⟩)
  have ilen : ErrIn P txIns.len := by
    intro e he; have := len_error he; subst this; exact pt (.inl he)
  have olen : ErrIn P txOuts.len := by
    intro e he; have := len_error he; subst this; exact pt (.inr (.inl he))
  have inst : ∀ {v : Val} {c : Cls} {n : Nat}, v.len = .ok n → ErrIn P (v.allInstances c) := by
    intro v c n hv
    obtain ⟨l, hl⟩ := iter_of_len hv
    unfold Val.allInstances
    rw [hl]
    exact ErrIn.check pv
  have hiadd : ∀ {v : Val} {b self : Bytes}, v.content = some b → ErrIn P (Val.iadd self v) := by
    intro v b self hv; rw [iadd_ok.2 ⟨b, hv, rfl⟩]; exact .ok
  have hall : ∀ {l : List Val} {bs : List Bytes} {self : Bytes}, Contents l bs → ErrIn P (Val.iaddAll self l) := by
    intro l bs self hl; rw [iaddAll_ok hl]; exact .ok
  unfold Dyn.tx
  refine .bind (.validate pv) fun _ hv => .bind (.validate pv) fun _ hl => .bind ?_ fun _ hf => .bind ?_ fun _ hw => .bind ilen fun ni hni => .bind olen fun no hno =>
    .bind (.check pv) fun _ hmin => .bind (inst hni) fun _ hci => .bind (inst hno) fun _ hco => ?_
  · intro e he
    rw [← hP]
    rcases checkFlag_error he with h | h
    · exact .inl h
    · exact .inr (.inl h)
  · unfold Dyn.checkWitnesses
    split
    · exact .ok
    · rename_i hwn
      refine .bind ?_ fun n hn => ?_
      · intro e he; have := len_error he; subst this; exact pt (.inr (.inr (.inl ⟨hwn, he⟩)))
      · split
        · split
          · intro e he; cases he; exact pv
          · exact .bind ilen fun _ _ => .bind (.check pv) fun _ _ => inst hn
        · exact .ok
  · obtain ⟨bv, hbv, -⟩ := validate_ok.1 hv
    obtain ⟨bl, hbl, -⟩ := validate_ok.1 hl
    obtain ⟨ins, hi, ci⟩ := allInstances_ok.1 hci
    obtain ⟨outs, ho, co⟩ := allInstances_ok.1 hco
    obtain ⟨bi, hbi⟩ := instances_content ci
    obtain ⟨bo, hbo⟩ := instances_content co
    refine .bind (hiadd hbv) fun _ _ => .bind ?_ fun _ _ => .bind (.varint pv) fun vi hvi => ?_
    · unfold Dyn.addFlag
      rcases checkFlag_ok.1 hf with rfl | hc
      · exact .ok
      · split
        · exact .ok
        · exact hiadd hc
    rw [hi, ho]
    simp only [ok_bind]
    refine .bind (hall hbi) fun _ _ => .bind (.varint pv) fun vo hvo => .bind (hall hbo) fun _ _ => .bind ?_ fun x hx => ?_
    · rcases (checkWitnesses_ok hni).1 hw with rfl | h | ⟨l, h0, h1, h2, h3, h4⟩
      · exact .ok
      · rw [addWitnesses_ok (flag := flag) (n := ni) (.inr (.inl ⟨h, rfl, rfl⟩))]; exact .ok
      · obtain ⟨bw, hbw⟩ := instances_content h4
        rw [addWitnesses_ok (.inr (.inr ⟨l, h1, h2, h3, h4, hbw, rfl⟩))]; exact .ok
    obtain ⟨self, wits⟩ := x
    refine .bind (hiadd hbl) fun _ _ => ?_
    split
    · exact .ok
    · rename_i hfn
      refine .bind ?_ fun _ _ => .ok
      by_cases hr : RawBytes version ∧ RawBytes lockTime
      · unfold Dyn.noWitness
        rw [addTo_raw hr.1 hbv]
        simp only [ok_bind]
        refine .bind (.varint pv) fun _ _ => .bind (hall hbi) fun _ _ => .bind (.varint pv) fun _ _ => .bind (hall hbo) fun _ _ => ?_
        rw [addTo_raw hr.2 hbl]; exact .ok
      · have pt' := pt (.inr (.inr (.inr ⟨hfn, hr⟩)))
        have ato : ∀ {self : Bytes} {v : Val}, ErrIn P (Val.addTo self v) := by
          intro self v; unfold Val.addTo; split
          · exact .ok
          · exact .ok
          · intro e he; cases he; exact pt'
        unfold Dyn.noWitness
        exact .bind ato fun _ _ => .bind (.varint pv) fun _ _ => .bind (hall hbi) fun _ _ => .bind (.varint pv) fun _ _ => .bind (hall hbo) fun _ _ => ato

/-! ### the objects that a program can make -/

/-- The values that a program can have: values of the built-in types, other objects of classes derived from `ByteData`, and whatever the constructors make of such values while
the selected network is that of `E` or one that satisfies `S`. -/
inductive MadeOn (S : Network → Prop) (E : Env) : Val → Prop
  | none : MadeOn S E .none
  | int (n : Int) : MadeOn S E (.int n)
  | str (s : PyStr) : MadeOn S E (.str s)
  | bytes (b : Bytes) : MadeOn S E (.bytes b)
  | bytearray (b : Bytes) : MadeOn S E (.bytearray b)
  | other (b : Bytes) : MadeOn S E (.obj .other [] b)
  | list (l : List Val) : (∀ v ∈ l, MadeOn S E v) → MadeOn S E (.list l)
  | tuple (l : List Val) : (∀ v ∈ l, MadeOn S E v) → MadeOn S E (.tuple l)
  | outpoint (a b v : Val) : MadeOn S E a → MadeOn S E b → Dyn.outpoint a b = .ok v → MadeOn S E v
  | txIn (a b c d v : Val) : MadeOn S E a → MadeOn S E b → MadeOn S E c → MadeOn S E d → Dyn.txIn a b c d = .ok v → MadeOn S E v
  | txOut (a b v : Val) : MadeOn S E a → MadeOn S E b → Dyn.txOut a b = .ok v → MadeOn S E v
  | item (a v : Val) : MadeOn S E a → Dyn.item a = .ok v → MadeOn S E v
  | witness (a v : Val) : MadeOn S E a → Dyn.witness a = .ok v → MadeOn S E v
  | txOn (n : Network) (a b c d e f v : Val) : (n = E.net ∨ S n) → MadeOn S E a → MadeOn S E b → MadeOn S E c → MadeOn S E d → MadeOn S E e → MadeOn S E f → Dyn.tx ⟨n, E.H⟩ a b c d e f = .ok v → MadeOn S E v
  | sproutProofOn (n : Network) (a b c d e f g h v : Val) : (n = E.net ∨ S n) → MadeOn S E a → MadeOn S E b → MadeOn S E c → MadeOn S E d → MadeOn S E e → MadeOn S E f → MadeOn S E g → MadeOn S E h → Dyn.sproutProof n a b c d e f g h = .ok v → MadeOn S E v
  | saplingProofOn (n : Network) (a b c v : Val) : (n = E.net ∨ S n) → MadeOn S E a → MadeOn S E b → MadeOn S E c → Dyn.saplingProof n a b c = .ok v → MadeOn S E v
  | sproutJsOn (n : Network) (a b c d e f g h i j v : Val) : (n = E.net ∨ S n) → MadeOn S E a → MadeOn S E b → MadeOn S E c → MadeOn S E d → MadeOn S E e → MadeOn S E f → MadeOn S E g → MadeOn S E h → MadeOn S E i → MadeOn S E j → Dyn.sproutJs n a b c d e f g h i j = .ok v → MadeOn S E v
  | saplingJsOn (n : Network) (a b c d e f g h i j v : Val) : (n = E.net ∨ S n) → MadeOn S E a → MadeOn S E b → MadeOn S E c → MadeOn S E d → MadeOn S E e → MadeOn S E f → MadeOn S E g → MadeOn S E h → MadeOn S E i → MadeOn S E j → Dyn.saplingJs n a b c d e f g h i j = .ok v → MadeOn S E v
  | saplingSpendOn (n : Network) (a b c d e f v : Val) : (n = E.net ∨ S n) → MadeOn S E a → MadeOn S E b → MadeOn S E c → MadeOn S E d → MadeOn S E e → MadeOn S E f → Dyn.saplingSpend n a b c d e f = .ok v → MadeOn S E v
  | saplingOutputOn (n : Network) (a b c d e f v : Val) : (n = E.net ∨ S n) → MadeOn S E a → MadeOn S E b → MadeOn S E c → MadeOn S E d → MadeOn S E e → MadeOn S E f → Dyn.saplingOutput n a b c d e f = .ok v → MadeOn S E v
  | sproutTxOn (n : Network) (a b c d e f g v : Val) : (n = E.net ∨ S n) → MadeOn S E a → MadeOn S E b → MadeOn S E c → MadeOn S E d → MadeOn S E e → MadeOn S E f → MadeOn S E g → Dyn.sproutTx ⟨n, E.H⟩ a b c d e f g = .ok v → MadeOn S E v
  | overwinterTxOn (n : Network) (a b c d e f g v : Val) : (n = E.net ∨ S n) → MadeOn S E a → MadeOn S E b → MadeOn S E c → MadeOn S E d → MadeOn S E e → MadeOn S E f → MadeOn S E g → Dyn.overwinterTx ⟨n, E.H⟩ a b c d e f g = .ok v → MadeOn S E v
  | saplingTxOn (n : Network) (a b c d e f g h i j k v : Val) : (n = E.net ∨ S n) → MadeOn S E a → MadeOn S E b → MadeOn S E c → MadeOn S E d → MadeOn S E e → MadeOn S E f → MadeOn S E g → MadeOn S E h → MadeOn S E i → MadeOn S E j → MadeOn S E k → Dyn.saplingTx ⟨n, E.H⟩ a b c d e f g h i j k = .ok v → MadeOn S E v
  | dcrOutpointOn (n : Network) (a b c v : Val) : (n = E.net ∨ S n) → MadeOn S E a → MadeOn S E b → MadeOn S E c → Dyn.dcrOutpoint n a b c = .ok v → MadeOn S E v
  | dcrTxInOn (n : Network) (a b v : Val) : (n = E.net ∨ S n) → MadeOn S E a → MadeOn S E b → Dyn.dcrTxIn n a b = .ok v → MadeOn S E v
  | dcrTxOutOn (n : Network) (a b c v : Val) : (n = E.net ∨ S n) → MadeOn S E a → MadeOn S E b → MadeOn S E c → Dyn.dcrTxOut n a b c = .ok v → MadeOn S E v
  | dcrWitnessOn (n : Network) (a b c d e v : Val) : (n = E.net ∨ S n) → MadeOn S E a → MadeOn S E b → MadeOn S E c → MadeOn S E d → MadeOn S E e → Dyn.dcrWitness n a b c d e = .ok v → MadeOn S E v
  | dcrTxOn (n : Network) (a b c d e f v : Val) : (n = E.net ∨ S n) → MadeOn S E a → MadeOn S E b → MadeOn S E c → MadeOn S E d → MadeOn S E e → MadeOn S E f → Dyn.dcrTx n a b c d e f = .ok v → MadeOn S E v

/-- The values that a program can have that selects no other network. -/
abbrev Made (E : Env) : Val → Prop := MadeOn (fun _ => False) E

theorem MadeOn.tx {S : Network → Prop} {E : Env} (a b c d e f v : Val) : MadeOn S E a → MadeOn S E b → MadeOn S E c → MadeOn S E d → MadeOn S E e → MadeOn S E f → Dyn.tx E a b c d e f = .ok v → MadeOn S E v :=
  fun h0 h1 h2 h3 h4 h5 h6 => .txOn E.net a b c d e f v (.inl rfl) h0 h1 h2 h3 h4 h5 h6

theorem MadeOn.sproutProof {S : Network → Prop} {E : Env} (a b c d e f g h v : Val) : MadeOn S E a → MadeOn S E b → MadeOn S E c → MadeOn S E d → MadeOn S E e → MadeOn S E f → MadeOn S E g → MadeOn S E h → Dyn.sproutProof E.net a b c d e f g h = .ok v → MadeOn S E v :=
  fun h0 h1 h2 h3 h4 h5 h6 h7 h8 => .sproutProofOn E.net a b c d e f g h v (.inl rfl) h0 h1 h2 h3 h4 h5 h6 h7 h8

theorem MadeOn.saplingProof {S : Network → Prop} {E : Env} (a b c v : Val) : MadeOn S E a → MadeOn S E b → MadeOn S E c → Dyn.saplingProof E.net a b c = .ok v → MadeOn S E v :=
  fun h0 h1 h2 h3 => .saplingProofOn E.net a b c v (.inl rfl) h0 h1 h2 h3

theorem MadeOn.sproutJs {S : Network → Prop} {E : Env} (a b c d e f g h i j v : Val) : MadeOn S E a → MadeOn S E b → MadeOn S E c → MadeOn S E d → MadeOn S E e → MadeOn S E f → MadeOn S E g → MadeOn S E h → MadeOn S E i → MadeOn S E j → Dyn.sproutJs E.net a b c d e f g h i j = .ok v → MadeOn S E v :=
  fun h0 h1 h2 h3 h4 h5 h6 h7 h8 h9 h10 => .sproutJsOn E.net a b c d e f g h i j v (.inl rfl) h0 h1 h2 h3 h4 h5 h6 h7 h8 h9 h10

theorem MadeOn.saplingJs {S : Network → Prop} {E : Env} (a b c d e f g h i j v : Val) : MadeOn S E a → MadeOn S E b → MadeOn S E c → MadeOn S E d → MadeOn S E e → MadeOn S E f → MadeOn S E g → MadeOn S E h → MadeOn S E i → MadeOn S E j → Dyn.saplingJs E.net a b c d e f g h i j = .ok v → MadeOn S E v :=
  fun h0 h1 h2 h3 h4 h5 h6 h7 h8 h9 h10 => .saplingJsOn E.net a b c d e f g h i j v (.inl rfl) h0 h1 h2 h3 h4 h5 h6 h7 h8 h9 h10

theorem MadeOn.saplingSpend {S : Network → Prop} {E : Env} (a b c d e f v : Val) : MadeOn S E a → MadeOn S E b → MadeOn S E c → MadeOn S E d → MadeOn S E e → MadeOn S E f → Dyn.saplingSpend E.net a b c d e f = .ok v → MadeOn S E v :=
  fun h0 h1 h2 h3 h4 h5 h6 => .saplingSpendOn E.net a b c d e f v (.inl rfl) h0 h1 h2 h3 h4 h5 h6

theorem MadeOn.saplingOutput {S : Network → Prop} {E : Env} (a b c d e f v : Val) : MadeOn S E a → MadeOn S E b → MadeOn S E c → MadeOn S E d → MadeOn S E e → MadeOn S E f → Dyn.saplingOutput E.net a b c d e f = .ok v → MadeOn S E v :=
  fun h0 h1 h2 h3 h4 h5 h6 => .saplingOutputOn E.net a b c d e f v (.inl rfl) h0 h1 h2 h3 h4 h5 h6

theorem MadeOn.sproutTx {S : Network → Prop} {E : Env} (a b c d e f g v : Val) : MadeOn S E a → MadeOn S E b → MadeOn S E c → MadeOn S E d → MadeOn S E e → MadeOn S E f → MadeOn S E g → Dyn.sproutTx E a b c d e f g = .ok v → MadeOn S E v :=
  fun h0 h1 h2 h3 h4 h5 h6 h7 => .sproutTxOn E.net a b c d e f g v (.inl rfl) h0 h1 h2 h3 h4 h5 h6 h7

theorem MadeOn.overwinterTx {S : Network → Prop} {E : Env} (a b c d e f g v : Val) : MadeOn S E a → MadeOn S E b → MadeOn S E c → MadeOn S E d → MadeOn S E e → MadeOn S E f → MadeOn S E g → Dyn.overwinterTx E a b c d e f g = .ok v → MadeOn S E v :=
  fun h0 h1 h2 h3 h4 h5 h6 h7 => .overwinterTxOn E.net a b c d e f g v (.inl rfl) h0 h1 h2 h3 h4 h5 h6 h7

theorem MadeOn.saplingTx {S : Network → Prop} {E : Env} (a b c d e f g h i j k v : Val) : MadeOn S E a → MadeOn S E b → MadeOn S E c → MadeOn S E d → MadeOn S E e → MadeOn S E f → MadeOn S E g → MadeOn S E h → MadeOn S E i → MadeOn S E j → MadeOn S E k → Dyn.saplingTx E a b c d e f g h i j k = .ok v → MadeOn S E v :=
  fun h0 h1 h2 h3 h4 h5 h6 h7 h8 h9 h10 h11 => .saplingTxOn E.net a b c d e f g h i j k v (.inl rfl) h0 h1 h2 h3 h4 h5 h6 h7 h8 h9 h10 h11

theorem MadeOn.dcrOutpoint {S : Network → Prop} {E : Env} (a b c v : Val) : MadeOn S E a → MadeOn S E b → MadeOn S E c → Dyn.dcrOutpoint E.net a b c = .ok v → MadeOn S E v :=
  fun h0 h1 h2 h3 => .dcrOutpointOn E.net a b c v (.inl rfl) h0 h1 h2 h3

theorem MadeOn.dcrTxIn {S : Network → Prop} {E : Env} (a b v : Val) : MadeOn S E a → MadeOn S E b → Dyn.dcrTxIn E.net a b = .ok v → MadeOn S E v :=
  fun h0 h1 h2 => .dcrTxInOn E.net a b v (.inl rfl) h0 h1 h2

theorem MadeOn.dcrTxOut {S : Network → Prop} {E : Env} (a b c v : Val) : MadeOn S E a → MadeOn S E b → MadeOn S E c → Dyn.dcrTxOut E.net a b c = .ok v → MadeOn S E v :=
  fun h0 h1 h2 h3 => .dcrTxOutOn E.net a b c v (.inl rfl) h0 h1 h2 h3

theorem MadeOn.dcrWitness {S : Network → Prop} {E : Env} (a b c d e v : Val) : MadeOn S E a → MadeOn S E b → MadeOn S E c → MadeOn S E d → MadeOn S E e → Dyn.dcrWitness E.net a b c d e = .ok v → MadeOn S E v :=
  fun h0 h1 h2 h3 h4 h5 => .dcrWitnessOn E.net a b c d e v (.inl rfl) h0 h1 h2 h3 h4 h5

theorem MadeOn.dcrTx {S : Network → Prop} {E : Env} (a b c d e f v : Val) : MadeOn S E a → MadeOn S E b → MadeOn S E c → MadeOn S E d → MadeOn S E e → MadeOn S E f → Dyn.dcrTx E.net a b c d e f = .ok v → MadeOn S E v :=
  fun h0 h1 h2 h3 h4 h5 h6 => .dcrTxOn E.net a b c d e f v (.inl rfl) h0 h1 h2 h3 h4 h5 h6

/-- If the computation makes a value, it is an object of the class. -/
def Makes (c : Cls) (p : Py Val) : Prop := ∀ v, p = .ok v → ∃ t x, v = .obj c t x

theorem Makes.bind {α : Type} {c : Cls} {x : Py α} {f : α → Py Val} (h : ∀ a, Makes c (f a)) : Makes c (x >>= f) := by
  intro v hv
  obtain ⟨a, -, hv⟩ := bind_ok_iff.1 hv
  exact h a v hv

theorem Makes.ok {c : Cls} {t : List Val} {x : Bytes} : Makes c (.ok (.obj c t x)) := by
  intro v hv; cases hv; exact ⟨t, x, rfl⟩

/-! What a constructor makes is an object of its class. -/

theorem makes_outpoint (a b : Val) : Makes .outpoint (Dyn.outpoint a b) := by
  unfold Dyn.outpoint
  repeat (first | exact Makes.ok | (refine Makes.bind fun _ => ?_) | split)

theorem makes_txIn (a b c d : Val) : Makes .txIn (Dyn.txIn a b c d) := by
  unfold Dyn.txIn
  repeat (first | exact Makes.ok | (refine Makes.bind fun _ => ?_) | split)

theorem makes_txOut (a b : Val) : Makes .txOut (Dyn.txOut a b) := by
  unfold Dyn.txOut
  repeat (first | exact Makes.ok | (refine Makes.bind fun _ => ?_) | split)

theorem makes_item (a : Val) : Makes .item (Dyn.item a) := by
  unfold Dyn.item
  repeat (first | exact Makes.ok | (refine Makes.bind fun _ => ?_) | split)

theorem makes_witness (a : Val) : Makes .witness (Dyn.witness a) := by
  unfold Dyn.witness
  repeat (first | exact Makes.ok | (refine Makes.bind fun _ => ?_) | split)

theorem makes_tx (E : Env) (a b c d e f : Val) : Makes .tx (Dyn.tx E a b c d e f) := by
  unfold Dyn.tx
  repeat (first | exact Makes.ok | (refine Makes.bind fun _ => ?_) | split)

theorem makes_sproutProof (E : Env) (a b c d e f g h : Val) : Makes .sproutProof (Dyn.sproutProof E.net a b c d e f g h) := by
  unfold Dyn.sproutProof
  repeat (first | exact Makes.ok | (refine Makes.bind fun _ => ?_) | split)

theorem makes_saplingProof (E : Env) (a b c : Val) : Makes .saplingProof (Dyn.saplingProof E.net a b c) := by
  unfold Dyn.saplingProof
  repeat (first | exact Makes.ok | (refine Makes.bind fun _ => ?_) | split)

theorem makes_sproutJs (E : Env) (a b c d e f g h i j : Val) : Makes .sproutJs (Dyn.sproutJs E.net a b c d e f g h i j) := by
  unfold Dyn.sproutJs Dyn.joinsplit
  repeat (first | exact Makes.ok | (refine Makes.bind fun _ => ?_) | split)

theorem makes_saplingJs (E : Env) (a b c d e f g h i j : Val) : Makes .saplingJs (Dyn.saplingJs E.net a b c d e f g h i j) := by
  unfold Dyn.saplingJs Dyn.joinsplit
  repeat (first | exact Makes.ok | (refine Makes.bind fun _ => ?_) | split)

theorem makes_saplingSpend (E : Env) (a b c d e f : Val) : Makes .saplingSpend (Dyn.saplingSpend E.net a b c d e f) := by
  unfold Dyn.saplingSpend
  repeat (first | exact Makes.ok | (refine Makes.bind fun _ => ?_) | split)

theorem makes_saplingOutput (E : Env) (a b c d e f : Val) : Makes .saplingOutput (Dyn.saplingOutput E.net a b c d e f) := by
  unfold Dyn.saplingOutput
  repeat (first | exact Makes.ok | (refine Makes.bind fun _ => ?_) | split)

theorem makes_sproutTx (E : Env) (a b c d e f g : Val) : Makes .sproutTx (Dyn.sproutTx E a b c d e f g) := by
  unfold Dyn.sproutTx
  repeat (first | exact Makes.ok | (refine Makes.bind fun _ => ?_) | split)

theorem makes_overwinterTx (E : Env) (a b c d e f g : Val) : Makes .overwinterTx (Dyn.overwinterTx E a b c d e f g) := by
  unfold Dyn.overwinterTx
  repeat (first | exact Makes.ok | (refine Makes.bind fun _ => ?_) | split)

theorem makes_saplingTx (E : Env) (a b c d e f g h i j k : Val) : Makes .saplingTx (Dyn.saplingTx E a b c d e f g h i j k) := by
  unfold Dyn.saplingTx
  repeat (first | exact Makes.ok | (refine Makes.bind fun _ => ?_) | split)

theorem makes_dcrOutpoint (E : Env) (a b c : Val) : Makes .dcrOutpoint (Dyn.dcrOutpoint E.net a b c) := by
  unfold Dyn.dcrOutpoint
  repeat (first | exact Makes.ok | (refine Makes.bind fun _ => ?_) | split)

theorem makes_dcrTxIn (E : Env) (a b : Val) : Makes .dcrTxIn (Dyn.dcrTxIn E.net a b) := by
  unfold Dyn.dcrTxIn
  repeat (first | exact Makes.ok | (refine Makes.bind fun _ => ?_) | split)

theorem makes_dcrTxOut (E : Env) (a b c : Val) : Makes .dcrTxOut (Dyn.dcrTxOut E.net a b c) := by
  unfold Dyn.dcrTxOut
  repeat (first | exact Makes.ok | (refine Makes.bind fun _ => ?_) | split)

theorem makes_dcrWitness (E : Env) (a b c d e : Val) : Makes .dcrWitness (Dyn.dcrWitness E.net a b c d e) := by
  unfold Dyn.dcrWitness
  repeat (first | exact Makes.ok | (refine Makes.bind fun _ => ?_) | split)

theorem makes_dcrTx (E : Env) (a b c d e f : Val) : Makes .dcrTx (Dyn.dcrTx E.net a b c d e f) := by
  unfold Dyn.dcrTx
  repeat (first | exact Makes.ok | (refine Makes.bind fun _ => ?_) | split)

/-- The elements of a list or tuple that a program can have are values that it can have. -/
theorem made_seq {S : Network → Prop} {E : Env} {v : Val} {l : List Val} (h : MadeOn S E v) (hs : IsSeq v l) : ∀ x ∈ l, MadeOn S E x := by
  have no : ∀ {c : Cls} {p : Py Val}, Makes c p → p = .ok v → ∀ x ∈ l, MadeOn S E x := by
    intro c p hp h
    obtain ⟨t, x, rfl⟩ := hp v h
    rcases hs with e | e <;> cases e
  cases h with
  | list l' hl => rcases hs with e | e <;> cases e; exact hl
  | tuple l' hl => rcases hs with e | e <;> cases e; exact hl
  | outpoint _ _ _ _ _ h => exact no (makes_outpoint _ _) h
  | txIn _ _ _ _ _ _ _ _ _ h => exact no (makes_txIn _ _ _ _) h
  | txOut _ _ _ _ _ h => exact no (makes_txOut _ _) h
  | item _ _ _ h => exact no (makes_item _) h
  | witness _ _ _ h => exact no (makes_witness _) h
  | txOn n _ _ _ _ _ _ _ hn _ _ _ _ _ _ h => exact no (makes_tx ⟨n, E.H⟩ _ _ _ _ _ _) h
  | sproutProofOn n _ _ _ _ _ _ _ _ _ hn _ _ _ _ _ _ _ _ h => exact no (makes_sproutProof ⟨n, E.H⟩ _ _ _ _ _ _ _ _) h
  | saplingProofOn n _ _ _ _ hn _ _ _ h => exact no (makes_saplingProof ⟨n, E.H⟩ _ _ _) h
  | sproutJsOn n _ _ _ _ _ _ _ _ _ _ _ hn _ _ _ _ _ _ _ _ _ _ h => exact no (makes_sproutJs ⟨n, E.H⟩ _ _ _ _ _ _ _ _ _ _) h
  | saplingJsOn n _ _ _ _ _ _ _ _ _ _ _ hn _ _ _ _ _ _ _ _ _ _ h => exact no (makes_saplingJs ⟨n, E.H⟩ _ _ _ _ _ _ _ _ _ _) h
  | saplingSpendOn n _ _ _ _ _ _ _ hn _ _ _ _ _ _ h => exact no (makes_saplingSpend ⟨n, E.H⟩ _ _ _ _ _ _) h
  | saplingOutputOn n _ _ _ _ _ _ _ hn _ _ _ _ _ _ h => exact no (makes_saplingOutput ⟨n, E.H⟩ _ _ _ _ _ _) h
  | sproutTxOn n _ _ _ _ _ _ _ _ hn _ _ _ _ _ _ _ h => exact no (makes_sproutTx ⟨n, E.H⟩ _ _ _ _ _ _ _) h
  | overwinterTxOn n _ _ _ _ _ _ _ _ hn _ _ _ _ _ _ _ h => exact no (makes_overwinterTx ⟨n, E.H⟩ _ _ _ _ _ _ _) h
  | saplingTxOn n _ _ _ _ _ _ _ _ _ _ _ _ hn _ _ _ _ _ _ _ _ _ _ _ h => exact no (makes_saplingTx ⟨n, E.H⟩ _ _ _ _ _ _ _ _ _ _ _) h
  | dcrOutpointOn n _ _ _ _ hn _ _ _ h => exact no (makes_dcrOutpoint ⟨n, E.H⟩ _ _ _) h
  | dcrTxInOn n _ _ _ hn _ _ h => exact no (makes_dcrTxIn ⟨n, E.H⟩ _ _) h
  | dcrTxOutOn n _ _ _ _ hn _ _ _ h => exact no (makes_dcrTxOut ⟨n, E.H⟩ _ _ _) h
  | dcrWitnessOn n _ _ _ _ _ _ hn _ _ _ _ _ h => exact no (makes_dcrWitness ⟨n, E.H⟩ _ _ _ _ _) h
  | dcrTxOn n _ _ _ _ _ _ _ hn _ _ _ _ _ _ h => exact no (makes_dcrTx ⟨n, E.H⟩ _ _ _ _ _ _) h
  | _ => rcases hs with e | e <;> cases e

/-- The value was made by the constructor of the class, from values that satisfy `P`. -/
def MadeBy (P : Val → Prop) (E : Env) (v : Val) : Cls → Prop
  | .outpoint => ∃ a b, Dyn.outpoint a b = .ok v
  | .txIn => ∃ a b c d, Dyn.txIn a b c d = .ok v
  | .txOut => ∃ a b, Dyn.txOut a b = .ok v
  | .item => ∃ a, Dyn.item a = .ok v
  | .witness => ∃ a, P a ∧ Dyn.witness a = .ok v
  | .tx => ∃ a b c d e f, P c ∧ P d ∧ P e ∧ Dyn.tx E a b c d e f = .ok v
  | .sproutProof => ∃ a b c d e f g h, Dyn.sproutProof E.net a b c d e f g h = .ok v
  | .saplingProof => ∃ a b c, Dyn.saplingProof E.net a b c = .ok v
  | .sproutJs => ∃ a b c d e f g h i j, P i ∧ Dyn.sproutJs E.net a b c d e f g h i j = .ok v
  | .saplingJs => ∃ a b c d e f g h i j, P i ∧ Dyn.saplingJs E.net a b c d e f g h i j = .ok v
  | .saplingSpend => ∃ a b c d e f, P e ∧ Dyn.saplingSpend E.net a b c d e f = .ok v
  | .saplingOutput => ∃ a b c d e f, P f ∧ Dyn.saplingOutput E.net a b c d e f = .ok v
  | .sproutTx => ∃ a b c d e f g, P b ∧ P c ∧ P e ∧ Dyn.sproutTx E a b c d e f g = .ok v
  | .overwinterTx => ∃ a b c d e f g, P a ∧ P b ∧ P e ∧ Dyn.overwinterTx E a b c d e f g = .ok v
  | .saplingTx => ∃ a b c d e f g h i j k, P a ∧ P b ∧ P f ∧ P g ∧ P h ∧ Dyn.saplingTx E a b c d e f g h i j k = .ok v
  | .dcrOutpoint => ∃ a b c, Dyn.dcrOutpoint E.net a b c = .ok v
  | .dcrTxIn => ∃ a b, Dyn.dcrTxIn E.net a b = .ok v
  | .dcrTxOut => ∃ a b c, Dyn.dcrTxOut E.net a b c = .ok v
  | .dcrWitness => ∃ a b c d e, Dyn.dcrWitness E.net a b c d e = .ok v
  | .dcrTx => ∃ a b c d e f, P b ∧ P c ∧ P f ∧ Dyn.dcrTx E.net a b c d e f = .ok v
  | .other => True

/-- An object of a class was made by the constructor of the class, while one of the networks was selected. -/
theorem made_on {S : Network → Prop} {E : Env} {c : Cls} {t : List Val} {x : Bytes} (h : MadeOn S E (.obj c t x)) :
    ∃ n, (n = E.net ∨ S n) ∧ MadeBy (MadeOn S E) ⟨n, E.H⟩ (.obj c t x) c := by
  generalize hv : Val.obj c t x = v at h
  cases h with
  | outpoint _ _ _ _ _ h => subst hv; obtain ⟨_, _, e⟩ := makes_outpoint _ _ _ h; cases e; exact ⟨E.net, .inl rfl, _, _, h⟩
  | txIn _ _ _ _ _ _ _ _ _ h => subst hv; obtain ⟨_, _, e⟩ := makes_txIn _ _ _ _ _ h; cases e; exact ⟨E.net, .inl rfl, _, _, _, _, h⟩
  | txOut _ _ _ _ _ h => subst hv; obtain ⟨_, _, e⟩ := makes_txOut _ _ _ h; cases e; exact ⟨E.net, .inl rfl, _, _, h⟩
  | item _ _ _ h => subst hv; obtain ⟨_, _, e⟩ := makes_item _ _ h; cases e; exact ⟨E.net, .inl rfl, _, h⟩
  | witness _ _ h0 h => subst hv; obtain ⟨_, _, e⟩ := makes_witness _ _ h; cases e; exact ⟨E.net, .inl rfl, _, h0, h⟩
  | txOn n _ _ _ _ _ _ _ hn _ _ h2 h3 h4 _ h => subst hv; obtain ⟨_, _, e⟩ := makes_tx ⟨n, E.H⟩ _ _ _ _ _ _ _ h; cases e; exact ⟨n, hn, _, _, _, _, _, _, h2, h3, h4, h⟩
  | sproutProofOn n _ _ _ _ _ _ _ _ _ hn _ _ _ _ _ _ _ _ h => subst hv; obtain ⟨_, _, e⟩ := makes_sproutProof ⟨n, E.H⟩ _ _ _ _ _ _ _ _ _ h; cases e; exact ⟨n, hn, _, _, _, _, _, _, _, _, h⟩
  | saplingProofOn n _ _ _ _ hn _ _ _ h => subst hv; obtain ⟨_, _, e⟩ := makes_saplingProof ⟨n, E.H⟩ _ _ _ _ h; cases e; exact ⟨n, hn, _, _, _, h⟩
  | sproutJsOn n _ _ _ _ _ _ _ _ _ _ _ hn _ _ _ _ _ _ _ _ h8 _ h => subst hv; obtain ⟨_, _, e⟩ := makes_sproutJs ⟨n, E.H⟩ _ _ _ _ _ _ _ _ _ _ _ h; cases e; exact ⟨n, hn, _, _, _, _, _, _, _, _, _, _, h8, h⟩
  | saplingJsOn n _ _ _ _ _ _ _ _ _ _ _ hn _ _ _ _ _ _ _ _ h8 _ h => subst hv; obtain ⟨_, _, e⟩ := makes_saplingJs ⟨n, E.H⟩ _ _ _ _ _ _ _ _ _ _ _ h; cases e; exact ⟨n, hn, _, _, _, _, _, _, _, _, _, _, h8, h⟩
  | saplingSpendOn n _ _ _ _ _ _ _ hn _ _ _ _ h4 _ h => subst hv; obtain ⟨_, _, e⟩ := makes_saplingSpend ⟨n, E.H⟩ _ _ _ _ _ _ _ h; cases e; exact ⟨n, hn, _, _, _, _, _, _, h4, h⟩
  | saplingOutputOn n _ _ _ _ _ _ _ hn _ _ _ _ _ h5 h => subst hv; obtain ⟨_, _, e⟩ := makes_saplingOutput ⟨n, E.H⟩ _ _ _ _ _ _ _ h; cases e; exact ⟨n, hn, _, _, _, _, _, _, h5, h⟩
  | sproutTxOn n _ _ _ _ _ _ _ _ hn _ h1 h2 _ h4 _ _ h => subst hv; obtain ⟨_, _, e⟩ := makes_sproutTx ⟨n, E.H⟩ _ _ _ _ _ _ _ _ h; cases e; exact ⟨n, hn, _, _, _, _, _, _, _, h1, h2, h4, h⟩
  | overwinterTxOn n _ _ _ _ _ _ _ _ hn h0 h1 _ _ h4 _ _ h => subst hv; obtain ⟨_, _, e⟩ := makes_overwinterTx ⟨n, E.H⟩ _ _ _ _ _ _ _ _ h; cases e; exact ⟨n, hn, _, _, _, _, _, _, _, h0, h1, h4, h⟩
  | saplingTxOn n _ _ _ _ _ _ _ _ _ _ _ _ hn h0 h1 _ _ _ h5 h6 h7 _ _ _ h => subst hv; obtain ⟨_, _, e⟩ := makes_saplingTx ⟨n, E.H⟩ _ _ _ _ _ _ _ _ _ _ _ _ h; cases e; exact ⟨n, hn, _, _, _, _, _, _, _, _, _, _, _, h0, h1, h5, h6, h7, h⟩
  | dcrOutpointOn n _ _ _ _ hn _ _ _ h => subst hv; obtain ⟨_, _, e⟩ := makes_dcrOutpoint ⟨n, E.H⟩ _ _ _ _ h; cases e; exact ⟨n, hn, _, _, _, h⟩
  | dcrTxInOn n _ _ _ hn _ _ h => subst hv; obtain ⟨_, _, e⟩ := makes_dcrTxIn ⟨n, E.H⟩ _ _ _ h; cases e; exact ⟨n, hn, _, _, h⟩
  | dcrTxOutOn n _ _ _ _ hn _ _ _ h => subst hv; obtain ⟨_, _, e⟩ := makes_dcrTxOut ⟨n, E.H⟩ _ _ _ _ h; cases e; exact ⟨n, hn, _, _, _, h⟩
  | dcrWitnessOn n _ _ _ _ _ _ hn _ _ _ _ _ h => subst hv; obtain ⟨_, _, e⟩ := makes_dcrWitness ⟨n, E.H⟩ _ _ _ _ _ _ h; cases e; exact ⟨n, hn, _, _, _, _, _, h⟩
  | dcrTxOn n _ _ _ _ _ _ _ hn _ h1 h2 _ _ h5 h => subst hv; obtain ⟨_, _, e⟩ := makes_dcrTx ⟨n, E.H⟩ _ _ _ _ _ _ _ h; cases e; exact ⟨n, hn, _, _, _, _, _, _, h1, h2, h5, h⟩
  | other b => cases hv; exact ⟨E.net, .inl rfl, trivial⟩
  | _ => cases hv

theorem made_inv {E : Env} {c : Cls} {t : List Val} {x : Bytes} (h : Made E (.obj c t x)) : MadeBy (Made E) E (.obj c t x) c := by
  obtain ⟨n, rfl | h0, h⟩ := made_on h
  · exact h
  · exact h0.elim

/-- Elementwise existence gives a list. -/
theorem contents_map {α : Type} (f : α → Bytes) (P : α → Prop) {l : List Val} {bs : List Bytes} (hl : Contents l bs)
    (h : ∀ v ∈ l, ∃ w, P w ∧ v.content = some (f w)) : ∃ ws : List α, ws.length = l.length ∧ bs = ws.map f ∧ ∀ w ∈ ws, P w := by
  induction l generalizing bs with
  | nil =>
    cases bs with
    | nil => exact ⟨[], rfl, rfl, fun _ h => nomatch h⟩
    | cons _ _ => simp [Contents] at hl
  | cons v l ih =>
    cases bs with
    | nil => simp [Contents] at hl
    | cons b bs =>
      simp only [Contents, List.map_cons, List.cons.injEq] at hl
      obtain ⟨w, hw, e⟩ := h v (List.mem_cons_self ..)
      obtain ⟨ws, h1, h2, h3⟩ := ih hl.2 fun v hv => h v (List.mem_cons_of_mem _ hv)
      rw [hl.1] at e
      refine ⟨w :: ws, by simp [h1], by rw [Option.some.inj e, h2]; rfl, ?_⟩
      intro w' hw'
      rcases List.mem_cons.1 hw' with rfl | h
      · exact hw
      · exact h3 w' h

/-- C114: whatever a program does with the constructors, an input it gets is an input on the wire: 32 bytes of id, 4 of index, a script of at most 1650 bytes, 4 bytes of
sequence. -/
theorem C114_safe_in {S : Network → Prop} (E : Env) (v : Val) (h : MadeOn S E v) (hc : v.isInstance .txIn = true) :
    ∃ w : WireIn, (w.WF ∧ w.script.length ≤ 1650) ∧ v.content = some w.bytes := by
  cases v <;> simp [Val.isInstance] at hc
  next c t x =>
  subst hc
  obtain ⟨n, hS, o, s, r, q, h⟩ := made_on h
  obtain ⟨bo, bs, br, bq, sig, _, _, _, _, _, _, lo, hl, lq, _, _, _, e⟩ := ((C114_txIn _ _ _ _).1 _).1 h
  cases e
  exact ⟨⟨bo.take 32, bo.drop 32, bs ++ br, bq⟩, ⟨⟨by simp [lo], by simp [lo], lq, by simp; omega⟩, by simp; omega⟩, rfl⟩

/-- C114: an output is an output on the wire. -/
theorem C114_safe_out {S : Network → Prop} (E : Env) (v : Val) (h : MadeOn S E v) (hc : v.isInstance .txOut = true) :
    ∃ w : WireOut, w.WF ∧ v.content = some w.bytes := by
  cases v <;> simp [Val.isInstance] at hc
  next c t x =>
  subst hc
  obtain ⟨n, hS, a, b, h⟩ := made_on h
  obtain ⟨x, y, _, _, hx, hy, e⟩ := ((C114_txOut _ _).1 _).1 h
  cases e
  exact ⟨⟨x, y⟩, ⟨hx, hy⟩, rfl⟩

/-- C114: a witness is a stack of items on the wire. -/
theorem C114_safe_witness {S : Network → Prop} (E : Env) (v : Val) (h : MadeOn S E v) (hc : v.isInstance .witness = true) :
    ∃ w : List Bytes, WitWF w ∧ v.content = some (wireWitness w) := by
  cases v <;> simp [Val.isInstance] at hc
  next c t x =>
  subst hc
  obtain ⟨n, hS, s, hs, h⟩ := made_on h
  obtain ⟨l, bs, hl, hi, hlt, hb, e⟩ := ((C114_witness _).1 _).1 h
  cases e
  have hm : ∀ v ∈ l, MadeOn S E v := by
    rcases hl with hl | ⟨-, rfl⟩
    · exact made_seq hs hl
    · exact fun _ h => nomatch h
  obtain ⟨ws, h1, h2, h3⟩ := contents_map varBytes (fun b => b.length < 2 ^ 64) hb (fun v hv => by
    have hcl := List.all_eq_true.1 hi v hv
    have hmv := hm v hv
    cases v <;> simp [Val.isInstance] at hcl
    next c t x =>
    subst hcl
    obtain ⟨n, hS, a, h⟩ := made_on hmv
    obtain ⟨x, _, hx, e⟩ := ((C114_item _).1 _).1 h
    cases e
    exact ⟨x, hx, rfl⟩)
  exact ⟨ws, ⟨by omega, h3⟩, by rw [wireWitness, ← h2]; rfl⟩

/-- `C114_safe`, also for programs that select other networks: the id is the hash of the network that was selected when the object was made (utils.py:138-142). -/
theorem tx_on {S : Network → Prop} (hs : ∀ n, S n → n.Supported) (E : Env) (hn : E.net.Supported) (v : Val) (h : MadeOn S E v) (hc : v.isInstance .tx = true) :
    ∃ w : WireTx, w.version.length = 4 ∧ w.lockTime.length = 4 ∧
      (w.ins ≠ [] ∧ w.ins.length < 2 ^ 64 ∧ ∀ i ∈ w.ins, i.WF ∧ i.script.length ≤ 1650) ∧ (w.outs ≠ [] ∧ w.outs.length < 2 ^ 64 ∧ ∀ o ∈ w.outs, o.WF) ∧
      (∀ ws, w.wits = some ws → (ws = [] ∨ ws.length = w.ins.length) ∧ ∀ s ∈ ws, WitWF s) ∧
      ∃ n, (n = E.net ∨ S n) ∧ ∃ attrs, v = .obj .tx attrs w.bytes ∧ attrs[6]? = some (.bytes (Env.hash256 ⟨n, E.H⟩ w.stripped)) ∧ attrs[8]? = some (.bytes (Env.hash256 ⟨n, E.H⟩ w.stripped).reverse) ∧
        (w.wits = none → attrs[7]? = some .none ∧ attrs[9]? = some .none) ∧
        (w.wits ≠ none → attrs[7]? = some (.bytes (Env.hash256 ⟨n, E.H⟩ w.bytes)) ∧ attrs[9]? = some (.bytes (Env.hash256 ⟨n, E.H⟩ w.bytes).reverse)) := by
  cases v <;> simp [Val.isInstance] at hc
  next c t x =>
  subst hc
  obtain ⟨n, hS, a, b, i, o, w, f, hi, ho, hw, h⟩ := made_on h
  obtain ⟨bv, bl, ins, outs, bi, bo, stored, bw, ha, hwits, hv⟩ := (C114_tx ⟨n, E.H⟩ (hS.elim (fun e => e ▸ hn) (hs n)) _ _ _ _ _ _ _).1 h
  obtain ⟨wi, i1, i2, i3⟩ := contents_map WireIn.bytes (fun w => w.WF ∧ w.script.length ≤ 1650) ha.ins_bytes
    (fun v hv => C114_safe_in E v (made_seq hi ha.ins_seq v hv) (List.all_eq_true.1 ha.ins_cls v hv))
  obtain ⟨wo, o1, o2, o3⟩ := contents_map WireOut.bytes (fun w => w.WF) ha.outs_bytes
    (fun v hv => C114_safe_out E v (made_seq ho ha.outs_seq v hv) (List.all_eq_true.1 ha.outs_cls v hv))
  have hine : wi ≠ [] := fun e => ha.ins_ne (List.length_eq_zero_iff.1 (by rw [← i1, e]; rfl))
  have hone : wo ≠ [] := fun e => ha.outs_ne (List.length_eq_zero_iff.1 (by rw [← o1, e]; rfl))
  have hilt : wi.length < 2 ^ 64 := by rw [i1]; exact ha.ins_lt
  have holt : wo.length < 2 ^ 64 := by rw [o1]; exact ha.outs_lt
  rcases hv with ⟨-, e⟩ | ⟨-, -, -, e⟩
  · refine ⟨⟨bv, wi, wo, none, bl⟩, ha.version_len, ha.lock_len, ⟨hine, hilt, i3⟩, ⟨hone, holt, o3⟩, (fun ws h => by cases h), n, hS, t, ?_⟩
    rw [legacyObj, i2, o2] at e
    cases e
    exact ⟨rfl, rfl, rfl, fun _ => ⟨rfl, rfl⟩, fun h => absurd rfl h⟩
  · have hww : ∃ ws : List (List Bytes), (ws = [] ∨ ws.length = wi.length) ∧ bw = ws.map wireWitness ∧ ∀ s ∈ ws, WitWF s := by
      rcases hwits with ⟨-, -, e⟩ | ⟨-, -, e⟩ | ⟨l, -, hs, hl, hcl, hb, -⟩
      · exact ⟨[], .inl rfl, e, fun _ h => nomatch h⟩
      · exact ⟨[], .inl rfl, e, fun _ h => nomatch h⟩
      · obtain ⟨ws, w1, w2, w3⟩ := contents_map wireWitness WitWF hb
          (fun v hv => C114_safe_witness E v (made_seq hw hs v hv) (List.all_eq_true.1 hcl v hv))
        exact ⟨ws, .inr (by omega), w2, w3⟩
    obtain ⟨ws, w1, w2, w3⟩ := hww
    refine ⟨⟨bv, wi, wo, some ws, bl⟩, ha.version_len, ha.lock_len, ⟨hine, hilt, i3⟩, ⟨hone, holt, o3⟩, (fun ws' h => by cases h; exact ⟨w1, w3⟩), n, hS, t, ?_⟩
    rw [segwitObj, i2, o2, w2] at e
    cases e
    exact ⟨rfl, rfl, rfl, fun h => (by cases h), fun _ => ⟨rfl, rfl⟩⟩


/-- C114: whatever a program does with the constructors, and whatever it passes to them, a transaction it gets is a transaction: the object's bytes are those of a transaction on
the wire with inputs and outputs, all fields of their widths, and no witnesses or one for each input; its id is the hash of the transaction without witnesses. -/
theorem C114_safe (E : Env) (hn : E.net.Supported) (v : Val) (h : Made E v) (hc : v.isInstance .tx = true) :
    ∃ w : WireTx, w.version.length = 4 ∧ w.lockTime.length = 4 ∧
      (w.ins ≠ [] ∧ w.ins.length < 2 ^ 64 ∧ ∀ i ∈ w.ins, i.WF ∧ i.script.length ≤ 1650) ∧ (w.outs ≠ [] ∧ w.outs.length < 2 ^ 64 ∧ ∀ o ∈ w.outs, o.WF) ∧
      (∀ ws, w.wits = some ws → (ws = [] ∨ ws.length = w.ins.length) ∧ ∀ s ∈ ws, WitWF s) ∧
      ∃ attrs, v = .obj .tx attrs w.bytes ∧ attrs[6]? = some (.bytes (E.hash256 w.stripped)) ∧ attrs[8]? = some (.bytes (E.hash256 w.stripped).reverse) ∧
        (w.wits = none → attrs[7]? = some .none ∧ attrs[9]? = some .none) ∧
        (w.wits ≠ none → attrs[7]? = some (.bytes (E.hash256 w.bytes)) ∧ attrs[9]? = some (.bytes (E.hash256 w.bytes).reverse)) := by
  obtain ⟨w, h1, h2, h3, h4, h5, n, rfl | h, h6⟩ := tx_on (fun _ h => h.elim) E hn v h hc
  · exact ⟨w, h1, h2, h3, h4, h5, h6⟩
  · exact h.elim

end Verif.Props
