import Verif.Props.DynBuilder4

/-! Property C122: what the functions of tx/tx_builder.py and simple.py take for numbers, and where they put them. -/

namespace Verif.Props
open Verif Spec Dyn

/-- Whatever `p` makes, its attribute at position `k` is `a`. -/
def Stores (k : Nat) (a : Val) (p : Py Val) : Prop := ∀ v, p = .ok v → v.attr k = .ok a

theorem Stores.bind {α : Type} {k : Nat} {a : Val} {x : Py α} {f : α → Py Val} (h : ∀ y, Stores k a (f y)) : Stores k a (x >>= f) := by
  intro v hv
  obtain ⟨y, -, hy⟩ := bind_ok_iff.1 hv
  exact h y v hy

theorem Stores.obj {k : Nat} {a : Val} {c : Cls} {l : List Val} {b : Bytes} (h : l[k]? = some a) : Stores k a (.ok (.obj c l b)) := by
  intro v hv
  cases hv
  simp only [Val.attr, h]

theorem stores_outpoint (t i : Val) : Stores 1 i (Dyn.outpoint t i) := by
  unfold Dyn.outpoint
  repeat' (refine Stores.bind fun _ => ?_)
  exact .obj rfl

theorem stores_dcrOutpoint (net : Network) (t i r : Val) : Stores 1 i (Dyn.dcrOutpoint net t i r) ∧ Stores 2 r (Dyn.dcrOutpoint net t i r) := by
  unfold Dyn.dcrOutpoint
  constructor <;> repeat' (refine Stores.bind fun _ => ?_)
  all_goals exact .obj rfl

theorem stores_txIn (o s r q : Val) : Stores 4 q (Dyn.txIn o s r q) := by
  unfold Dyn.txIn
  repeat' (refine Stores.bind fun _ => ?_)
  exact .obj rfl

theorem stores_dcrTxIn (net : Network) (o q : Val) : Stores 1 q (Dyn.dcrTxIn net o q) := by
  unfold Dyn.dcrTxIn
  repeat' (refine Stores.bind fun _ => ?_)
  exact .obj rfl

theorem stores_output (E : Env) (a s w : Val) : Stores 0 a (Dyn.makeOutput E a s w) := by
  unfold Dyn.makeOutput
  split
  · unfold Dyn.dcrTxOut
    repeat' (refine Stores.bind fun _ => ?_)
    exact .obj rfl
  · unfold Dyn.txOut
    repeat' (refine Stores.bind fun _ => ?_)
    exact .obj rfl

theorem stores_tx (E : Env) (v f i o w l : Val) : Stores 0 v (Dyn.tx E v f i o w l) ∧ Stores 5 l (Dyn.tx E v f i o w l) := by
  rw [tx_eq]
  constructor <;> repeat' (refine Stores.bind fun _ => ?_)
  all_goals first
    | exact .obj rfl
    | (split <;> repeat' (refine Stores.bind fun _ => ?_))
  all_goals exact .obj rfl

theorem stores_dcrTx (net : Network) (v i o l e w : Val) :
    Stores 0 v (Dyn.dcrTx net v i o l e w) ∧ Stores 3 l (Dyn.dcrTx net v i o l e w) ∧ Stores 4 e (Dyn.dcrTx net v i o l e w) ∧ Stores 5 w (Dyn.dcrTx net v i o l e w) := by
  unfold Dyn.dcrTx
  refine ⟨?_, ?_, ?_, ?_⟩ <;> repeat' (refine Stores.bind fun _ => ?_)
  all_goals exact .obj rfl

theorem stores_sproutTx (E : Env) (v i o l j p s : Val) : Stores 0 v (Dyn.sproutTx E v i o l j p s) ∧ Stores 4 l (Dyn.sproutTx E v i o l j p s) := by
  unfold Dyn.sproutTx
  refine ⟨?_, ?_⟩ <;> repeat' (refine Stores.bind fun _ => ?_)
  all_goals exact .obj rfl

theorem stores_overwinterTx (E : Env) (i o l e j p s : Val) : Stores 2 l (Dyn.overwinterTx E i o l e j p s) ∧ Stores 3 e (Dyn.overwinterTx E i o l e j p s) := by
  unfold Dyn.overwinterTx
  refine ⟨?_, ?_⟩ <;> repeat' (refine Stores.bind fun _ => ?_)
  all_goals exact .obj rfl

theorem stores_saplingTx (E : Env) (i o l e b x y j p s g : Val) :
    Stores 3 l (Dyn.saplingTx E i o l e b x y j p s g) ∧ Stores 4 e (Dyn.saplingTx E i o l e b x y j p s g) ∧ Stores 5 b (Dyn.saplingTx E i o l e b x y j p s g) := by
  unfold Dyn.saplingTx
  refine ⟨?_, ?_, ?_⟩ <;> repeat' (refine Stores.bind fun _ => ?_)
  all_goals exact .obj rfl

/-! ### C122 -/

/-- Where a transaction of the class keeps its lock time: the position among the attributes in the order in which the constructor lists them. -/
def lockPos : Cls → Nat
  | .tx => 5
  | .sproutTx => 4
  | .overwinterTx => 2
  | _ => 3

/-- Likewise the expiry height. -/
def expiryPos : Cls → Nat
  | .overwinterTx => 3
  | _ => 4

/-- C122: an output made from a value holds the 8 bytes of it, and the value was an integer that has 8 bytes. -/
theorem C122_outputs (E : Env) (v s w d addr o : Val) :
    (Dyn.makeShOutput E v s w = .ok o ∨ Dyn.makePkhOutput E v s w = .ok o ∨ Dyn.simpleOutput E v addr = .ok o → ∃ b, Num 8 v b ∧ o.attr 0 = .ok (.bytes b)) ∧
    (Dyn.makeOpReturnOutput E d = .ok o → o.attr 0 = .ok (.bytes (List.replicate 8 0))) := by
  constructor
  · rintro (h | h | h)
    · simp only [Dyn.makeShOutput, bind_ok_iff] at h
      obtain ⟨x, hx, t, -, h⟩ := h
      obtain ⟨b, hb, rfl⟩ := toLe_ok.1 hx
      exact ⟨b, hb, stores_output E _ _ _ o h⟩
    · simp only [Dyn.makePkhOutput, bind_ok_iff] at h
      obtain ⟨x, hx, t, -, h⟩ := h
      obtain ⟨b, hb, rfl⟩ := toLe_ok.1 hx
      exact ⟨b, hb, stores_output E _ _ _ o h⟩
    · simp only [Dyn.simpleOutput, bind_ok_iff] at h
      obtain ⟨t, -, x, hx, h⟩ := h
      obtain ⟨b, hb, rfl⟩ := toLe_ok.1 hx
      exact ⟨b, hb, stores_output E _ _ _ o h⟩
  · intro h
    simp only [Dyn.makeOpReturnOutput, bind_ok_iff] at h
    obtain ⟨n, -, _, -, xs, -, t, -, z, hz, h⟩ := h
    cases hz
    exact stores_output E _ _ _ o h

/-- C122: an outpoint holds the 4 bytes of the index, on Decred also the byte of the tree (0 if none is given); an input holds the 4 bytes of the sequence number. -/
theorem C122_inputs (E : Env) (t i r s w q x o : Val) :
    (Dyn.makeOutpoint E t i r = .ok o ∨ Dyn.simpleOutpoint E t i r = .ok o → ∃ b, Num 4 i b ∧ o.attr 1 = .ok (.bytes b) ∧
      (E.net.isDecred = true → ∃ c, (r = .none ∧ c = [0] ∨ Num 1 r c) ∧ o.attr 2 = .ok (.bytes c))) ∧
    (Dyn.makeLegacyInput E x s w q = .ok o ∨ Dyn.makeWitnessInput E x q = .ok o ∨ Dyn.simpleInput E x q = .ok o →
      ∃ b, Num 4 q b ∧ o.attr (if E.net.isDecred then 1 else 4) = .ok (.bytes b)) := by
  have op : ∀ t, Dyn.makeOutpoint E t i r = .ok o → ∃ b, Num 4 i b ∧ o.attr 1 = .ok (.bytes b) ∧
      (E.net.isDecred = true → ∃ c, (r = .none ∧ c = [0] ∨ Num 1 r c) ∧ o.attr 2 = .ok (.bytes c)) := by
    intro t h
    unfold Dyn.makeOutpoint at h
    split at h
    next hd =>
      rw [bind_ok_iff] at h
      obtain ⟨y, hy, h⟩ := h
      rw [bind_ok_iff] at h
      obtain ⟨z, hz, h⟩ := h
      obtain ⟨b, hb, rfl⟩ := toLe_ok.1 hz
      refine ⟨b, hb, (stores_dcrOutpoint E.net _ _ _).1 o h, fun _ => ?_⟩
      have h2 := (stores_dcrOutpoint E.net _ _ _).2 o h
      split at hy
      · obtain ⟨c, hc, rfl⟩ := toLe_ok.1 hy
        exact ⟨c, .inr hc, h2⟩
      next hg =>
        cases hy
        exact ⟨[0], .inl ⟨given_false.1 (by simpa using hg), rfl⟩, h2⟩
    next hd =>
      rw [bind_ok_iff] at h
      obtain ⟨z, hz, h⟩ := h
      obtain ⟨b, hb, rfl⟩ := toLe_ok.1 hz
      exact ⟨b, hb, stores_outpoint _ _ o h, fun e => absurd e hd⟩
  have inp : ∀ s w, Dyn.makeLegacyInput E x s w q = .ok o → ∃ b, Num 4 q b ∧ o.attr (if E.net.isDecred then 1 else 4) = .ok (.bytes b) := by
    intro s w h
    unfold Dyn.makeLegacyInput at h
    split at h
    next hd =>
      simp only [Dyn.makeDecredInput, bind_ok_iff] at h
      obtain ⟨z, hz, h⟩ := h
      obtain ⟨b, hb, rfl⟩ := toLe_ok.1 hz
      refine ⟨b, hb, ?_⟩
      rw [if_pos hd]
      exact stores_dcrTxIn E.net _ _ o h
    next hd =>
      rw [bind_ok_iff] at h
      obtain ⟨z, hz, h⟩ := h
      obtain ⟨b, hb, rfl⟩ := toLe_ok.1 hz
      refine ⟨b, hb, ?_⟩
      rw [if_neg hd]
      exact stores_txIn _ _ _ _ o h
  constructor
  · rintro (h | h)
    · exact op t h
    · simp only [Dyn.simpleOutpoint, bind_ok_iff] at h
      obtain ⟨b, -, h⟩ := h
      exact op _ h
  · rintro (h | h | h)
    · exact inp _ _ h
    · exact inp _ _ h
    · exact inp _ _ h

example : Num 4 (.int 513) [1, 2, 0, 0] ∧ ¬ (∃ b, Num 4 (.bytes [1, 2, 0, 0]) b) ∧ (Dyn.makeOutpoint dcrEnv (.bytes (List.replicate 32 1)) (.int 513) .none).isOk = true ∧
    (Dyn.makePkhOutput toyEnv (.int 513) (.bytes [2]) .none).isOk = true :=
  ⟨⟨rfl, rfl⟩, (by rintro ⟨b, -, h⟩; cases h), rfl, rfl⟩

/-- C122: a transaction holds the 4 bytes of the lock time; `Tx` and `DecredTx` those of the version (`SproutTx` the version itself, which was 4 bytes and not an integer);
`DecredTx`, `OverwinterTx` and `SaplingTx` those of the expiry height; `SaplingTx` the 8 bytes of the value balance. `DecredTx` gets a list of which `tx_witnesses` is the only
element. -/
theorem C122_make_tx (E : Env) (v i o l : Val) (k : TxKw) (t : Val) (c : Cls) (hc : c = txClass E.net k.txJoinsplits.given) (h : Dyn.makeTx E v i o l k = .ok t) :
    (∃ b, Num 4 l b ∧ t.attr (lockPos c) = .ok (.bytes b)) ∧
    (c = .tx ∨ c = .dcrTx → ∃ b, Num 4 v b ∧ t.attr 0 = .ok (.bytes b)) ∧
    (c = .sproutTx → t.attr 0 = .ok v ∧ ∃ b, Byteslike v b ∧ b.length = 4) ∧
    (c = .dcrTx ∨ c = .overwinterTx ∨ c = .saplingTx → ∃ b, Num 4 k.expiry b ∧ t.attr (expiryPos c) = .ok (.bytes b)) ∧
    (c = .saplingTx → ∃ b, Num 8 k.valueBalance b ∧ t.attr 5 = .ok (.bytes b)) ∧
    (c = .dcrTx → t.attr 5 = .ok (.list [k.txWitnesses])) := by
  unfold txClass at hc
  unfold Dyn.makeTx at h
  split at h
  next h1 =>
    rw [if_pos h1] at hc
    subst hc
    simp only [bind_ok_iff] at h
    obtain ⟨x, hx, y, hy, z, hz, h⟩ := h
    obtain ⟨bv, hv, rfl⟩ := toLe_ok.1 hx
    obtain ⟨bl, hl, rfl⟩ := toLe_ok.1 hy
    obtain ⟨be, he, rfl⟩ := toLe_ok.1 hz
    have s := stores_dcrTx E.net (.bytes bv) i o (.bytes bl) (.bytes be) (.list [k.txWitnesses])
    exact ⟨⟨bl, hl, s.2.1 t h⟩, fun _ => ⟨bv, hv, s.1 t h⟩, (by intro e; cases e), fun _ => ⟨be, he, s.2.2.1 t h⟩, (by intro e; cases e), fun _ => s.2.2.2 t h⟩
  next h1 =>
  rw [if_neg h1] at hc
  split at h
  next h2 =>
    rw [if_pos h2] at hc
    subst hc
    simp only [bind_ok_iff] at h
    obtain ⟨y, hy, h⟩ := h
    obtain ⟨bl, hl, rfl⟩ := toLe_ok.1 hy
    have s := stores_sproutTx E v i o (.bytes bl) k.txJoinsplits k.joinsplitPubkey k.joinsplitSig
    refine ⟨⟨bl, hl, s.2 t h⟩, (by simp), fun _ => ⟨s.1 t h, ?_⟩, (by simp), (by simp), (by simp)⟩
    simp only [Dyn.sproutTx, bind_ok_iff] at h
    obtain ⟨-, -, -, -, _, hv, -⟩ := h
    obtain ⟨b, hb, hl⟩ := validate_ok.1 hv
    exact ⟨b, hb, hl 4 rfl⟩
  next h2 =>
  rw [if_neg h2] at hc
  split at h
  next h3 =>
    rw [if_pos h3] at hc
    subst hc
    simp only [bind_ok_iff] at h
    obtain ⟨y, hy, z, hz, h⟩ := h
    obtain ⟨bl, hl, rfl⟩ := toLe_ok.1 hy
    obtain ⟨be, he, rfl⟩ := toLe_ok.1 hz
    have s := stores_overwinterTx E i o (.bytes bl) (.bytes be) (if k.txJoinsplits.given then k.txJoinsplits else .list []) k.joinsplitPubkey k.joinsplitSig
    exact ⟨⟨bl, hl, s.1 t h⟩, (by simp), (by simp), fun _ => ⟨be, he, s.2 t h⟩, (by simp), (by simp)⟩
  next h3 =>
  rw [if_neg h3] at hc
  split at h
  next h4 =>
    rw [if_pos h4] at hc
    subst hc
    simp only [bind_ok_iff] at h
    obtain ⟨y, hy, z, hz, w, hw, h⟩ := h
    obtain ⟨bl, hl, rfl⟩ := toLe_ok.1 hy
    obtain ⟨be, he, rfl⟩ := toLe_ok.1 hz
    obtain ⟨bb, hb, rfl⟩ := toLe_ok.1 hw
    have s := stores_saplingTx E i o (.bytes bl) (.bytes be) (.bytes bb) k.txShieldedSpends k.txShieldedOutputs k.txJoinsplits k.joinsplitPubkey k.joinsplitSig k.bindingSig
    exact ⟨⟨bl, hl, s.1 t h⟩, (by simp), (by simp), fun _ => ⟨be, he, s.2.1 t h⟩, fun _ => ⟨bb, hb, s.2.2 t h⟩, (by simp)⟩
  next h4 =>
    rw [if_neg h4] at hc
    subst hc
    simp only [bind_ok_iff] at h
    obtain ⟨x, hx, y, hy, h⟩ := h
    obtain ⟨bv, hv, rfl⟩ := toLe_ok.1 hx
    obtain ⟨bl, hl, rfl⟩ := toLe_ok.1 hy
    have s := stores_tx E (.bytes bv) (if k.txWitnesses.given then .bytes E.net.segwitTxFlag else .none) i o k.txWitnesses (.bytes bl)
    exact ⟨⟨bl, hl, s.2 t h⟩, fun _ => ⟨bv, hv, s.1 t h⟩, (by simp), (by simp), (by simp), (by simp)⟩

example : (Dyn.makeTx toyEnv (.int 2) (.tuple [valIn]) (.list [valOut]) (.int 513) {}).isOk = true ∧
    (Dyn.makeTx sproutEnv (.bytes [1, 0, 0, 0]) (.tuple [valIn]) (.list [valOut]) (.int 513) { txJoinsplits := .list [] }).isOk = true ∧
    (Dyn.makeTx overEnv .none (.tuple [valIn]) (.list [valOut]) (.int 513) { expiry := .int 3 }).isOk = true ∧
    (Dyn.makeTx sapEnv .none (.tuple [valIn]) (.list [valOut]) (.int 513) { expiry := .int 3, txShieldedSpends := .list [], txShieldedOutputs := .tuple [], txJoinsplits := .list [] }).isOk = true ∧
    lockPos (txClass bitcoinMain false) = 5 := ⟨rfl, rfl, rfl, rfl, by decide +kernel⟩

/-- The numbers that `make_tx` turns into bytes, with their sizes. -/
def numbers (c : Cls) (v l : Val) (k : TxKw) : List (Val × Nat) :=
  match c with
  | .dcrTx => [(v, 4), (l, 4), (k.expiry, 4)]
  | .sproutTx => [(l, 4)]
  | .overwinterTx => [(l, 4), (k.expiry, 4)]
  | .saplingTx => [(l, 4), (k.expiry, 4), (k.valueBalance, 8)]
  | _ => [(v, 4), (l, 4)]

/-- How `v` is refused as a number of `k` bytes: an integer out of range, an object of the library, anything else. -/
def NotNum (k : Nat) (v : Val) (e : PyErr) : Prop :=
  (e = .overflowError ∧ ∃ n, v = .int n ∧ ¬ (0 ≤ n ∧ n < (256 ^ k : Nat))) ∨ (e = .typeError ∧ ∃ c l b, v = .obj c l b) ∨
  (e = .attributeError ∧ (∀ n, v ≠ .int n) ∧ ∀ c l b, v ≠ .obj c l b)

theorem toLe_cases (v : Val) (k : Nat) : (∃ b, Num k v b ∧ v.toLe k = .ok (.bytes b)) ∨ ∃ e, NotNum k v e ∧ v.toLe k = .error e := by
  cases h : v.toLe k with
  | ok w =>
    obtain ⟨b, hb, rfl⟩ := toLe_ok.1 h
    exact .inl ⟨b, hb, rfl⟩
  | error e => exact .inr ⟨e, toLe_error.1 h, rfl⟩

/-- C122: `make_tx` looks at its numbers first, in this order, and the first that is not an integer in range is refused: OverflowError for an integer out of range, TypeError for an
object of the library, AttributeError for everything else, bytes too. -/
theorem C122_refused (E : Env) (v i o l : Val) (k : TxKw) (pre post : List (Val × Nat)) (x : Val) (n : Nat)
    (hs : numbers (txClass E.net k.txJoinsplits.given) v l k = pre ++ (x, n) :: post) (hp : ∀ y ∈ pre, ∃ b, Num y.2 y.1 b) (hx : ¬ ∃ b, Num n x b) :
    ∃ e, NotNum n x e ∧ Dyn.makeTx E v i o l k = .error e := by
  have bad : ∃ e, NotNum n x e ∧ x.toLe n = .error e := by
    rcases toLe_cases x n with ⟨b, hb, -⟩ | h
    · exact absurd ⟨b, hb⟩ hx
    · exact h
  obtain ⟨e, hr, he⟩ := bad
  refine ⟨e, hr, ?_⟩
  have good : ∀ y ∈ pre, ∃ w, y.1.toLe y.2 = .ok w := by
    intro y hy
    obtain ⟨b, hb⟩ := hp y hy
    exact ⟨.bytes b, toLe_ok.2 ⟨b, hb, rfl⟩⟩
  unfold txClass at hs
  unfold Dyn.makeTx
  split
  next h1 =>
    rw [if_pos h1] at hs
    simp only [numbers] at hs
    match pre, hs with
    | [], hs => cases hs; rw [he]; rfl
    | [a], hs => cases hs; obtain ⟨w, hw⟩ := good _ (.head _); rw [hw, ok_bind, he]; rfl
    | [a, b], hs =>
      cases hs
      obtain ⟨w, hw⟩ := good _ (.head _)
      obtain ⟨w', hw'⟩ := good _ (.tail _ (.head _))
      rw [hw, ok_bind, hw', ok_bind, he]; rfl
    | a :: b :: c :: d, hs => simp at hs
  next h1 =>
  rw [if_neg h1] at hs
  split
  next h2 =>
    rw [if_pos h2] at hs
    simp only [numbers] at hs
    match pre, hs with
    | [], hs => cases hs; rw [he]; rfl
    | a :: d, hs => simp at hs
  next h2 =>
  rw [if_neg h2] at hs
  split
  next h3 =>
    rw [if_pos h3] at hs
    simp only [numbers] at hs
    match pre, hs with
    | [], hs => cases hs; rw [he]; rfl
    | [a], hs => cases hs; obtain ⟨w, hw⟩ := good _ (.head _); rw [hw, ok_bind, he]; rfl
    | a :: b :: d, hs => simp at hs
  next h3 =>
  rw [if_neg h3] at hs
  split
  next h4 =>
    rw [if_pos h4] at hs
    simp only [numbers] at hs
    match pre, hs with
    | [], hs => cases hs; rw [he]; rfl
    | [a], hs => cases hs; obtain ⟨w, hw⟩ := good _ (.head _); rw [hw, ok_bind, he]; rfl
    | [a, b], hs =>
      cases hs
      obtain ⟨w, hw⟩ := good _ (.head _)
      obtain ⟨w', hw'⟩ := good _ (.tail _ (.head _))
      rw [hw, ok_bind, hw', ok_bind, he]; rfl
    | a :: b :: c :: d, hs => simp at hs
  next h4 =>
    rw [if_neg h4] at hs
    simp only [numbers] at hs
    match pre, hs with
    | [], hs => cases hs; rw [he]; rfl
    | [a], hs => cases hs; obtain ⟨w, hw⟩ := good _ (.head _); rw [hw, ok_bind, he]; rfl
    | a :: b :: d, hs => simp at hs

/-- A version that is a number, then a lock time that is not. -/
example : numbers (txClass toyEnv.net false) (.int 2) (.bytes [0, 0, 0, 0]) {} = [(.int 2, 4)] ++ (.bytes [0, 0, 0, 0], 4) :: [] ∧ (∃ b, Num 4 (.int 2) b) ∧
    (¬ ∃ b, Num 4 (.bytes [0, 0, 0, 0]) b) ∧ NotNum 4 (.bytes [0, 0, 0, 0]) .attributeError ∧ NotNum 4 (.int (-1)) .overflowError ∧ NotNum 4 valIn .typeError := by
  refine ⟨?_, ⟨[2, 0, 0, 0], rfl, rfl⟩, (by rintro ⟨b, -, h⟩; cases h), .inr (.inr ⟨rfl, (by simp), by simp⟩), .inl ⟨rfl, -1, rfl, by omega⟩, .inr (.inl ⟨rfl, _, _, _, rfl⟩)⟩
  have : txClass toyEnv.net false = .tx := by decide +kernel
  rw [this]; rfl

theorem class_inv {g : Bool} (net : Network) :
    (txClass net g = .dcrTx → net.isDecred = true) ∧
    (txClass net g = .sproutTx → net.isDecred = false ∧ net.isSprout = true ∧ g = true) ∧
    (txClass net g = .overwinterTx → net.isDecred = false ∧ ¬ (net.isSprout = true ∧ g = true) ∧ net.isOverwinter = true) ∧
    (txClass net g = .saplingTx → net.isDecred = false ∧ ¬ (net.isSprout = true ∧ g = true) ∧ net.isOverwinter = false ∧ net.isSapling = true) ∧
    (txClass net g = .tx → net.isDecred = false ∧ ¬ (net.isSprout = true ∧ g = true) ∧ net.isOverwinter = false ∧ net.isSapling = false) := by
  unfold txClass
  cases net.isDecred <;> cases net.isSprout <;> cases g <;> cases net.isOverwinter <;> cases net.isSapling <;> simp

/-- `make_tx` for each class it makes. -/
theorem makeTx_class (E : Env) (v i o l : Val) (k : TxKw) :
    (txClass E.net k.txJoinsplits.given = .dcrTx → Dyn.makeTx E v i o l k = (do
      let v ← v.toLe 4
      let lt ← l.toLe 4
      let ex ← k.expiry.toLe 4
      dcrTx E.net v i o lt ex (.list [k.txWitnesses]))) ∧
    (txClass E.net k.txJoinsplits.given = .sproutTx → Dyn.makeTx E v i o l k = (do
      let lt ← l.toLe 4
      sproutTx E v i o lt k.txJoinsplits k.joinsplitPubkey k.joinsplitSig)) ∧
    (txClass E.net k.txJoinsplits.given = .overwinterTx → Dyn.makeTx E v i o l k = (do
      let lt ← l.toLe 4
      let ex ← k.expiry.toLe 4
      overwinterTx E i o lt ex (if k.txJoinsplits.given then k.txJoinsplits else .list []) k.joinsplitPubkey k.joinsplitSig)) ∧
    (txClass E.net k.txJoinsplits.given = .saplingTx → Dyn.makeTx E v i o l k = (do
      let lt ← l.toLe 4
      let ex ← k.expiry.toLe 4
      let vb ← k.valueBalance.toLe 8
      saplingTx E i o lt ex vb k.txShieldedSpends k.txShieldedOutputs k.txJoinsplits k.joinsplitPubkey k.joinsplitSig k.bindingSig)) ∧
    (txClass E.net k.txJoinsplits.given = .tx → Dyn.makeTx E v i o l k = (do
      let v ← v.toLe 4
      let lt ← l.toLe 4
      tx E v (if k.txWitnesses.given then .bytes E.net.segwitTxFlag else .none) i o k.txWitnesses lt)) := by
  have inv := class_inv (g := k.txJoinsplits.given) E.net
  unfold Dyn.makeTx
  refine ⟨?_, ?_, ?_, ?_, ?_⟩
  · intro h
    rw [if_pos (inv.1 h)]
  · intro h
    obtain ⟨h1, h2, h3⟩ := inv.2.1 h
    rw [if_neg (by simp [h1]), if_pos ⟨h2, h3⟩]
  · intro h
    obtain ⟨h1, h2, h3⟩ := inv.2.2.1 h
    rw [if_neg (by simp [h1]), if_neg h2, if_pos h3]
  · intro h
    obtain ⟨h1, h2, h3, h4⟩ := inv.2.2.2.1 h
    rw [if_neg (by simp [h1]), if_neg h2, if_neg (by simp [h3]), if_pos h4]
  · intro h
    obtain ⟨h1, h2, h3, h4⟩ := inv.2.2.2.2 h
    rw [if_neg (by simp [h1]), if_neg h2, if_neg (by simp [h3]), if_neg (by simp [h4])]

/-- C122: the arguments that `make_tx` does not look at: the version on Overwinter and Sapling; the expiry on Sprout, Bitcoin and the like; the value balance and the other arguments
of Sapling elsewhere; witnesses on Zcash, except on Sprout without joinsplits; on Decred everything of Zcash. -/
theorem C122_ignored (E : Env) (v v' i o l : Val) (k k' : TxKw) :
    (txClass E.net k.txJoinsplits.given = .dcrTx → k'.expiry = k.expiry → k'.txWitnesses = k.txWitnesses →
      Dyn.makeTx E v i o l k' = Dyn.makeTx E v i o l k) ∧
    (txClass E.net k.txJoinsplits.given = .sproutTx → k'.txJoinsplits = k.txJoinsplits → k'.joinsplitPubkey = k.joinsplitPubkey → k'.joinsplitSig = k.joinsplitSig →
      Dyn.makeTx E v i o l k' = Dyn.makeTx E v i o l k) ∧
    (txClass E.net k.txJoinsplits.given = .overwinterTx → k'.expiry = k.expiry → k'.txJoinsplits = k.txJoinsplits → k'.joinsplitPubkey = k.joinsplitPubkey →
      k'.joinsplitSig = k.joinsplitSig → Dyn.makeTx E v' i o l k' = Dyn.makeTx E v i o l k) ∧
    (txClass E.net k.txJoinsplits.given = .saplingTx → k' = { k with txWitnesses := k'.txWitnesses } → Dyn.makeTx E v' i o l k' = Dyn.makeTx E v i o l k) ∧
    (txClass E.net k.txJoinsplits.given = .tx → txClass E.net k'.txJoinsplits.given = .tx → k'.txWitnesses = k.txWitnesses →
      Dyn.makeTx E v i o l k' = Dyn.makeTx E v i o l k) := by
  refine ⟨?_, ?_, ?_, ?_, ?_⟩
  · intro hc he hw
    have hd := (class_inv (g := k.txJoinsplits.given) E.net).1 hc
    have hc' : txClass E.net k'.txJoinsplits.given = .dcrTx := by unfold txClass; rw [if_pos hd]
    rw [(makeTx_class E v i o l k).1 hc, (makeTx_class E v i o l k').1 hc', he, hw]
  · intro hc hj hp hs
    rw [(makeTx_class E v i o l k).2.1 hc, (makeTx_class E v i o l k').2.1 (hj ▸ hc), hj, hp, hs]
  · intro hc he hj hp hs
    rw [(makeTx_class E v i o l k).2.2.1 hc, (makeTx_class E v' i o l k').2.2.1 (hj ▸ hc), he, hj, hp, hs]
  · intro hc hk
    have hj : k'.txJoinsplits = k.txJoinsplits := by rw [hk]
    rw [(makeTx_class E v i o l k).2.2.2.1 hc, (makeTx_class E v' i o l k').2.2.2.1 (hj ▸ hc), hk]
  · intro hc hc' hw
    rw [(makeTx_class E v i o l k).2.2.2.2 hc, (makeTx_class E v i o l k').2.2.2.2 hc', hw]

example : txClass overEnv.net (({} : TxKw).txJoinsplits.given) = .overwinterTx ∧ Dyn.makeTx overEnv (.str (pystr "ignored")) (.tuple [valIn]) (.list [valOut]) (.int 0) { expiry := .int 3, txWitnesses := .int 7 } =
    Dyn.makeTx overEnv (.int 4) (.tuple [valIn]) (.list [valOut]) (.int 0) { expiry := .int 3 } := ⟨by decide +kernel, rfl⟩

/-- C122 (the documentation is wrong): the form in which the docstrings of tx_builder.py ask for numbers (tx/tx_builder.py:161-258, 412, 447, 550-557: "8-byte LE-encoded", "4-byte
LE-encoded") is never accepted: bytes in place of a number always raise an exception. Only `SproutTx` takes its version as bytes, and there the integer that the annotation asks
for is refused. -/
theorem C122_documented_false (E : Env) (b : Bytes) (v s w x i o l : Val) (k : TxKw) :
    (Dyn.makeShOutput E (.bytes b) s w = .error .attributeError ∧ Dyn.makePkhOutput E (.bytes b) s w = .error .attributeError) ∧
    (Dyn.makeLegacyInput E x s w (.bytes b) = .error .attributeError ∧ Dyn.makeWitnessInput E x (.bytes b) = .error .attributeError) ∧
    (∀ t, Dyn.makeTx E v i o (.bytes b) k ≠ .ok t) ∧
    (∀ t, E.net.isDecred = true ∨ E.net.isZcash = false → E.net.Supported → Dyn.makeTx E (.bytes b) i o l k ≠ .ok t) ∧
    (∀ t n, txClass E.net k.txJoinsplits.given = .sproutTx → Dyn.makeTx E (.int n) i o l k ≠ .ok t) ∧
    (∀ t, E.net.isDecred = true ∨ E.net.isOverwinter = true ∨ E.net.isSapling = true → E.net.Supported → Dyn.makeTx E v i o l { k with expiry := .bytes b } ≠ .ok t) ∧
    (∀ t, E.net.isSapling = true → E.net.Supported → Dyn.makeTx E v i o l { k with valueBalance := .bytes b } ≠ .ok t) := by
  have no : ∀ n (b c : Bytes), ¬ Num n (.bytes b) c := by rintro n b c ⟨-, h⟩; cases h
  refine ⟨⟨rfl, rfl⟩, ⟨?_, ?_⟩, ?_, ?_, ?_, ?_, ?_⟩
  · unfold Dyn.makeLegacyInput; split <;> rfl
  · unfold Dyn.makeWitnessInput; split <;> rfl
  · intro t h
    obtain ⟨⟨c, hc, -⟩, -⟩ := C122_make_tx E _ _ _ _ _ _ _ rfl h
    exact no _ _ _ hc
  · intro t hd hn h
    have key : ∀ n : Network, n.Supported → ∀ g, n.isDecred = true ∨ n.isZcash = false → txClass n g = .tx ∨ txClass n g = .dcrTx := by
      unfold Network.Supported; decide +kernel
    obtain ⟨c, hc, -⟩ := (C122_make_tx E _ _ _ _ _ _ _ rfl h).2.1 (key _ hn _ hd)
    exact no _ _ _ hc
  · intro t n hc h
    obtain ⟨-, c, hc, -⟩ := (C122_make_tx E _ _ _ _ _ _ _ rfl h).2.2.1 hc
    cases hc
  · intro t hd hn h
    have key : ∀ n : Network, n.Supported → ∀ g, n.isDecred = true ∨ n.isOverwinter = true ∨ n.isSapling = true →
        txClass n g = .dcrTx ∨ txClass n g = .overwinterTx ∨ txClass n g = .saplingTx := by
      unfold Network.Supported; decide +kernel
    obtain ⟨c, hc, -⟩ := (C122_make_tx E _ _ _ _ _ _ _ rfl h).2.2.2.1 (key _ hn _ hd)
    exact no _ _ _ hc
  · intro t hd hn h
    have key : ∀ n : Network, n.Supported → ∀ g, n.isSapling = true → txClass n g = .saplingTx := by
      unfold Network.Supported; decide +kernel
    obtain ⟨c, hc, -⟩ := (C122_make_tx E _ _ _ _ _ _ _ rfl h).2.2.2.2.1 (key _ hn _ hd)
    exact no _ _ _ hc

/-- C122 (a value that cannot be expressed): the value balance is a net change, but `make_tx` takes no negative one. -/
theorem C122_negative_balance_false (E : Env) (hn : E.net.Supported) (hs : E.net.isSapling = true) (v i o l : Val) (k : TxKw) (n : Int) (h : n < 0) (t : Val) :
    Dyn.makeTx E v i o l { k with valueBalance := .int n } ≠ .ok t := by
  intro hm
  have key : ∀ n : Network, n.Supported → ∀ g, n.isSapling = true → txClass n g = .saplingTx := by
    unfold Network.Supported; decide +kernel
  obtain ⟨c, ⟨-, hc⟩, -⟩ := (C122_make_tx E _ _ _ _ _ _ _ rfl hm).2.2.2.2.1 (key _ hn _ hs)
  injection hc with hc
  omega


example : sapEnv.net.Supported ∧ sapEnv.net.isSapling = true ∧ overEnv.net.isOverwinter = true ∧ toyEnv.net.isZcash = false ∧ txClass sproutEnv.net true = .sproutTx :=
  ⟨zcash_supported.2.2, by decide +kernel, by decide +kernel, by decide +kernel, by decide +kernel⟩

end Verif.Props
