import Verif.Model.DynBuilder
import Verif.Props.DynFreeze
import Verif.Props.Builder2

/-! Property C121: tx/tx_builder.py and simple.py with arguments of any type return nothing that the constructors could not have made. Property C122: what they take for numbers. -/

namespace Verif.Props
open Verif Spec Dyn

/-! ### numbers -/

/-- `v` is the integer that the `k` bytes `b` spell, the least significant first. -/
def Num (k : Nat) (v : Val) (b : Bytes) : Prop := b.length = k ∧ v = .int (leValue b)

theorem toLe_ok {v w : Val} {k : Nat} : v.toLe k = .ok w ↔ ∃ b, Num k v b ∧ w = .bytes b := by
  unfold Num
  cases v with
  | int n =>
    simp only [Val.toLe, bind_ok_iff, i2le_iff, Except.ok.injEq]
    constructor
    · rintro ⟨b, ⟨h1, h2⟩, rfl⟩
      exact ⟨b, ⟨h1, by rw [h2]⟩, rfl⟩
    · rintro ⟨b, ⟨h1, h2⟩, rfl⟩
      exact ⟨b, ⟨h1, by injection h2 with h2; exact h2.symm⟩, rfl⟩
  | _ => simp [Val.toLe]

/-- What is not taken for a number, and how it is refused. -/
theorem toLe_error {v : Val} {k : Nat} {e : PyErr} : v.toLe k = .error e ↔
    (e = .overflowError ∧ ∃ n, v = .int n ∧ ¬ (0 ≤ n ∧ n < (256 ^ k : Nat))) ∨ (e = .typeError ∧ ∃ c l b, v = .obj c l b) ∨
    (e = .attributeError ∧ (∀ n, v ≠ .int n) ∧ ∀ c l b, v ≠ .obj c l b) := by
  cases v with
  | int n =>
    by_cases h : 0 ≤ n ∧ n < (256 ^ k : Nat)
    · obtain ⟨b, hb, -⟩ := i2le_ok h
      simp only [Val.toLe, hb, ok_bind]
      constructor
      · intro h; cases h
      · rintro (⟨-, m, hm, hn⟩ | ⟨-, c, l, b, hc⟩ | ⟨-, hn, -⟩)
        · injection hm with hm; subst hm; exact absurd h hn
        · cases hc
        · exact absurd rfl (hn n)
    · simp only [Val.toLe, i2le_error h, error_bind, Except.error.injEq]
      constructor
      · rintro rfl; exact .inl ⟨rfl, n, rfl, h⟩
      · rintro (⟨rfl, -⟩ | ⟨-, c, l, b, hc⟩ | ⟨-, hn, -⟩)
        · rfl
        · cases hc
        · exact absurd rfl (hn n)
  | obj c l b =>
    simp only [Val.toLe, Except.error.injEq]
    constructor
    · rintro rfl; exact .inr (.inl ⟨rfl, c, l, b, rfl⟩)
    · rintro (⟨-, m, hm, -⟩ | ⟨rfl, -⟩ | ⟨-, -, hn⟩)
      · cases hm
      · rfl
      · exact absurd rfl (hn c l b)
  | _ =>
    simp only [Val.toLe, Except.error.injEq]
    constructor
    · rintro rfl
      exact .inr (.inr ⟨rfl, (by intro n h; cases h), by intro c l b h; cases h⟩)
    · rintro (⟨-, m, hm, -⟩ | ⟨-, c, l, b, hc⟩ | ⟨rfl, -⟩)
      · cases hm
      · cases hc
      · rfl

theorem toLe_made {S : Network → Prop} {E : Env} {v w : Val} {k : Nat} (h : v.toLe k = .ok w) : MadeOn S E w := by
  obtain ⟨b, -, rfl⟩ := toLe_ok.1 h
  exact .bytes b

theorem given_false {v : Val} : v.given = false ↔ v = .none := by cases v <;> simp [Val.given]

/-! ### C121 -/

theorem made_output {S : Network → Prop} {E : Env} {a s w v : Val} (ha : MadeOn S E a) (hs : MadeOn S E s) (hw : MadeOn S E w) (h : Dyn.makeOutput E a s w = .ok v) : MadeOn S E v := by
  unfold Dyn.makeOutput at h
  split at h
  · exact .dcrTxOut _ _ _ _ ha hw hs h
  · exact .txOut _ _ _ ha hs h

theorem made_items {S : Network → Prop} {E : Env} {l : List Val} {s : List Val} (hl : ∀ x ∈ l, MadeOn S E x) (h : mapPy Dyn.item l = .ok s) : ∀ x ∈ s, MadeOn S E x := by
  induction l generalizing s with
  | nil => cases h; simp
  | cons a l ih =>
    simp only [mapPy, bind_ok_iff, Except.ok.injEq] at h
    obtain ⟨b, hb, t, ht, rfl⟩ := h
    intro x hx
    rcases List.mem_cons.1 hx with rfl | hx
    · exact .item _ _ (hl a (.head _)) hb
    · exact ih (fun y hy => hl y (.tail _ hy)) ht x hx

theorem made_iter {S : Network → Prop} {E : Env} {v : Val} {l : List Val} (hv : MadeOn S E v) (h : v.iter = .ok l) : ∀ x ∈ l, MadeOn S E x := by
  cases v with
  | none => cases h
  | int n => cases h
  | str s => cases h; intro x hx; obtain ⟨c, -, rfl⟩ := List.mem_map.1 hx; exact .str _
  | bytes b => cases h; intro x hx; obtain ⟨c, -, rfl⟩ := List.mem_map.1 hx; exact .int _
  | bytearray b => cases h; intro x hx; obtain ⟨c, -, rfl⟩ := List.mem_map.1 hx; exact .int _
  | obj c t b => cases h; intro x hx; obtain ⟨c, -, rfl⟩ := List.mem_map.1 hx; exact .int _
  | list l' => cases h; exact made_seq hv (.inl rfl)
  | tuple l' => cases h; exact made_seq hv (.inr rfl)

/-- Each of the keyword arguments of `make_tx` satisfies `P`. -/
def KwAll (P : Val → Prop) (k : TxKw) : Prop :=
  P k.expiry ∧ P k.valueBalance ∧ P k.txShieldedSpends ∧ P k.txShieldedOutputs ∧ P k.txWitnesses ∧ P k.txJoinsplits ∧ P k.joinsplitPubkey ∧ P k.joinsplitSig ∧ P k.bindingSig

/-- Each of the keyword arguments of `unsigned_legacy_tx` satisfies `P`. -/
def LegacyAll (P : Val → Prop) (k : LegacyKw) : Prop :=
  P k.version ∧ P k.lockTime ∧ P k.expiry ∧ P k.txJoinsplits ∧ P k.joinsplitPubkey ∧ P k.joinsplitSig

theorem made_witness {S : Network → Prop} {E : Env} {a v : Val} (ha : MadeOn S E a) (h : Dyn.makeWitness a = .ok v) : MadeOn S E v := by
  simp only [Dyn.makeWitness, bind_ok_iff] at h
  obtain ⟨l, hl, s, hs, h⟩ := h
  exact .witness _ _ (.list _ (made_items (made_iter ha hl) hs)) h

theorem made_outpoint {S : Network → Prop} {E : Env} {a b c v : Val} (ha : MadeOn S E a) (h : Dyn.makeOutpoint E a b c = .ok v) : MadeOn S E v := by
  unfold Dyn.makeOutpoint at h
  split at h
  · rw [bind_ok_iff] at h
    obtain ⟨t, ht, h⟩ := h
    rw [bind_ok_iff] at h
    obtain ⟨i, hi, h⟩ := h
    refine .dcrOutpoint _ _ _ _ ha (toLe_made hi) ?_ h
    split at ht
    · exact toLe_made ht
    · cases ht; exact .bytes _
  · rw [bind_ok_iff] at h
    obtain ⟨i, hi, h⟩ := h
    exact .outpoint _ _ _ ha (toLe_made hi) h

theorem made_dcrInput {S : Network → Prop} {E : Env} {a b v : Val} (ha : MadeOn S E a) (h : Dyn.makeDecredInput E a b = .ok v) : MadeOn S E v := by
  simp only [Dyn.makeDecredInput, bind_ok_iff] at h
  obtain ⟨i, hi, h⟩ := h
  exact .dcrTxIn _ _ _ ha (toLe_made hi) h

theorem made_legacyInput {S : Network → Prop} {E : Env} {a b c d v : Val} (ha : MadeOn S E a) (hb : MadeOn S E b) (hc : MadeOn S E c) (h : Dyn.makeLegacyInput E a b c d = .ok v) : MadeOn S E v := by
  unfold Dyn.makeLegacyInput at h
  split at h
  · exact made_dcrInput ha h
  · rw [bind_ok_iff] at h
    obtain ⟨i, hi, h⟩ := h
    exact .txIn _ _ _ _ _ ha hb hc (toLe_made hi) h

theorem witnessInput_eq (E : Env) (a b : Val) : Dyn.makeWitnessInput E a b = Dyn.makeLegacyInput E a (.bytes []) (.bytes []) b := rfl

theorem made_tx {S : Network → Prop} {E : Env} {a b c d v : Val} {k : TxKw} (ha : MadeOn S E a) (hb : MadeOn S E b) (hc : MadeOn S E c) (hk : KwAll (MadeOn S E) k) (h : Dyn.makeTx E a b c d k = .ok v) :
    MadeOn S E v := by
  obtain ⟨k1, k2, k3, k4, k5, k6, k7, k8, k9⟩ := hk
  unfold Dyn.makeTx at h
  split at h
  · simp only [bind_ok_iff] at h
    obtain ⟨x, hx, y, hy, z, hz, h⟩ := h
    exact .dcrTx _ _ _ _ _ _ _ (toLe_made hx) hb hc (toLe_made hy) (toLe_made hz) (.list _ (by simpa using k5)) h
  · split at h
    · simp only [bind_ok_iff] at h
      obtain ⟨y, hy, h⟩ := h
      exact .sproutTx _ _ _ _ _ _ _ _ ha hb hc (toLe_made hy) k6 k7 k8 h
    · split at h
      · simp only [bind_ok_iff] at h
        obtain ⟨y, hy, z, hz, h⟩ := h
        refine .overwinterTx _ _ _ _ _ _ _ _ hb hc (toLe_made hy) (toLe_made hz) ?_ k7 k8 h
        split
        · exact k6
        · exact .list _ (by simp)
      · split at h
        · simp only [bind_ok_iff] at h
          obtain ⟨y, hy, z, hz, x, hx, h⟩ := h
          exact .saplingTx _ _ _ _ _ _ _ _ _ _ _ _ hb hc (toLe_made hy) (toLe_made hz) (toLe_made hx) k3 k4 k6 k7 k8 k9 h
        · simp only [bind_ok_iff] at h
          obtain ⟨x, hx, y, hy, h⟩ := h
          refine .tx _ _ _ _ _ _ _ (toLe_made hx) ?_ hb hc k5 (toLe_made hy) h
          split
          · exact .bytes _
          · exact .none

/-- C121: whatever the functions of tx/tx_builder.py return for arguments of any type, the constructors could have made it: programs that use the builder get nothing that
C114, C116 and C117 do not speak about. -/
theorem C121_made {S : Network → Prop} (E : Env) (a b c d : Val) (ha : MadeOn S E a) (hb : MadeOn S E b) (hc : MadeOn S E c) (k : TxKw) (hk : KwAll (MadeOn S E) k) (v : Val) :
    (Dyn.makeOutput E a b c = .ok v → MadeOn S E v) ∧ (Dyn.makeShOutput E a b c = .ok v → MadeOn S E v) ∧ (Dyn.makePkhOutput E a b c = .ok v → MadeOn S E v) ∧
    (Dyn.makeOpReturnOutput E a = .ok v → MadeOn S E v) ∧ (Dyn.makeWitness a = .ok v → MadeOn S E v) ∧ (Dyn.makeOutpoint E a b c = .ok v → MadeOn S E v) ∧
    (Dyn.makeDecredInput E a b = .ok v → MadeOn S E v) ∧ (Dyn.makeLegacyInput E a b c d = .ok v → MadeOn S E v) ∧ (Dyn.makeWitnessInput E a b = .ok v → MadeOn S E v) ∧
    (Dyn.makeTx E a b c d k = .ok v → MadeOn S E v) := by
  refine ⟨made_output ha hb hc, ?_, ?_, ?_, made_witness ha, made_outpoint ha, made_dcrInput ha, made_legacyInput ha hb hc, ?_, made_tx ha hb hc hk⟩
  · intro h
    simp only [Dyn.makeShOutput, Dyn.makeShOutputScript, bind_ok_iff, Except.ok.injEq] at h
    obtain ⟨x, hx, s, ⟨-, -, t, -, rfl⟩, h⟩ := h
    exact made_output (toLe_made hx) (.bytes _) .none h
  · intro h
    simp only [Dyn.makePkhOutput, Dyn.makePkhOutputScript, bind_ok_iff] at h
    obtain ⟨x, hx, s, ⟨_, -, t, -, hs⟩, h⟩ := h
    refine made_output (toLe_made hx) ?_ .none h
    split at hs <;> cases hs <;> exact .bytes _
  · intro h
    simp only [Dyn.makeOpReturnOutput, bind_ok_iff] at h
    obtain ⟨n, -, _, -, xs, -, s, -, z, hz, h⟩ := h
    exact made_output (toLe_made hz) (.bytearray _) .none h
  · intro h
    exact made_legacyInput ha (.bytes _) (.bytes _) h

/-- Arguments that are made, and what the builder makes of them: an input on a bytearray outpoint, a transaction of any values. -/
example : Made toyEnv (.bytearray (List.replicate 36 7)) ∧ (Dyn.makeLegacyInput toyEnv (.bytearray (List.replicate 36 7)) (.bytes []) (.bytearray [1]) (.int 0xFFFFFFFF)) = .ok valIn ∧
    KwAll (Made toyEnv) ({ txWitnesses := .list [valWit] } : TxKw) ∧
    (Dyn.makeTx toyEnv (.int 2) (.tuple [valIn]) (.list [valOut]) (.int 0) { txWitnesses := .list [valWit] }).isOk = true :=
  ⟨.bytearray _, rfl, ⟨.none, .int _, .none, .none, .list _ (fun v hv => by rw [List.mem_singleton.1 hv]; exact valWit_made), .none, .none, .none, .none⟩, rfl⟩

theorem made_empties {S : Network → Prop} {E : Env} {l ws : List Val} (h : mapPy (fun _ => Dyn.makeWitness (.list [])) l = .ok ws) : ∀ x ∈ ws, MadeOn S E x := by
  induction l generalizing ws with
  | nil => cases h; simp
  | cons a l ih =>
    simp only [mapPy, bind_ok_iff, Except.ok.injEq] at h
    obtain ⟨b, hb, t, ht, rfl⟩ := h
    intro x hx
    rcases List.mem_cons.1 hx with rfl | hx
    · exact made_witness (.list _ (by simp)) hb
    · exact ih ht x hx

theorem toOutputScript_raw {E : Env} {a t : Val} (h : Dyn.toOutputScript E a = .ok t) : (∃ y, t = .bytes y) ∨ ∃ y, t = .bytearray y := by
  unfold Dyn.toOutputScript at h
  split at h
  · simp only [bind_ok_iff] at h
    obtain ⟨p, -, s, -, h⟩ := h
    split at h <;> cases h
    · exact .inr ⟨_, rfl⟩
    · exact .inl ⟨_, rfl⟩
  · cases h

/-- C121: the same for simple.py. -/
theorem C121_made_simple {S : Network → Prop} (E : Env) (a b c d : Val) (ha : MadeOn S E a) (hb : MadeOn S E b) (hc : MadeOn S E c) (k : LegacyKw) (hk : LegacyAll (MadeOn S E) k) (v : Val) :
    (Dyn.simpleOutput E a b = .ok v → MadeOn S E v) ∧ (Dyn.simpleOutpoint E a b c = .ok v → MadeOn S E v) ∧ (Dyn.simpleInput E a b = .ok v → MadeOn S E v) ∧
    (Dyn.simpleLegacyTx E a b k = .ok v → MadeOn S E v) ∧ (Dyn.simpleWitnessTx E a b c d = .ok v → MadeOn S E v) := by
  obtain ⟨k1, k2, k3, k4, k5, k6⟩ := hk
  refine ⟨?_, ?_, made_legacyInput ha (.bytes _) (.bytes _), made_tx k1 ha hb ⟨k3, .int _, .none, .none, .none, k4, k5, k6, .none⟩, ?_⟩
  · intro h
    simp only [Dyn.simpleOutput, bind_ok_iff] at h
    obtain ⟨t, ht, x, hx, h⟩ := h
    refine made_output (toLe_made hx) ?_ .none h
    rcases toOutputScript_raw ht with ⟨y, rfl⟩ | ⟨y, rfl⟩
    · exact .bytes _
    · exact .bytearray _
  · intro h
    simp only [Dyn.simpleOutpoint, bind_ok_iff] at h
    obtain ⟨t, -, h⟩ := h
    exact made_outpoint (.bytes _) h
  · intro h
    simp only [Dyn.simpleWitnessTx, bind_ok_iff] at h
    obtain ⟨xs, -, ws, hws, h⟩ := h
    exact made_tx hc ha hb ⟨.none, .int _, .none, .none, .list _ (made_empties hws), .none, .none, .none, .none⟩ h

example : LegacyAll (Made toyEnv) ({} : LegacyKw) ∧ (Dyn.simpleLegacyTx toyEnv (.list [valIn]) (.list [valOut]) {}).isOk = true ∧
    (Dyn.simpleWitnessTx toyEnv (.tuple [valIn]) (.list [valOut]) (.int 2) (.int 0)).isOk = true :=
  ⟨⟨.int _, .int _, .int _, .list _ (by simp), .list _ (by simp), .list _ (by simp)⟩, rfl, rfl⟩

/-! ### the class of what is made -/

/-- The class of the transactions of a network; on Sprout, `make_tx` makes a plain `Tx` unless it is given joinsplits. -/
def txClass (net : Network) (joinsplits : Bool) : Cls :=
  if net.isDecred then .dcrTx else if net.isSprout ∧ joinsplits then .sproutTx else if net.isOverwinter then .overwinterTx else if net.isSapling then .saplingTx else .tx

theorem isInstance_obj (c : Cls) (t : List Val) (x : Bytes) : (Val.obj c t x).isInstance c = true := by simp [Val.isInstance]

theorem Makes.inst {c : Cls} {p : Py Val} (h : Makes c p) {v : Val} (e : p = .ok v) : v.isInstance c = true := by
  obtain ⟨t, x, rfl⟩ := h v e
  exact isInstance_obj c t x

theorem class_output {E : Env} {a s w v : Val} (h : Dyn.makeOutput E a s w = .ok v) : v.isInstance (if E.net.isDecred then .dcrTxOut else .txOut) = true := by
  unfold Dyn.makeOutput at h
  split at h
  next h1 => rw [if_pos h1]; exact (makes_dcrTxOut E _ _ _).inst h
  next h1 => rw [if_neg h1]; exact (makes_txOut _ _).inst h

theorem class_input {E : Env} {a b c d v : Val} (h : Dyn.makeLegacyInput E a b c d = .ok v) : v.isInstance (if E.net.isDecred then .dcrTxIn else .txIn) = true := by
  unfold Dyn.makeLegacyInput at h
  split at h
  next h1 => rw [if_pos h1]; exact (Makes.bind fun s => makes_dcrTxIn E a s).inst h
  next h1 => rw [if_neg h1]; exact (Makes.bind fun s => makes_txIn a b c s).inst h

/-- C121: the builder makes objects of the classes of the current network, whatever its arguments are. -/
theorem C121_class (E : Env) (a b c d : Val) (k : TxKw) (v : Val) :
    (Dyn.makeOutput E a b c = .ok v ∨ Dyn.makeShOutput E a b c = .ok v ∨ Dyn.makePkhOutput E a b c = .ok v ∨ Dyn.makeOpReturnOutput E a = .ok v →
      v.isInstance (if E.net.isDecred then .dcrTxOut else .txOut) = true) ∧
    (Dyn.makeWitness a = .ok v → v.isInstance .witness = true) ∧
    (Dyn.makeOutpoint E a b c = .ok v → v.isInstance (if E.net.isDecred then .dcrOutpoint else .outpoint) = true) ∧
    (Dyn.makeLegacyInput E a b c d = .ok v ∨ Dyn.makeWitnessInput E a b = .ok v → v.isInstance (if E.net.isDecred then .dcrTxIn else .txIn) = true) ∧
    (Dyn.makeTx E a b c d k = .ok v → v.isInstance (txClass E.net k.txJoinsplits.given) = true) := by
  refine ⟨?_, ?_, ?_, ?_, ?_⟩
  · rintro (h | h | h | h)
    · exact class_output h
    · simp only [Dyn.makeShOutput, bind_ok_iff] at h
      obtain ⟨x, -, s, -, h⟩ := h
      exact class_output h
    · simp only [Dyn.makePkhOutput, bind_ok_iff] at h
      obtain ⟨x, -, s, -, h⟩ := h
      exact class_output h
    · simp only [Dyn.makeOpReturnOutput, bind_ok_iff] at h
      obtain ⟨n, -, _, -, xs, -, s, -, z, hz, h⟩ := h
      exact class_output h
  · intro h
    simp only [Dyn.makeWitness, bind_ok_iff] at h
    obtain ⟨l, -, s, -, h⟩ := h
    exact (makes_witness _).inst h
  · intro h
    unfold Dyn.makeOutpoint at h
    split at h
    next h1 => rw [if_pos h1]; exact (Makes.bind fun t => Makes.bind fun i => makes_dcrOutpoint E a i t).inst h
    next h1 => rw [if_neg h1]; exact (Makes.bind fun i => makes_outpoint a i).inst h
  · rintro (h | h)
    · exact class_input h
    · exact class_input h
  · intro h
    unfold Dyn.makeTx at h
    unfold txClass
    split at h
    next h1 => rw [if_pos h1]; exact (Makes.bind fun _ => Makes.bind fun _ => Makes.bind fun _ => makes_dcrTx E _ _ _ _ _ _).inst h
    next h1 =>
    rw [if_neg h1]
    split at h
    next h2 => rw [if_pos h2]; exact (Makes.bind fun _ => makes_sproutTx E _ _ _ _ _ _ _).inst h
    next h2 =>
    rw [if_neg h2]
    split at h
    next h3 => rw [if_pos h3]; exact (Makes.bind fun _ => Makes.bind fun _ => makes_overwinterTx E _ _ _ _ _ _ _).inst h
    next h3 =>
    rw [if_neg h3]
    split at h
    next h4 => rw [if_pos h4]; exact (Makes.bind fun _ => Makes.bind fun _ => Makes.bind fun _ => makes_saplingTx E _ _ _ _ _ _ _ _ _ _ _).inst h
    next h4 => rw [if_neg h4]; exact (Makes.bind fun _ => Makes.bind fun _ => makes_tx E _ _ _ _ _ _).inst h


example : txClass decredMain false = .dcrTx ∧ txClass zcashSproutMain true = .sproutTx ∧ txClass zcashSproutMain false = .tx ∧ txClass zcashOverwinterMain false = .overwinterTx ∧
    txClass zcashSaplingMain true = .saplingTx ∧ txClass bitcoinMain true = .tx := by decide +kernel

end Verif.Props
