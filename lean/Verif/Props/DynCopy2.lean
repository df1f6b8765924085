import Verif.Props.DynCopy
import Verif.Props.DynZTyped

/-! Property C118, continued: what copies are, and that on arguments of the annotated types they are those of the model with types. -/

namespace Verif.Props
open Verif Spec Dyn

/-- The value was made by the constructor of the class, of values that a program can have. -/
def MadeFrom (P : Val → Prop) (E : Env) (v : Val) : Cls → Prop
  | .outpoint => ∃ a b, (P a ∧ P b) ∧ Dyn.outpoint a b = .ok v
  | .txIn => ∃ a b c d, (P a ∧ P b ∧ P c ∧ P d) ∧ Dyn.txIn a b c d = .ok v
  | .txOut => ∃ a b, (P a ∧ P b) ∧ Dyn.txOut a b = .ok v
  | .witness => ∃ a, (P a) ∧ Dyn.witness a = .ok v
  | .tx => ∃ a b c d e f, (P a ∧ P b ∧ P c ∧ P d ∧ P e ∧ P f) ∧ Dyn.tx E a b c d e f = .ok v
  | .dcrOutpoint => ∃ a b c, (P a ∧ P b ∧ P c) ∧ Dyn.dcrOutpoint E.net a b c = .ok v
  | .dcrTxIn => ∃ a b, (P a ∧ P b) ∧ Dyn.dcrTxIn E.net a b = .ok v
  | .dcrTxOut => ∃ a b c, (P a ∧ P b ∧ P c) ∧ Dyn.dcrTxOut E.net a b c = .ok v
  | .dcrWitness => ∃ a b c d e, (P a ∧ P b ∧ P c ∧ P d ∧ P e) ∧ Dyn.dcrWitness E.net a b c d e = .ok v
  | .dcrTx => ∃ a b c d e f, (P a ∧ P b ∧ P c ∧ P d ∧ P e ∧ P f) ∧ Dyn.dcrTx E.net a b c d e f = .ok v
  | .sproutTx => ∃ a b c d e f g, (P a ∧ P b ∧ P c ∧ P d ∧ P e ∧ P f ∧ P g) ∧ Dyn.sproutTx E a b c d e f g = .ok v
  | .overwinterTx => ∃ a b c d e f g, (P a ∧ P b ∧ P c ∧ P d ∧ P e ∧ P f ∧ P g) ∧ Dyn.overwinterTx E a b c d e f g = .ok v
  | .saplingTx => ∃ a b c d e f g h i j k, (P a ∧ P b ∧ P c ∧ P d ∧ P e ∧ P f ∧ P g ∧ P h ∧ P i ∧ P j ∧ P k) ∧ Dyn.saplingTx E a b c d e f g h i j k = .ok v
  | _ => True

theorem made_from {S : Network → Prop} {E : Env} {c : Cls} {t : List Val} {x : Bytes} (h : MadeOn S E (.obj c t x)) :
    ∃ n, (n = E.net ∨ S n) ∧ MadeFrom (MadeOn S E) ⟨n, E.H⟩ (.obj c t x) c := by
  generalize hv : Val.obj c t x = v at h
  cases h with
  | outpoint _ _ _ h0 h1 h => subst hv; obtain ⟨_, _, e⟩ := makes_outpoint _ _ _ h; cases e; exact ⟨E.net, .inl rfl, ⟨_, _, ⟨h0, h1⟩, h⟩⟩
  | txIn _ _ _ _ _ h0 h1 h2 h3 h => subst hv; obtain ⟨_, _, e⟩ := makes_txIn _ _ _ _ _ h; cases e; exact ⟨E.net, .inl rfl, ⟨_, _, _, _, ⟨h0, h1, h2, h3⟩, h⟩⟩
  | txOut _ _ _ h0 h1 h => subst hv; obtain ⟨_, _, e⟩ := makes_txOut _ _ _ h; cases e; exact ⟨E.net, .inl rfl, ⟨_, _, ⟨h0, h1⟩, h⟩⟩
  | witness _ _ h0 h => subst hv; obtain ⟨_, _, e⟩ := makes_witness _ _ h; cases e; exact ⟨E.net, .inl rfl, ⟨_, h0, h⟩⟩
  | txOn n _ _ _ _ _ _ _ hn h0 h1 h2 h3 h4 h5 h => subst hv; obtain ⟨_, _, e⟩ := makes_tx ⟨n, E.H⟩ _ _ _ _ _ _ _ h; cases e; exact ⟨n, hn, ⟨_, _, _, _, _, _, ⟨h0, h1, h2, h3, h4, h5⟩, h⟩⟩
  | dcrOutpointOn n _ _ _ _ hn h0 h1 h2 h => subst hv; obtain ⟨_, _, e⟩ := makes_dcrOutpoint ⟨n, E.H⟩ _ _ _ _ h; cases e; exact ⟨n, hn, ⟨_, _, _, ⟨h0, h1, h2⟩, h⟩⟩
  | dcrTxInOn n _ _ _ hn h0 h1 h => subst hv; obtain ⟨_, _, e⟩ := makes_dcrTxIn ⟨n, E.H⟩ _ _ _ h; cases e; exact ⟨n, hn, ⟨_, _, ⟨h0, h1⟩, h⟩⟩
  | dcrTxOutOn n _ _ _ _ hn h0 h1 h2 h => subst hv; obtain ⟨_, _, e⟩ := makes_dcrTxOut ⟨n, E.H⟩ _ _ _ _ h; cases e; exact ⟨n, hn, ⟨_, _, _, ⟨h0, h1, h2⟩, h⟩⟩
  | dcrWitnessOn n _ _ _ _ _ _ hn h0 h1 h2 h3 h4 h => subst hv; obtain ⟨_, _, e⟩ := makes_dcrWitness ⟨n, E.H⟩ _ _ _ _ _ _ h; cases e; exact ⟨n, hn, ⟨_, _, _, _, _, ⟨h0, h1, h2, h3, h4⟩, h⟩⟩
  | dcrTxOn n _ _ _ _ _ _ _ hn h0 h1 h2 h3 h4 h5 h => subst hv; obtain ⟨_, _, e⟩ := makes_dcrTx ⟨n, E.H⟩ _ _ _ _ _ _ _ h; cases e; exact ⟨n, hn, ⟨_, _, _, _, _, _, ⟨h0, h1, h2, h3, h4, h5⟩, h⟩⟩
  | sproutTxOn n _ _ _ _ _ _ _ _ hn h0 h1 h2 h3 h4 h5 h6 h => subst hv; obtain ⟨_, _, e⟩ := makes_sproutTx ⟨n, E.H⟩ _ _ _ _ _ _ _ _ h; cases e; exact ⟨n, hn, ⟨_, _, _, _, _, _, _, ⟨h0, h1, h2, h3, h4, h5, h6⟩, h⟩⟩
  | overwinterTxOn n _ _ _ _ _ _ _ _ hn h0 h1 h2 h3 h4 h5 h6 h => subst hv; obtain ⟨_, _, e⟩ := makes_overwinterTx ⟨n, E.H⟩ _ _ _ _ _ _ _ _ h; cases e; exact ⟨n, hn, ⟨_, _, _, _, _, _, _, ⟨h0, h1, h2, h3, h4, h5, h6⟩, h⟩⟩
  | saplingTxOn n _ _ _ _ _ _ _ _ _ _ _ _ hn h0 h1 h2 h3 h4 h5 h6 h7 h8 h9 h10 h => subst hv; obtain ⟨_, _, e⟩ := makes_saplingTx ⟨n, E.H⟩ _ _ _ _ _ _ _ _ _ _ _ _ h; cases e; exact ⟨n, hn, ⟨_, _, _, _, _, _, _, _, _, _, _, ⟨h0, h1, h2, h3, h4, h5, h6, h7, h8, h9, h10⟩, h⟩⟩
  | item _ _ _ h => subst hv; obtain ⟨_, _, e⟩ := makes_item _ _ h; cases e; exact ⟨E.net, .inl rfl, trivial⟩
  | sproutProofOn n _ _ _ _ _ _ _ _ _ hn _ _ _ _ _ _ _ _ h => subst hv; obtain ⟨_, _, e⟩ := makes_sproutProof ⟨n, E.H⟩ _ _ _ _ _ _ _ _ _ h; cases e; exact ⟨n, hn, trivial⟩
  | saplingProofOn n _ _ _ _ hn _ _ _ h => subst hv; obtain ⟨_, _, e⟩ := makes_saplingProof ⟨n, E.H⟩ _ _ _ _ h; cases e; exact ⟨n, hn, trivial⟩
  | sproutJsOn n _ _ _ _ _ _ _ _ _ _ _ hn _ _ _ _ _ _ _ _ _ _ h => subst hv; obtain ⟨_, _, e⟩ := makes_sproutJs ⟨n, E.H⟩ _ _ _ _ _ _ _ _ _ _ _ h; cases e; exact ⟨n, hn, trivial⟩
  | saplingJsOn n _ _ _ _ _ _ _ _ _ _ _ hn _ _ _ _ _ _ _ _ _ _ h => subst hv; obtain ⟨_, _, e⟩ := makes_saplingJs ⟨n, E.H⟩ _ _ _ _ _ _ _ _ _ _ _ h; cases e; exact ⟨n, hn, trivial⟩
  | saplingSpendOn n _ _ _ _ _ _ _ hn _ _ _ _ _ _ h => subst hv; obtain ⟨_, _, e⟩ := makes_saplingSpend ⟨n, E.H⟩ _ _ _ _ _ _ _ h; cases e; exact ⟨n, hn, trivial⟩
  | saplingOutputOn n _ _ _ _ _ _ _ hn _ _ _ _ _ _ h => subst hv; obtain ⟨_, _, e⟩ := makes_saplingOutput ⟨n, E.H⟩ _ _ _ _ _ _ _ h; cases e; exact ⟨n, hn, trivial⟩
  | other b => cases hv; exact ⟨E.net, .inl rfl, trivial⟩
  | _ => cases hv

theorem made_keep {S : Network → Prop} {E : Env} {x a : Val} (hx : MadeOn S E x) (ha : MadeOn S E a) : MadeOn S E (argOr x a) := by
  cases x <;> first | exact ha | exact hx

theorem made_if {S : Network → Prop} {E : Env} {p : Prop} [Decidable p] {a : Val} (ha : MadeOn S E a) : MadeOn S E (if p then a else .none) := by
  split
  · exact ha
  · exact .none

theorem made_unless {S : Network → Prop} {E : Env} {l : List Val} {a : Val} (ha : MadeOn S E a) : MadeOn S E (unlessNil l a) := by
  unfold unlessNil
  split
  · exact .none
  · exact ha

/-- C118: whatever a program passes to `copy`, what it gets is an object that it could have made with the constructor of the class; so it is of the wire format
(`C114_safe`, `C116_safe_*`, `C117_safe`). -/
theorem C118_made {S : Network → Prop} (E : Env) (v w : Val) (h : MadeOn S E v) :
    (∀ x1 x2, MadeOn S E x1 → MadeOn S E x2 → copyOutpoint v x1 x2 = .ok w → MadeOn S E w ∧ w.isInstance .outpoint = true) ∧
    (∀ x1 x2 x3 x4, MadeOn S E x1 → MadeOn S E x2 → MadeOn S E x3 → MadeOn S E x4 → copyTxIn v x1 x2 x3 x4 = .ok w → MadeOn S E w ∧ w.isInstance .txIn = true) ∧
    (∀ x1 x2, MadeOn S E x1 → MadeOn S E x2 → copyTxOut v x1 x2 = .ok w → MadeOn S E w ∧ w.isInstance .txOut = true) ∧
    (∀ x1, MadeOn S E x1 → copyWitness v x1 = .ok w → MadeOn S E w ∧ w.isInstance .witness = true) ∧
    (∀ x1 x2 x3 x4 x5 x6, MadeOn S E x1 → MadeOn S E x2 → MadeOn S E x3 → MadeOn S E x4 → MadeOn S E x5 → MadeOn S E x6 → copyTx E v x1 x2 x3 x4 x5 x6 = .ok w → MadeOn S E w ∧ w.isInstance .tx = true) ∧
    (∀ x1 x2 x3, MadeOn S E x1 → MadeOn S E x2 → MadeOn S E x3 → copyDcrOutpoint E.net v x1 x2 x3 = .ok w → MadeOn S E w ∧ w.isInstance .dcrOutpoint = true) ∧
    (∀ x1 x2, MadeOn S E x1 → MadeOn S E x2 → copyDcrTxIn E.net v x1 x2 = .ok w → MadeOn S E w ∧ w.isInstance .dcrTxIn = true) ∧
    (∀ x1 x2 x3, MadeOn S E x1 → MadeOn S E x2 → MadeOn S E x3 → copyDcrTxOut E.net v x1 x2 x3 = .ok w → MadeOn S E w ∧ w.isInstance .dcrTxOut = true) ∧
    (∀ x1 x2 x3 x4 x5, MadeOn S E x1 → MadeOn S E x2 → MadeOn S E x3 → MadeOn S E x4 → MadeOn S E x5 → copyDcrWitness E.net v x1 x2 x3 x4 x5 = .ok w → MadeOn S E w ∧ w.isInstance .dcrWitness = true) ∧
    (∀ x1 x2 x3 x4 x5 x6, MadeOn S E x1 → MadeOn S E x2 → MadeOn S E x3 → MadeOn S E x4 → MadeOn S E x5 → MadeOn S E x6 → copyDcrTx E.net v x1 x2 x3 x4 x5 x6 = .ok w → MadeOn S E w ∧ w.isInstance .dcrTx = true) ∧
    (∀ x1 x2 x3 x4 x5 x6 x7, MadeOn S E x1 → MadeOn S E x2 → MadeOn S E x3 → MadeOn S E x4 → MadeOn S E x5 → MadeOn S E x6 → MadeOn S E x7 → copySprout E v x1 x2 x3 x4 x5 x6 x7 = .ok w → MadeOn S E w ∧ w.isInstance .sproutTx = true) ∧
    (∀ x1 x2 x3 x4 x5 x6 x7, MadeOn S E x1 → MadeOn S E x2 → MadeOn S E x3 → MadeOn S E x4 → MadeOn S E x5 → MadeOn S E x6 → MadeOn S E x7 → copyOverwinter E v x1 x2 x3 x4 x5 x6 x7 = .ok w → MadeOn S E w ∧ w.isInstance .overwinterTx = true) ∧
    (∀ x1 x2 x3 x4 x5 x6 x7 x8 x9 x10 x11, MadeOn S E x1 → MadeOn S E x2 → MadeOn S E x3 → MadeOn S E x4 → MadeOn S E x5 → MadeOn S E x6 → MadeOn S E x7 → MadeOn S E x8 → MadeOn S E x9 → MadeOn S E x10 → MadeOn S E x11 → copySapling E v x1 x2 x3 x4 x5 x6 x7 x8 x9 x10 x11 = .ok w → MadeOn S E w ∧ w.isInstance .saplingTx = true) := by
  have inv : ∀ c, v.isInstance c = true → ∃ n, (n = E.net ∨ S n) ∧ MadeFrom (MadeOn S E) ⟨n, E.H⟩ v c := by
    intro c hc
    cases v <;> simp [Val.isInstance] at hc
    subst hc
    exact made_from h
  have cls : ∀ {c : Cls} {p : Py Val}, Makes c p → p = .ok w → w.isInstance c = true := by
    intro c p hm hp
    obtain ⟨t, x, rfl⟩ := hm _ hp
    simp [Val.isInstance]
  refine ⟨?_, ?_, ?_, ?_, ?_, ?_, ?_, ?_, ?_, ?_, ?_, ?_, ?_⟩
  · intro x1 x2 h1 h2 hw
    have hc : v.isInstance .outpoint = true := by
      unfold copyOutpoint at hw; split at hw
      · simp [Val.isInstance]
      · cases hw
    obtain ⟨n, -, _, _, ⟨m1, m2⟩, g⟩ := inv _ hc
    rw [(C118_args E ⟨n, E.H⟩).1 _ _ _ _ _ g] at hw
    exact ⟨MadeOn.outpoint _ _ _ (made_keep h1 m1) (made_keep h2 m2) hw, cls (makes_outpoint _ _) hw⟩
  · intro x1 x2 x3 x4 h1 h2 h3 h4 hw
    have hc : v.isInstance .txIn = true := by
      unfold copyTxIn at hw; split at hw
      · simp [Val.isInstance]
      · cases hw
    obtain ⟨n, -, _, _, _, _, ⟨m1, m2, m3, m4⟩, g⟩ := inv _ hc
    rw [(C118_args E ⟨n, E.H⟩).2.1 _ _ _ _ _ _ _ _ _ g] at hw
    exact ⟨MadeOn.txIn _ _ _ _ _ (made_keep h1 m1) (made_keep h2 m2) (made_keep h3 m3) (made_keep h4 m4) hw, cls (makes_txIn _ _ _ _) hw⟩
  · intro x1 x2 h1 h2 hw
    have hc : v.isInstance .txOut = true := by
      unfold copyTxOut at hw; split at hw
      · simp [Val.isInstance]
      · cases hw
    obtain ⟨n, -, _, _, ⟨m1, m2⟩, g⟩ := inv _ hc
    rw [(C118_args E ⟨n, E.H⟩).2.2.1 _ _ _ _ _ g] at hw
    exact ⟨MadeOn.txOut _ _ _ (made_keep h1 m1) (made_keep h2 m2) hw, cls (makes_txOut _ _) hw⟩
  · intro x1 h1 hw
    have hc : v.isInstance .witness = true := by
      unfold copyWitness at hw; split at hw
      · simp [Val.isInstance]
      · cases hw
    obtain ⟨n, -, _, m1, g⟩ := inv _ hc
    rw [(C118_args E ⟨n, E.H⟩).2.2.2.1 _ _ _ g] at hw
    exact ⟨MadeOn.witness _ _ (made_keep h1 m1) hw, cls (makes_witness _) hw⟩
  · intro x1 x2 x3 x4 x5 x6 h1 h2 h3 h4 h5 h6 hw
    have hc : v.isInstance .tx = true := by
      unfold copyTx at hw; split at hw
      · simp [Val.isInstance]
      · cases hw
    obtain ⟨n, -, _, _, _, _, _, _, ⟨m1, m2, m3, m4, m5, m6⟩, g⟩ := inv _ hc
    rw [(C118_args E ⟨n, E.H⟩).2.2.2.2 _ _ _ _ _ _ _ _ _ _ _ _ _ g] at hw
    exact ⟨MadeOn.tx _ _ _ _ _ _ _ (made_keep h1 m1) (made_keep h2 m2) (made_keep h3 m3) (made_keep h4 m4) (made_keep h5 m5) (made_keep h6 m6) hw, cls (makes_tx E _ _ _ _ _ _) hw⟩
  · intro x1 x2 x3 h1 h2 h3 hw
    have hc : v.isInstance .dcrOutpoint = true := by
      unfold copyDcrOutpoint at hw; split at hw
      · simp [Val.isInstance]
      · cases hw
    obtain ⟨n, -, _, _, _, ⟨m1, m2, m3⟩, g⟩ := inv _ hc
    rw [(C118_args_decred E.net n).1 _ _ _ _ _ _ _ g] at hw
    exact ⟨MadeOn.dcrOutpoint _ _ _ _ (made_keep h1 m1) (made_keep h2 m2) (made_keep h3 m3) hw, cls (makes_dcrOutpoint E _ _ _) hw⟩
  · intro x1 x2 h1 h2 hw
    have hc : v.isInstance .dcrTxIn = true := by
      unfold copyDcrTxIn at hw; split at hw
      · simp [Val.isInstance]
      · cases hw
    obtain ⟨n, -, _, _, ⟨m1, m2⟩, g⟩ := inv _ hc
    rw [(C118_args_decred E.net n).2.1 _ _ _ _ _ g] at hw
    exact ⟨MadeOn.dcrTxIn _ _ _ (made_keep h1 m1) (made_keep h2 m2) hw, cls (makes_dcrTxIn E _ _) hw⟩
  · intro x1 x2 x3 h1 h2 h3 hw
    have hc : v.isInstance .dcrTxOut = true := by
      unfold copyDcrTxOut at hw; split at hw
      · simp [Val.isInstance]
      · cases hw
    obtain ⟨n, -, _, _, _, ⟨m1, m2, m3⟩, g⟩ := inv _ hc
    rw [(C118_args_decred E.net n).2.2.1 _ _ _ _ _ _ _ g] at hw
    exact ⟨MadeOn.dcrTxOut _ _ _ _ (made_keep h1 m1) (made_keep h2 m2) (made_keep h3 m3) hw, cls (makes_dcrTxOut E _ _ _) hw⟩
  · intro x1 x2 x3 x4 x5 h1 h2 h3 h4 h5 hw
    have hc : v.isInstance .dcrWitness = true := by
      unfold copyDcrWitness at hw; split at hw
      · simp [Val.isInstance]
      · cases hw
    obtain ⟨n, -, _, _, _, _, _, ⟨m1, m2, m3, m4, m5⟩, g⟩ := inv _ hc
    rw [(C118_args_decred E.net n).2.2.2.1 _ _ _ _ _ _ _ _ _ _ _ g] at hw
    exact ⟨MadeOn.dcrWitness _ _ _ _ _ _ (made_keep h1 m1) (made_keep h2 m2) (made_keep h3 m3) (made_keep h4 m4) (made_keep h5 m5) hw, cls (makes_dcrWitness E _ _ _ _ _) hw⟩
  · intro x1 x2 x3 x4 x5 x6 h1 h2 h3 h4 h5 h6 hw
    have hc : v.isInstance .dcrTx = true := by
      unfold copyDcrTx at hw; split at hw
      · simp [Val.isInstance]
      · cases hw
    obtain ⟨n, -, _, _, _, _, _, _, ⟨m1, m2, m3, m4, m5, m6⟩, g⟩ := inv _ hc
    rw [(C118_args_decred E.net n).2.2.2.2 _ _ _ _ _ _ _ _ _ _ _ _ _ g] at hw
    exact ⟨MadeOn.dcrTx _ _ _ _ _ _ _ (made_keep h1 m1) (made_keep h2 m2) (made_keep h3 m3) (made_keep h4 m4) (made_keep h5 m5) (made_keep h6 m6) hw, cls (makes_dcrTx E _ _ _ _ _ _) hw⟩
  · intro x1 x2 x3 x4 x5 x6 x7 h1 h2 h3 h4 h5 h6 h7 hw
    have hc : v.isInstance .sproutTx = true := by
      unfold copySprout at hw; split at hw
      · simp [Val.isInstance]
      · cases hw
    obtain ⟨n, -, _, _, _, _, _, _, _, ⟨m1, m2, m3, m4, m5, m6, m7⟩, g⟩ := inv _ hc
    obtain ⟨_, _, e⟩ := (C118_args_zcash E ⟨n, E.H⟩).1 _ _ _ _ _ _ _ x1 x2 x3 x4 x5 x6 x7 _ g
    rw [e] at hw
    exact ⟨MadeOn.sproutTx _ _ _ _ _ _ _ _ (made_keep h1 m1) (made_keep h2 m2) (made_keep h3 m3) (made_keep h4 m4) (made_keep h5 m5) (made_keep h6 (made_if m6)) (made_keep h7 (made_if m7)) hw, cls (makes_sproutTx E _ _ _ _ _ _ _) hw⟩
  · intro x1 x2 x3 x4 x5 x6 x7 h1 h2 h3 h4 h5 h6 h7 hw
    have hc : v.isInstance .overwinterTx = true := by
      unfold copyOverwinter at hw; split at hw
      · simp [Val.isInstance]
      · cases hw
    obtain ⟨n, -, _, _, _, _, _, _, _, ⟨m1, m2, m3, m4, m5, m6, m7⟩, g⟩ := inv _ hc
    obtain ⟨_, _, e⟩ := (C118_args_zcash E ⟨n, E.H⟩).2.1 _ _ _ _ _ _ _ x1 x2 x3 x4 x5 x6 x7 _ g
    rw [e] at hw
    exact ⟨MadeOn.overwinterTx _ _ _ _ _ _ _ _ (made_keep h1 m1) (made_keep h2 m2) (made_keep h3 m3) (made_keep h4 m4) (made_keep h5 m5) (made_keep h6 (made_unless m6)) (made_keep h7 (made_unless m7)) hw, cls (makes_overwinterTx E _ _ _ _ _ _ _) hw⟩
  · intro x1 x2 x3 x4 x5 x6 x7 x8 x9 x10 x11 h1 h2 h3 h4 h5 h6 h7 h8 h9 h10 h11 hw
    have hc : v.isInstance .saplingTx = true := by
      unfold copySapling at hw; split at hw
      · simp [Val.isInstance]
      · cases hw
    obtain ⟨n, -, _, _, _, _, _, _, _, _, _, _, _, ⟨m1, m2, m3, m4, m5, m6, m7, m8, m9, m10, m11⟩, g⟩ := inv _ hc
    obtain ⟨_, _, _, _, _, _, e⟩ := (C118_args_zcash E ⟨n, E.H⟩).2.2 _ _ _ _ _ _ _ _ _ _ _ x1 x2 x3 x4 x5 x6 x7 x8 x9 x10 x11 _ g
    rw [e] at hw
    exact ⟨MadeOn.saplingTx _ _ _ _ _ _ _ _ _ _ _ _ (made_keep h1 m1) (made_keep h2 m2) (made_keep h3 m3) (made_keep h4 m4) (made_keep h5 m5) (made_keep h6 m6) (made_keep h7 m7) (made_keep h8 m8) (made_keep h9 (made_unless m9)) (made_keep h10 (made_unless m10)) (made_keep h11 (made_unless m11)) hw, cls (makes_saplingTx E _ _ _ _ _ _ _ _ _ _ _) hw⟩

/-! ### arguments of the annotated types -/

/-- A sequence of objects (a list or a tuple) or None, as `copy` takes it. -/
def SeqArg {α : Type} (f : α → Val) (s : Val) : Option (List α) → Prop
  | none => s = .none
  | some l => IsSeq s (l.map f)

theorem SeqArg.keep {α : Type} {f : α → Val} {s a : Val} {x : Option (List α)} {l : List α} (h : SeqArg f s x) (ha : IsSeq a (l.map f)) :
    IsSeq (Dyn.keep s a) ((x.getD l).map f) := by
  cases x with
  | none => cases h; exact ha
  | some m => rcases h with rfl | rfl
              · exact .inl rfl
              · exact .inr rfl

theorem keep_opt (x : Option Bytes) (b : Bytes) : Dyn.keep (embOpt x) (.bytes b) = .bytes (x.getD b) := by cases x <;> rfl

theorem keep_opts (x y : Option Bytes) : Dyn.keep (embOpt x) (embOpt y) = embOpt (x.orElse fun _ => y) := by cases x <;> cases y <;> rfl

/-- C118: on arguments of the annotated types, the copies of the parts are those of the model with types (whose facts are C44). -/
theorem C118_typed_parts (net : Network) :
    (∀ (o : Outpoint) (a b : Option Bytes), copyOutpoint (embO o) (embOpt a) (embOpt b) = (o.copy a b).map embO) ∧
    (∀ (t : TxIn) (o : Option Outpoint) (s r q : Option Bytes),
      copyTxIn (embIn t) (o.elim .none embO) (embOpt s) (embOpt r) (embOpt q) = (t.copy o s r q).map embIn) ∧
    (∀ (o : TxOut) (a b : Option Bytes), copyTxOut (embOut o) (embOpt a) (embOpt b) = (o.copy a b).map embOut) ∧
    (∀ (w : InputWitness) (s : Val) (x : Option (List WitnessStackItem)), SeqArg embItem s x → copyWitness (embWit w) s = (w.copy x).map embWit) ∧
    (∀ (o : DecredOutpoint) (a b c : Option Bytes), copyDcrOutpoint net (embDcrO o) (embOpt a) (embOpt b) (embOpt c) = (o.copy net a b c).map embDcrO) ∧
    (∀ (t : DecredTxIn) (o : Option DecredOutpoint) (q : Option Bytes),
      copyDcrTxIn net (embDcrIn t) (o.elim .none embDcrO) (embOpt q) = (t.copy net o q).map embDcrIn) ∧
    (∀ (o : DecredTxOut) (a b c : Option Bytes), copyDcrTxOut net (embDcrOut o) (embOpt a) (embOpt b) (embOpt c) = (o.copy net a b c).map embDcrOut) ∧
    (∀ (w : DecredInputWitness) (a b c d e : Option Bytes),
      copyDcrWitness net (embDcrWit w) (embOpt a) (embOpt b) (embOpt c) (embOpt d) (embOpt e) = (w.copy net a b c d e).map embDcrWit) := by
  obtain ⟨p1, p2, p3, _, p5⟩ := C114_typed_parts
  obtain ⟨q1, q2, q3, q4⟩ := C117_typed_parts net
  refine ⟨fun o a b => ?_, fun t o s r q => ?_, fun o a b => ?_, fun w s x hx => ?_, fun o a b c => ?_, fun t o q => ?_, fun o a b c => ?_, fun w a b c d e => ?_⟩
  · show Dyn.outpoint _ _ = _
    rw [keep_opt, keep_opt, p1]; rfl
  · show Dyn.txIn _ _ _ _ = _
    have e : Dyn.keep (o.elim .none embO) (embO t.outpoint) = embO (o.getD t.outpoint) := by cases o <;> rfl
    rw [keep_opt, keep_opt, keep_opt, e, p2]; rfl
  · show Dyn.txOut _ _ = _
    rw [keep_opt, keep_opt, p3]; rfl
  · show Dyn.witness _ = _
    rw [p5 _ (x.getD w.stack) (hx.keep (.inr rfl))]; rfl
  · show Dyn.dcrOutpoint _ _ _ _ = _
    rw [keep_opt, keep_opt, keep_opt, q1]; rfl
  · show Dyn.dcrTxIn _ _ _ = _
    have e : Dyn.keep (o.elim .none embDcrO) (embDcrO t.outpoint) = embDcrO (o.getD t.outpoint) := by cases o <;> rfl
    rw [keep_opt, e, q2]; rfl
  · show Dyn.dcrTxOut _ _ _ _ = _
    rw [keep_opt, keep_opt, keep_opt, q3]; rfl
  · show Dyn.dcrWitness _ _ _ _ _ _ = _
    rw [keep_opt, keep_opt, keep_opt, keep_opt, keep_opt, q4]; rfl

/-- C118: the same for the transactions. -/
theorem C118_typed (E : Env) :
    (∀ (t : Tx) (version flag : Option Bytes) (ins : Option (List TxIn)) (outs : Option (List TxOut)) (wits : Option (List InputWitness)) (lockTime : Option Bytes)
      (si so sw : Val), SeqArg embIn si ins → SeqArg embOut so outs → SeqArg embWit sw wits →
      copyTx E (embTx t) (embOpt version) (embOpt flag) si so sw (embOpt lockTime) = (t.copy E version flag ins outs wits lockTime).map embTx) ∧
    (∀ (t : SproutTx) (version : Option Bytes) (ins : Option (List TxIn)) (outs : Option (List TxOut)) (lockTime : Option Bytes) (js : Option (List SproutJoinsplit))
      (pk sig : Option Bytes) (si so sj : Val), SeqArg embIn si ins → SeqArg embOut so outs → SeqArg embSproutJs sj js →
      copySprout E (embSprout t) (embOpt version) si so (embOpt lockTime) sj (embOpt pk) (embOpt sig) =
        (t.copy E version ins outs lockTime js pk sig).map embSprout) ∧
    (∀ (t : OverwinterTx) (ins : Option (List TxIn)) (outs : Option (List TxOut)) (lockTime expiry : Option Bytes) (js : Option (List SproutJoinsplit))
      (pk sig : Option Bytes) (si so sj : Val), SeqArg embIn si ins → SeqArg embOut so outs → SeqArg embSproutJs sj js →
      copyOverwinter E (embOver t) si so (embOpt lockTime) (embOpt expiry) sj (embOpt pk) (embOpt sig) =
        (t.copy E ins outs lockTime expiry js pk sig).map embOver) ∧
    (∀ (t : SaplingTx) (ins : Option (List TxIn)) (outs : Option (List TxOut)) (lockTime expiry balance : Option Bytes) (spends : Option (List SaplingShieldedSpend))
      (outputs : Option (List SaplingShieldedOutput)) (js : Option (List SaplingJoinsplit)) (pk sig binding : Option Bytes) (si so ss st sj : Val),
      SeqArg embIn si ins → SeqArg embOut so outs → SeqArg embSpend ss spends → SeqArg embOutput st outputs → SeqArg embSapJs sj js →
      copySapling E (embSap t) si so (embOpt lockTime) (embOpt expiry) (embOpt balance) ss st sj (embOpt pk) (embOpt sig) (embOpt binding) =
        (t.copy E ins outs lockTime expiry balance spends outputs js pk sig binding).map embSap) ∧
    (∀ (t : DecredTx) (ti tu tw : Val) (version : Option Bytes) (ins : Option (List DecredTxIn)) (outs : Option (List DecredTxOut)) (lockTime expiry : Option Bytes)
      (wits : Option (List DecredInputWitness)) (si so sw : Val),
      IsSeq ti (t.txIns.map embDcrIn) → IsSeq tu (t.txOuts.map embDcrOut) → IsSeq tw (t.txWitnesses.map embDcrWit) →
      SeqArg embDcrIn si ins → SeqArg embDcrOut so outs → SeqArg embDcrWit sw wits →
      copyDcrTx E.net (embDcrTx ti tu tw t) (embOpt version) si so (embOpt lockTime) (embOpt expiry) sw =
        (t.copy E.net version ins outs lockTime expiry wits).map (embDcrTx (keep si ti) (keep so tu) (keep sw tw))) := by
  refine ⟨?_, ?_, ?_, ?_, ?_⟩
  · intro t version flag ins outs wits lockTime si so sw hi ho hw
    show Dyn.tx E _ _ _ _ _ _ = _
    rw [keep_opt, keep_opt, keep_opts]
    refine C114_typed E _ _ _ (ins.getD t.txIns) (outs.getD t.txOuts) (wits.orElse fun _ => t.txWitnesses) _ _ _ (hi.keep (.inr rfl)) (ho.keep (.inr rfl)) ?_ ?_
    · intro ws e
      cases wits with
      | some w => cases e; rcases hw with rfl | rfl
                  · exact .inl rfl
                  · exact .inr rfl
      | none => cases hw; have e' : t.txWitnesses = some ws := e; rw [e']; exact .inr rfl
    · intro e
      cases wits with
      | some w => cases e
      | none => cases hw; have e' : t.txWitnesses = none := e; rw [e']; rfl
  · intro t version ins outs lockTime js pk sig si so sj hi ho hj
    show Dyn.sproutTx E _ _ _ _ _ _ _ = _
    rw [keep_opt, keep_opt, keep_opts, keep_opts]
    refine C116_typed_sprout E _ (ins.getD t.txIns) (outs.getD t.txOuts) _ (some (js.getD t.txJoinsplits)) _ _ _ _ _ (hi.keep (.inr rfl)) (ho.keep (.inr rfl)) ?_ ?_
    · intro l e; cases e; exact hj.keep (.inr rfl)
    · intro e; cases e
  · intro t ins outs lockTime expiry js pk sig si so sj hi ho hj
    show Dyn.overwinterTx E _ _ _ _ _ _ _ = _
    rw [keep_opt, keep_opt, keep_opts, keep_opts]
    exact C116_typed_overwinter E (ins.getD t.txIns) (outs.getD t.txOuts) _ _ (js.getD t.txJoinsplits) _ _ _ _ _ (hi.keep (.inr rfl)) (ho.keep (.inr rfl))
      (hj.keep (.inr rfl))
  · intro t ins outs lockTime expiry balance spends outputs js pk sig binding si so ss st sj hi ho hs ht hj
    show Dyn.saplingTx E _ _ _ _ _ _ _ _ _ _ _ = _
    rw [keep_opt, keep_opt, keep_opt, keep_opts, keep_opts, keep_opts]
    exact C116_typed_sapling E (ins.getD t.txIns) (outs.getD t.txOuts) _ _ _ (spends.getD t.txShieldedSpends) (outputs.getD t.txShieldedOutputs)
      (js.getD t.txJoinsplits) _ _ _ _ _ _ _ _ (hi.keep (.inr rfl)) (ho.keep (.inr rfl)) (hs.keep (.inr rfl)) (ht.keep (.inr rfl)) (hj.keep (.inr rfl))
  · intro t ti tu tw version ins outs lockTime expiry wits si so sw ki ko kw hi ho hw
    show Dyn.dcrTx E.net _ _ _ _ _ _ = _
    rw [keep_opt, keep_opt, keep_opt]
    exact C117_typed E.net _ (ins.getD t.txIns) (outs.getD t.txOuts) _ _ (wits.getD t.txWitnesses) _ _ _ (hi.keep ki) (ho.keep ko) (hw.keep kw)

/-! ### cases -/

/-- A transaction with a witness, made of lists. -/
def valTx : Py Val := Dyn.tx toyEnv (.bytes [2, 0, 0, 0]) (.bytearray [0, 1]) (.list [valIn]) (.list [valOut]) (.list [valWit]) (.bytes [0, 0, 0, 0])

/-- It is made; its copy with another version and a bytearray as lock time is one; the flag cannot be taken away; a number is refused, and a text. -/
example : ∃ v, valTx = .ok v ∧ Made toyEnv v ∧
    (∃ w, copyTx toyEnv v (.bytes [1, 0, 0, 0]) .none .none .none .none (.bytearray [5, 0, 0, 0]) = .ok w ∧
      w.content = some ([1, 0, 0, 0, 0, 1, 1] ++ (List.replicate 36 7 ++ [1, 1, 255, 255, 255, 255]) ++ [1] ++ [1, 0, 0, 0, 0, 0, 0, 0, 1, 0x51] ++ [1, 2, 9, 9] ++ [5, 0, 0, 0])) ∧
    copyTx toyEnv v .none .none .none .none .none .none = .ok v ∧
    copyTx toyEnv v (.int 1) .none .none .none .none .none = .error .valueError ∧
    copyTx toyEnv v .none (.str (pystr "0001")) .none .none .none .none = .error .attributeError ∧
    copyTx toyEnv v .none .none (.int 0) .none .none .none = .error .typeError ∧
    copyTxIn v .none .none .none .none = .error .attributeError :=
  ⟨_, rfl, .tx (.bytes [2, 0, 0, 0]) (.bytearray [0, 1]) (.list [valIn]) (.list [valOut]) (.list [valWit]) (.bytes [0, 0, 0, 0]) _ (.bytes _) (.bytearray _)
      (.list _ fun v hv => by rw [List.mem_singleton.1 hv]; exact valIn_made)
      (.list _ fun v hv => by rw [List.mem_singleton.1 hv]; exact valOut_made)
      (.list _ fun v hv => by rw [List.mem_singleton.1 hv]; exact valWit_made) (.bytes _) rfl, ⟨_, rfl, rfl⟩, rfl, rfl, rfl, rfl, rfl⟩

example : SeqArg embOut (.list [embOut exOut]) (some [exOut]) ∧ SeqArg embOut .none none := ⟨.inl rfl, rfl⟩

/-- A Sapling transaction whose joinsplit keys are forgotten, since it has no joinsplits. -/
example : ∃ v, Dyn.saplingTx sapEnv (.list [valIn]) (.tuple [valOut]) (.bytes [0, 0, 0, 0]) (.bytearray [1, 0, 0, 0]) (.bytes (List.replicate 8 0)) (.list []) (.list []) (.list [])
    (.bytes [1]) (.bytes [2]) .none = .ok v ∧ copySapling sapEnv v .none .none .none (.bytes [2, 0, 0, 0]) .none .none .none .none .none .none .none =
    Dyn.saplingTx sapEnv (.list [valIn]) (.tuple [valOut]) (.bytes [0, 0, 0, 0]) (.bytes [2, 0, 0, 0]) (.bytes (List.replicate 8 0)) (.list []) (.list []) (.list [])
    .none .none .none := ⟨_, rfl, rfl⟩

end Verif.Props
