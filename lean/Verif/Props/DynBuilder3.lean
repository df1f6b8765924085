import Verif.Props.DynBuilder2

/-! Properties C121 and C122, continued: Decred, simple.py, bytearrays; and what the functions take for numbers. -/

namespace Verif.Props
open Verif Spec Dyn

/-! ### C121: typed arguments on Decred and in simple.py -/

/-- The argument `tx_witnesses` as the model with types describes it. -/
def IsWits (w : Val) : DecredWits → Prop
  | .absent => w = .none
  | .list ws => IsSeq w (ws.map embDcrWit)
  | .one x => w = embDcrWit x

theorem validateAll_only {l : List (Val × Nat)} : ∀ e, Val.validateAll l = .error e → e = .valueError := by
  induction l with
  | nil => intro e h; cases h
  | cons a l ih =>
    intro e h
    rw [validateAll_cons] at h
    cases hv : a.1.validate (some a.2) with
    | error x => rw [hv, error_bind] at h; cases h; exact validate_only _ hv
    | ok u => rw [hv, ok_bind] at h; exact ih e h

/-- C121: the same for `make_tx` on Decred; the arguments for Zcash are not looked at. -/
theorem C121_typed_decred (E : Env) (hd : E.net.isDecred = true) (v lt : Int) (ex : Option Int) (ins : List DecredTxIn) (outs : List DecredTxOut) (ws : DecredWits)
    (si so w b1 b2 b3 b4 b5 b6 b7 : Val) (hi : IsSeq si (ins.map embDcrIn)) (ho : IsSeq so (outs.map embDcrOut)) (hw : IsWits w ws) :
    Dyn.makeTx E (.int v) si so (.int lt) ⟨embInt ex, b1, b2, b3, w, b4, b5, b6, b7⟩ = (Builder.makeTxDecred E v ins outs lt ex ws).map (embAnyTx si so (.list [w])) := by
  unfold Dyn.makeTx Builder.makeTxDecred
  rw [if_pos hd]
  simp only [toLe_int, toLe_embInt, bind_map, map_bind]
  congr 1; funext a
  congr 1; funext l
  congr 1; funext x
  have refuse : w.isInstance .dcrWitness = false → Dyn.dcrTx E.net (.bytes a) si so (.bytes l) (.bytes x) (.list [w]) = .error .valueError := by
    intro hw
    unfold Dyn.dcrTx
    refine refuse_bind check_only fun _ _ => refuse_bind validateAll_only fun _ _ => ?_
    rw [seq_len hi, ok_bind, seq_len ho, ok_bind]
    refine refuse_bind check_only fun _ _ => refuse_bind (instances_only hi) fun _ _ => refuse_bind (instances_only ho) fun _ _ => ?_
    rw [instances_refuse (.inl rfl) hw, error_bind]
  cases ws with
  | absent => cases hw; exact refuse rfl
  | list ws => rcases hw with rfl | rfl <;> exact refuse rfl
  | one y =>
    cases hw
    dsimp only
    rw [C117_typed E.net a ins outs l x [y] si so (.list [embDcrWit y]) hi ho (.inl rfl)]
    cases DecredTx.make E.net a ins outs l x [y] <;> rfl

/-- The three forms of the witness argument. -/
example : IsWits .none .absent ∧ IsWits (.list []) (.list []) ∧
    IsWits (embDcrWit ⟨[], [], [], 0, [], [], [], []⟩) (.one ⟨[], [], [], 0, [], [], [], []⟩) := ⟨rfl, .inl rfl, rfl⟩

/-- A key or signature that is not bytes of the right length, in `OverwinterTx`: which value it is does not matter. -/
theorem over_pk {E : Env} {si so lt ex sj pk pk' sig : Val} (h : pk.validate (some 32) = .error .valueError) (h' : pk'.validate (some 32) = .error .valueError) :
    Dyn.overwinterTx E si so lt ex sj pk sig = Dyn.overwinterTx E si so lt ex sj pk' sig := by
  unfold Dyn.overwinterTx
  cases hj : sj.len with
  | error e => simp only [error_bind]
  | ok n =>
    cases n with
    | zero =>
      simp only [Dyn.checkJsSig, Dyn.addJs, Dyn.jsAttrs, hj, ok_bind, ne_eq, not_true, if_false]
    | succ n =>
      have : ∀ p, p.validate (some 32) = .error .valueError → Dyn.checkJsSig (n + 1) p sig = .error .valueError := by
        intro p hp
        unfold Dyn.checkJsSig
        rw [if_pos (Nat.succ_ne_zero n), hp, error_bind]
      simp only [ok_bind, this pk h, this pk' h', error_bind]

theorem over_sig {E : Env} {si so lt ex sj pk sig sig' : Val} (h : sig.validate (some 64) = .error .valueError) (h' : sig'.validate (some 64) = .error .valueError) :
    Dyn.overwinterTx E si so lt ex sj pk sig = Dyn.overwinterTx E si so lt ex sj pk sig' := by
  unfold Dyn.overwinterTx
  cases hj : sj.len with
  | error e => simp only [error_bind]
  | ok n =>
    cases n with
    | zero =>
      simp only [Dyn.checkJsSig, Dyn.addJs, Dyn.jsAttrs, hj, ok_bind, ne_eq, not_true, if_false]
    | succ n =>
      have : ∀ q, q.validate (some 64) = .error .valueError → Dyn.checkJsSig (n + 1) pk q = .error .valueError := by
        intro q hq
        unfold Dyn.checkJsSig
        rw [if_pos (Nat.succ_ne_zero n), hq]
        exact refuse_bind validate_only fun _ _ => rfl
      simp only [ok_bind, this sig h, this sig' h', error_bind]

/-- A joinsplit key or signature, or the empty list that simple.py has in place of one. -/
def keyOrList (b : Option Bytes) : Val := b.elim (.list []) .bytes

theorem legacy_keys {E : Env} {si so sj : Val} {v l x : Int} (pk sig : Option Bytes) :
    Dyn.makeTx E (.int v) si so (.int l) ⟨.int x, .int 0, .none, .none, .none, sj, keyOrList pk, keyOrList sig, .none⟩ =
    Dyn.makeTx E (.int v) si so (.int l) ⟨.int x, .int 0, .none, .none, .none, sj, .bytes (pk.getD []), .bytes (sig.getD []), .none⟩ := by
  have e32 : (Val.list []).validate (some 32) = .error .valueError := rfl
  have e64 : (Val.list []).validate (some 64) = .error .valueError := rfl
  have b32 : (Val.bytes []).validate (some 32) = .error .valueError := rfl
  have b64 : (Val.bytes []).validate (some 64) = .error .valueError := rfl
  have over : ∀ a b c d e, Dyn.overwinterTx E a b c d e (keyOrList pk) (keyOrList sig) = Dyn.overwinterTx E a b c d e (.bytes (pk.getD [])) (.bytes (sig.getD [])) := by
    intro a b c d e
    have h1 : ∀ s, Dyn.overwinterTx E a b c d e (keyOrList pk) s = Dyn.overwinterTx E a b c d e (.bytes (pk.getD [])) s := by
      intro s
      cases pk with
      | none => exact over_pk e32 b32
      | some p => rfl
    have h2 : ∀ p, Dyn.overwinterTx E a b c d e p (keyOrList sig) = Dyn.overwinterTx E a b c d e p (.bytes (sig.getD [])) := by
      intro p
      cases sig with
      | none => exact over_sig e64 b64
      | some p => rfl
    rw [h1, h2]
  unfold Dyn.makeTx
  split
  · rfl
  split
  · congr 1
  split
  · congr 1; funext _; congr 1; funext _; exact over _ _ _ _ _
  split
  · congr 1
  · rfl

/-- C121: the same for simple.py on networks other than Decred. The empty lists that stand for a missing joinsplit key and signature are refused wherever empty bytes are. -/
theorem C121_typed_simple (E : Env) (hd : E.net.isDecred = false) (ins : List TxIn) (outs : List TxOut) (k : Simple.Kwargs) (si so sj : Val) (hi : IsSeq si (ins.map embIn))
    (ho : IsSeq so (outs.map embOut)) (hj : IsSeq sj (embJs (k.txJoinsplits.getD (.sprout [])))) :
    Dyn.simpleLegacyTx E si so ⟨.int (k.version.getD 2), .int (k.lockTime.getD 0), .int (k.expiry.getD 0), sj, keyOrList k.joinsplitPubkey, keyOrList k.joinsplitSig⟩ =
      (Simple.unsignedLegacyTx E ins outs k).map (embAnyTx si so .none) ∧
    Dyn.simpleWitnessTx E si so (.int (k.version.getD 2)) (.int (k.lockTime.getD 0)) =
      (Simple.unsignedWitnessTx E ins outs k).map (embAnyTx si so .none) := by
  constructor
  · unfold Dyn.simpleLegacyTx Simple.unsignedLegacyTx
    exact (legacy_keys k.joinsplitPubkey k.joinsplitSig).trans
      (C121_typed_tx E hd (k.version.getD 2) (k.lockTime.getD 0) 0 (some (k.expiry.getD 0)) ins outs none none none (some (k.txJoinsplits.getD (.sprout [])))
        (some (k.joinsplitPubkey.getD [])) (some (k.joinsplitSig.getD [])) none si so .none .none .none sj hi ho rfl rfl rfl hj)
  · unfold Dyn.simpleWitnessTx Simple.unsignedWitnessTx
    have e : ∀ l : List TxIn, mapPy (fun _ => Dyn.makeWitness (.list [])) (l.map embIn) = (mapPy (fun _ => Builder.makeEmptyWitness) l).map (List.map embWit) := by
      intro l
      have e1 : Dyn.makeWitness (.list []) = Builder.makeEmptyWitness.map embWit := (C121_typed_inputs E).1 (.list []) [] (.inl rfl)
      induction l with
      | nil => rfl
      | cons a l ih => simp only [List.map_cons, mapPy, ih, bind_map, map_bind, map_ok']; rw [e1]; simp only [bind_map]
    rw [seq_iter hi, ok_bind, e, bind_map, map_bind]
    congr 1; funext ws
    refine (C121_typed_tx E hd (k.version.getD 2) (k.lockTime.getD 0) 0 none ins outs none none (some ws) none none none none si so .none .none (.list (ws.map embWit)) .none hi ho rfl rfl
      (.inl rfl) rfl).trans ?_
    have hx : ∀ t : AnyTx, (∀ d, t ≠ .decred d) → embAnyTx si so (.list (ws.map embWit)) t = embAnyTx si so .none t := by
      intro t ht
      cases t with
      | decred d => exact absurd rfl (ht d)
      | _ => rfl
    cases hm : Builder.makeTx E (k.version.getD 2) ins outs (k.lockTime.getD 0) (txWitnesses := some ws) with
    | error e => rfl
    | ok t =>
      show Except.ok _ = Except.ok _
      rw [hx t]
      rintro d rfl
      unfold Builder.makeTx at hm
      split at hm
      · simp only [bind_ok_iff] at hm; obtain ⟨_, _, hm⟩ := hm; cases hm
      split at hm
      · simp only [bind_ok_iff] at hm; obtain ⟨_, _, _, _, _, _, _, _, hm⟩ := hm; cases hm
      split at hm
      · simp only [bind_ok_iff] at hm; obtain ⟨_, _, _, _, _, _, _, _, hm⟩ := hm; cases hm
      · simp only [bind_ok_iff] at hm; obtain ⟨_, _, _, _, _, _, hm⟩ := hm; cases hm


example : toyEnv.net.isDecred = false ∧ IsSeq (.list []) (embJs ((none : Option Joinsplits).getD (.sprout []))) ∧
    (Dyn.simpleLegacyTx overEnv (.list [embIn exIn]) (.list [embOut exOut]) ⟨.int 2, .int 0, .int 9, .list [], keyOrList none, keyOrList none⟩).isOk = true ∧
    (Dyn.simpleWitnessTx toyEnv (.list [embIn exIn]) (.list [embOut exOut]) (.int 2) (.int 0)).isOk = true := ⟨by decide, .inl rfl, rfl, rfl⟩

end Verif.Props
