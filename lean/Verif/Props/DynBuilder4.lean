import Verif.Props.DynBuilder3

/-! Properties C121 and C122, concluded: bytearrays, and what the functions take for numbers. -/

namespace Verif.Props
open Verif Spec Dyn

/-! ### C121: bytearrays -/

theorem fz_toLe (v : Val) (k : Nat) : (freeze v).toLe k = v.toLe k := by cases v <;> simp only [freeze] <;> rfl
theorem fz_truthy (v : Val) : (freeze v).truthy = v.truthy := by
  cases v with
  | list l => cases l <;> rfl
  | tuple l => cases l <;> rfl
  | _ => simp only [freeze] <;> rfl
theorem fz_given (v : Val) : (freeze v).given = v.given := by cases v <;> simp only [freeze] <;> rfl
theorem fz_serialize (net : Network) (v : Val) : (freeze v).serialize net = v.serialize net := by cases v <;> simp only [freeze] <;> rfl

theorem freeze_le {v w : Val} {k : Nat} (h : v.toLe k = .ok w) : freeze w = w := by
  obtain ⟨b, -, rfl⟩ := toLe_ok.1 h
  rfl

/-- A step that yields bytes, followed by the same on both sides. -/
theorem le_congr {α : Type} {v : Val} {k : Nat} {f g : Val → Py α} (h : ∀ b : Bytes, f (.bytes b) = g (.bytes b)) : (v.toLe k >>= f) = v.toLe k >>= g := by
  cases hv : v.toLe k with
  | error e => rfl
  | ok w =>
    obtain ⟨b, -, rfl⟩ := toLe_ok.1 hv
    exact h b

theorem fz_mapPy {f : Val → Py Val} (h : ∀ v, f (freeze v) = (f v).map freeze) (l : List Val) : mapPy f (l.map freeze) = (mapPy f l).map (List.map freeze) := by
  induction l with
  | nil => rfl
  | cons a l ih => simp only [List.map_cons, mapPy, h, ih, bind_map, map_bind, map_ok']

/-- The keyword arguments of `make_tx` with their bytearrays replaced by bytes. -/
def freezeKw (k : TxKw) : TxKw :=
  ⟨freeze k.expiry, freeze k.valueBalance, freeze k.txShieldedSpends, freeze k.txShieldedOutputs, freeze k.txWitnesses, freeze k.txJoinsplits, freeze k.joinsplitPubkey,
    freeze k.joinsplitSig, freeze k.bindingSig⟩

/-- Those of `unsigned_legacy_tx`. -/
def freezeLegacy (k : LegacyKw) : LegacyKw :=
  ⟨freeze k.version, freeze k.lockTime, freeze k.expiry, freeze k.txJoinsplits, freeze k.joinsplitPubkey, freeze k.joinsplitSig⟩

theorem fz_makeWitness (a : Val) : Dyn.makeWitness (freeze a) = (Dyn.makeWitness a).map freeze := by
  unfold Dyn.makeWitness
  simp only [fz_iter, bind_map, map_bind, fz_mapPy fz_item]
  congr 1; funext l
  congr 1; funext s
  rw [← fz_witness]
  simp only [freeze, freezes_eq]

theorem fz_makeOutpoint (E : Env) (a b c : Val) : Dyn.makeOutpoint E (freeze a) (freeze b) (freeze c) = (Dyn.makeOutpoint E a b c).map freeze := by
  unfold Dyn.makeOutpoint
  simp only [fz_given, fz_toLe]
  by_cases hd : E.net.isDecred = true
  · rw [if_pos hd, if_pos hd]
    by_cases hc : c.given = true
    · simp only [if_pos hc, map_bind]
      refine le_congr fun t => le_congr fun i => ?_
      exact fz_dcrOutpoint E a (.bytes i) (.bytes t)
    · simp only [if_neg hc, ok_bind, map_bind]
      exact le_congr fun i => fz_dcrOutpoint E a (.bytes i) (.bytes [0])
  · rw [if_neg hd, if_neg hd, map_bind]
    exact le_congr fun i => fz_outpoint a (.bytes i)

theorem fz_makeDecredInput (E : Env) (a b : Val) : Dyn.makeDecredInput E (freeze a) (freeze b) = (Dyn.makeDecredInput E a b).map freeze := by
  unfold Dyn.makeDecredInput
  rw [fz_toLe, map_bind]
  exact le_congr fun i => fz_dcrTxIn E a (.bytes i)

theorem fz_makeLegacyInput (E : Env) (a b c d : Val) :
    Dyn.makeLegacyInput E (freeze a) (freeze b) (freeze c) (freeze d) = (Dyn.makeLegacyInput E a b c d).map freeze := by
  unfold Dyn.makeLegacyInput
  by_cases hd : E.net.isDecred = true
  · rw [if_pos hd, if_pos hd, fz_makeDecredInput]
  · rw [if_neg hd, if_neg hd, fz_toLe, map_bind]
    exact le_congr fun i => fz_txIn a b c (.bytes i)

theorem fz_makeTx (E : Env) (a b c d : Val) (k : TxKw) :
    Dyn.makeTx E (freeze a) (freeze b) (freeze c) (freeze d) (freezeKw k) = (Dyn.makeTx E a b c d k).map freeze := by
  unfold Dyn.makeTx
  simp only [freezeKw, fz_given, fz_toLe]
  split
  · simp only [map_bind]
    refine le_congr fun v => le_congr fun l => le_congr fun e => ?_
    rw [← fz_dcrTx]
    simp only [freeze, freezes]
  split
  · simp only [map_bind]
    exact le_congr fun l => fz_sproutTx E a b c (.bytes l) _ _ _
  split
  · simp only [map_bind]
    refine le_congr fun l => le_congr fun e => ?_
    rw [← fz_overwinterTx]
    split <;> simp only [freeze, freezes]
  split
  · simp only [map_bind]
    exact le_congr fun l => le_congr fun e => le_congr fun x => fz_saplingTx E b c (.bytes l) (.bytes e) (.bytes x) _ _ _ _ _ _
  · simp only [map_bind]
    refine le_congr fun v => le_congr fun l => ?_
    rw [← fz_tx]
    split <;> simp only [freeze]

/-- C121: in every function of tx/tx_builder.py, bytearrays in the arguments, at any depth, are read as the bytes they hold: the result is that for bytes. -/
theorem C121_bytearray (E : Env) (a b c d : Val) (k : TxKw) :
    Dyn.makeOutput E (freeze a) (freeze b) (freeze c) = (Dyn.makeOutput E a b c).map freeze ∧
    Dyn.makeShOutput E (freeze a) (freeze b) (freeze c) = (Dyn.makeShOutput E a b c).map freeze ∧
    Dyn.makePkhOutput E (freeze a) (freeze b) (freeze c) = (Dyn.makePkhOutput E a b c).map freeze ∧
    (Dyn.makeOpReturnOutput E (freeze a)).map freeze = (Dyn.makeOpReturnOutput E a).map freeze ∧
    Dyn.makeWitness (freeze a) = (Dyn.makeWitness a).map freeze ∧
    Dyn.makeOutpoint E (freeze a) (freeze b) (freeze c) = (Dyn.makeOutpoint E a b c).map freeze ∧
    Dyn.makeDecredInput E (freeze a) (freeze b) = (Dyn.makeDecredInput E a b).map freeze ∧
    Dyn.makeLegacyInput E (freeze a) (freeze b) (freeze c) (freeze d) = (Dyn.makeLegacyInput E a b c d).map freeze ∧
    Dyn.makeWitnessInput E (freeze a) (freeze b) = (Dyn.makeWitnessInput E a b).map freeze ∧
    Dyn.makeTx E (freeze a) (freeze b) (freeze c) (freeze d) (freezeKw k) = (Dyn.makeTx E a b c d k).map freeze ∧
    Dyn.lengthPrepend (freeze a) = Dyn.lengthPrepend a := by
  refine ⟨fz_makeOutput E a b c, ?_, ?_, ?_, fz_makeWitness a, fz_makeOutpoint E a b c, fz_makeDecredInput E a b, fz_makeLegacyInput E a b c d, ?_, fz_makeTx E a b c d k, ?_⟩
  · unfold Dyn.makeShOutput Dyn.makeShOutputScript
    simp only [fz_toLe, fz_truthy, fz_serialize, map_bind, bind_assoc', ok_bind]
    refine le_congr fun v => ?_
    congr 1; funext _
    congr 1; funext s
    exact fz_makeOutput E (.bytes v) (.bytes _) .none
  · unfold Dyn.makePkhOutput Dyn.makePkhOutputScript
    simp only [fz_toLe, fz_truthy, map_bind, bind_assoc']
    refine le_congr fun v => ?_
    congr 1; funext _
    have fin : ∀ x : Bytes, ((if c.truthy = true then .ok (.bytes (E.net.p2wpkhPrefix ++ E.hash160 x))
          else .ok (.bytes ([0x76, 0xa9, 0x14] ++ E.hash160 x ++ [0x88, 0xac])) : Py Val) >>= fun s => Dyn.makeOutput E (.bytes v) s .none) =
        ((if c.truthy = true then .ok (.bytes (E.net.p2wpkhPrefix ++ E.hash160 x))
          else .ok (.bytes ([0x76, 0xa9, 0x14] ++ E.hash160 x ++ [0x88, 0xac])) : Py Val) >>= fun s => (Dyn.makeOutput E (.bytes v) s .none).map freeze) := by
      intro x
      split <;> exact fz_makeOutput E (.bytes v) (.bytes _) .none
    cases b <;> simp only [freeze, ok_bind, error_bind] <;> exact fin _
  · unfold Dyn.makeOpReturnOutput
    simp only [fz_len, fz_iter, bind_map, fz_byteList]
  · exact fz_makeLegacyInput E a (.bytes []) (.bytes []) b
  · unfold Dyn.lengthPrepend
    simp only [fz_len, fz_addTo]

example : (Dyn.makeOpReturnOutput toyEnv (.bytearray [1, 2])).map freeze = .ok (.obj .txOut [.bytes (List.replicate 8 0), .bytes [0x6a, 2, 1, 2]] (List.replicate 8 0 ++ [4, 0x6a, 2, 1, 2])) ∧
    freeze (.list [.bytearray [7]]) = .list [.bytes [7]] ∧
    Dyn.makeWitness (.list [.bytearray [7]]) = .ok (.obj .witness [.tuple [.obj .item [.bytearray [7]] [1, 7]]] [1, 1, 7]) := by
  refine ⟨?_, rfl, rfl⟩
  simp only [Dyn.makeOpReturnOutput, Val.len, ok_bind, Val.iter, byteList_bytes]
  rfl

/-- C121: the same in simple.py. -/
theorem C121_bytearray_simple (E : Env) (a b c d : Val) (k : LegacyKw) :
    (Dyn.simpleOutput E (freeze a) (freeze b)).map freeze = (Dyn.simpleOutput E a b).map freeze ∧
    Dyn.simpleOutpoint E (freeze a) (freeze b) (freeze c) = (Dyn.simpleOutpoint E a b c).map freeze ∧
    Dyn.simpleInput E (freeze a) (freeze b) = (Dyn.simpleInput E a b).map freeze ∧
    Dyn.simpleLegacyTx E (freeze a) (freeze b) (freezeLegacy k) = (Dyn.simpleLegacyTx E a b k).map freeze ∧
    Dyn.simpleWitnessTx E (freeze a) (freeze b) (freeze c) (freeze d) = (Dyn.simpleWitnessTx E a b c d).map freeze := by
  refine ⟨?_, ?_, fz_makeLegacyInput E a (.bytes []) (.bytes []) b, fz_makeTx E k.version a b k.lockTime ⟨k.expiry, .int 0, .none, .none, .none, k.txJoinsplits, k.joinsplitPubkey, k.joinsplitSig, .none⟩, ?_⟩
  · have ha : Dyn.toOutputScript E (freeze b) = Dyn.toOutputScript E b := by cases b <;> rfl
    unfold Dyn.simpleOutput
    rw [ha, map_bind, map_bind]
    congr 1; funext t
    simp only [fz_toLe]
  · unfold Dyn.simpleOutpoint
    have fin : ∀ t : Py Bytes, (t >>= fun t => Dyn.makeOutpoint E (.bytes t.reverse) (freeze b) (freeze c)) = (t >>= fun t => Dyn.makeOutpoint E (.bytes t.reverse) b c).map freeze := by
      intro t
      cases t with
      | error e => rfl
      | ok t => exact fz_makeOutpoint E (.bytes t.reverse) b c
    cases a <;> simp only [freeze] <;> exact fin _
  · unfold Dyn.simpleWitnessTx
    simp only [fz_iter, bind_map, map_bind, mapPy_map']
    congr 1; funext l
    have hw : ∀ (l : List Val) ws, mapPy (fun _ => Dyn.makeWitness (.list [])) l = .ok ws → freezes ws = ws := by
      intro l
      have hx : ∀ w, Dyn.makeWitness (.list []) = .ok w → freeze w = w := by
        intro w h
        have := fz_makeWitness (.list [])
        have e : freeze (.list []) = .list [] := rfl
        rw [e, h] at this
        injection this with this
        exact this.symm
      induction l with
      | nil => intro ws h; cases h; rfl
      | cons a l ih =>
        intro ws h
        simp only [mapPy, bind_ok_iff, Except.ok.injEq] at h
        obtain ⟨y, hy, ys, hys, rfl⟩ := h
        simp only [freezes, hx y hy, ih ys hys]
    cases hl : mapPy (fun _ => Dyn.makeWitness (.list [])) l with
    | error e => rfl
    | ok ws =>
      simp only [ok_bind]
      rw [← fz_makeTx]
      simp only [freezeKw, freeze, hw l ws hl]


example : Dyn.simpleInput toyEnv (.bytearray (List.replicate 36 7)) = .ok (.obj .txIn [.bytearray (List.replicate 36 7), .bytes [], .bytes [], .bytes [], .bytes [0xfe, 0xff, 0xff, 0xff]]
    (List.replicate 36 7 ++ [0, 0xfe, 0xff, 0xff, 0xff])) := rfl

end Verif.Props
