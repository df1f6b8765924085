import Verif.Model.Alias
import Verif.Props.Tx

/-! Property C100: what happens to a transaction object when the caller goes on using the lists and bytearrays it was made from. -/

namespace Verif.Props
open Verif

/-- The addresses of the bytearrays an object still refers to. -/
def HOutpoint.refs (o : HOutpoint) : List Nat := o.txId.refs ++ o.index.refs
def HTxIn.refs (t : HTxIn) : List Nat := HOutpoint.refs t.outpoint ++ t.stackScript.refs ++ t.redeemScript.refs ++ t.sequence.refs
def HTxOut.refs (t : HTxOut) : List Nat := t.value.refs ++ t.outputScript.refs
def HWitness.refs (m : Mem) (t : HWitness) : List Nat := (t.stack.get m).flatMap (·.item.refs)

/-- The bytearrays among the arguments of `Tx`, directly or inside its elements. -/
def argRefs (m : Mem) (version : BArg) (flag : Option BArg) (txIns : SArg HTxIn) (txOuts : SArg HTxOut) (txWitnesses : Option (SArg HWitness))
    (lockTime : BArg) : List Nat :=
  version.refs ++ (flag.map (·.refs)).getD [] ++ (txIns.get m).flatMap HTxIn.refs ++ (txOuts.get m).flatMap HTxOut.refs ++
    ((txWitnesses.map (fun w => (w.get m).flatMap (HWitness.refs m))).getD []) ++ lockTime.refs

theorem BArg.get_congr {m m' : Mem} {b : BArg} (h : ∀ a ∈ b.refs, m'.arr a = m.arr a) : b.get m' = b.get m := by
  cases b with
  | bytes b => rfl
  | bytearray a => exact h a (by simp [BArg.refs])

theorem HTxIn.view_congr {m m' : Mem} {t : HTxIn} (h : ∀ a ∈ HTxIn.refs t, m'.arr a = m.arr a) : t.view m' = t.view m := by
  unfold HTxIn.refs HOutpoint.refs at h
  simp only [List.mem_append] at h
  unfold HTxIn.view HOutpoint.view
  rw [BArg.get_congr (b := t.outpoint.txId) (fun a ha => h a (by simp [ha])), BArg.get_congr (b := t.outpoint.index) (fun a ha => h a (by simp [ha])),
    BArg.get_congr (b := t.stackScript) (fun a ha => h a (by simp [ha])), BArg.get_congr (b := t.redeemScript) (fun a ha => h a (by simp [ha])),
    BArg.get_congr (b := t.sequence) (fun a ha => h a (by simp [ha]))]

theorem HTxOut.view_congr {m m' : Mem} {t : HTxOut} (h : ∀ a ∈ HTxOut.refs t, m'.arr a = m.arr a) : t.view m' = t.view m := by
  unfold HTxOut.refs at h
  simp only [List.mem_append] at h
  unfold HTxOut.view
  rw [BArg.get_congr (b := t.value) (fun a ha => h a (by simp [ha])), BArg.get_congr (b := t.outputScript) (fun a ha => h a (by simp [ha]))]

/-- A witness whose stack is a tuple. -/
theorem HWitness.view_congr {m m' : Mem} {t : HWitness} (hs : t.stack.get m' = t.stack.get m)
    (h : ∀ a ∈ HWitness.refs m t, m'.arr a = m.arr a) : t.view m' = t.view m := by
  unfold HWitness.refs at h
  unfold HWitness.view
  rw [hs]
  congr 1
  refine List.map_congr_left fun i hi => ?_
  unfold HItem.view
  rw [BArg.get_congr (fun a ha => h a (List.mem_flatMap.2 ⟨i, hi, ha⟩))]

/-- An `InputWitness` does not depend on lists: it has copied its stack. -/
theorem C100_witness (m : Mem) (stack : SArg HItem) (t : HWitness) (h : HWitness.make m stack = .ok t) (m' : Mem) :
    t.stack.get m' = stack.get m := by
  unfold HWitness.make at h
  obtain ⟨_, -, h⟩ := bind_ok_iff.1 h
  cases h
  rfl

/-- C100, the parts of a transaction: an outpoint, input, output, stack item or witness is what the constructor builds from the values its
arguments have at the time, and remains so as long as the bytearrays among the arguments keep their contents. -/
theorem C100_parts (m m' : Mem) :
    (∀ a b o, HOutpoint.make m a b = .ok o → (∀ x ∈ a.refs ++ b.refs, m'.arr x = m.arr x) →
      Outpoint.make (a.get m) (b.get m) = .ok (o.view m')) ∧
    (∀ o s r q t, HTxIn.make m o s r q = .ok t → (∀ x ∈ HOutpoint.refs o ++ s.refs ++ r.refs ++ q.refs, m'.arr x = m.arr x) →
      TxIn.make (o.view m) (s.get m) (r.get m) (q.get m) = .ok (t.view m')) ∧
    (∀ v s t, HTxOut.make m v s = .ok t → (∀ x ∈ v.refs ++ s.refs, m'.arr x = m.arr x) →
      TxOut.make (v.get m) (s.get m) = .ok (t.view m')) ∧
    (∀ i t, HItem.make m i = .ok t → (∀ x ∈ i.refs, m'.arr x = m.arr x) → WitnessStackItem.make (i.get m) = .ok (t.view m')) ∧
    ∀ s t, HWitness.make m s = .ok t → (∀ i ∈ s.get m, ∀ x ∈ i.item.refs, m'.arr x = m.arr x) →
      InputWitness.make ((s.get m).map (·.view m)) = .ok (t.view m') := by
  refine ⟨fun a b o h hx => ?_, fun o s r q t h hx => ?_, fun v s t h hx => ?_, fun i t h hx => ?_, fun s t h hx => ?_⟩
  · obtain ⟨t0, h0, h⟩ := bind_ok_iff.1 h
    cases h
    simp only [List.mem_append] at hx
    rw [h0]
    unfold HOutpoint.view
    rw [BArg.get_congr (b := a) (fun x hx' => hx x (.inl hx')), BArg.get_congr (b := b) (fun x hx' => hx x (.inr hx'))]
    unfold Outpoint.make at h0
    obtain ⟨_, -, h0⟩ := bind_ok_iff.1 h0
    obtain ⟨_, -, h0⟩ := bind_ok_iff.1 h0
    cases h0; rfl
  · obtain ⟨t0, h0, h⟩ := bind_ok_iff.1 h
    cases h
    rw [HTxIn.view_congr (t := ⟨o, s, r, t0.scriptSig, q, t0.bytes⟩) (m := m) (m' := m') hx, h0]
    unfold TxIn.make at h0
    obtain ⟨_, -, h0⟩ := bind_ok_iff.1 h0
    obtain ⟨_, -, h0⟩ := bind_ok_iff.1 h0
    obtain ⟨_, -, h0⟩ := bind_ok_iff.1 h0
    obtain ⟨_, -, h0⟩ := bind_ok_iff.1 h0
    obtain ⟨_, -, h0⟩ := bind_ok_iff.1 h0
    obtain ⟨_, -, h0⟩ := bind_ok_iff.1 h0
    cases h0; rfl
  · obtain ⟨t0, h0, h⟩ := bind_ok_iff.1 h
    cases h
    rw [HTxOut.view_congr (t := ⟨v, s, t0.bytes⟩) (m := m) (m' := m') hx, h0]
    unfold TxOut.make at h0
    obtain ⟨_, -, h0⟩ := bind_ok_iff.1 h0
    obtain ⟨_, -, h0⟩ := bind_ok_iff.1 h0
    obtain ⟨_, -, h0⟩ := bind_ok_iff.1 h0
    cases h0; rfl
  · obtain ⟨t0, h0, h⟩ := bind_ok_iff.1 h
    cases h
    rw [h0]
    unfold HItem.view
    rw [BArg.get_congr hx]
    unfold WitnessStackItem.make at h0
    obtain ⟨_, -, h0⟩ := bind_ok_iff.1 h0
    obtain ⟨_, -, h0⟩ := bind_ok_iff.1 h0
    cases h0; rfl
  · have hw := C100_witness m s t h
    have e : t.view m' = t.view m := by
      refine HWitness.view_congr (by rw [hw m', hw m]) ?_
      intro x hx'
      unfold HWitness.refs at hx'
      rw [hw m] at hx'
      obtain ⟨i, hi, hx'⟩ := List.mem_flatMap.1 hx'
      exact hx i hi x hx'
    obtain ⟨t0, h0, h⟩ := bind_ok_iff.1 h
    cases h
    rw [e, h0]
    unfold InputWitness.make at h0
    obtain ⟨_, -, h0⟩ := bind_ok_iff.1 h0
    cases h0; rfl

/-- C100: a `Tx` is what the constructor builds from the values its arguments have at the time, and remains so — its attributes, and
therefore its digests and everything computed from it — whatever becomes of the lists it was made from and of any other memory, as long as
the bytearrays among the arguments (and those inside the inputs, outputs and witnesses) keep their contents. With `bytes` for arguments
there are none. -/
theorem C100_tx (E : Env) (m : Mem) (version : BArg) (flag : Option BArg) (txIns : SArg HTxIn) (txOuts : SArg HTxOut)
    (txWitnesses : Option (SArg HWitness)) (lockTime : BArg)
    (hw : ∀ ws, txWitnesses = some ws → ∀ w ∈ ws.get m, ∃ m0 s, HWitness.make m0 s = .ok w)
    (t : HTx) (h : HTx.make E m version flag txIns txOuts txWitnesses lockTime = .ok t) (m' : Mem)
    (hm : ∀ a ∈ argRefs m version flag txIns txOuts txWitnesses lockTime, m'.arr a = m.arr a) :
    Tx.make E (version.get m) (flag.map (·.get m)) ((txIns.get m).map (·.view m)) ((txOuts.get m).map (·.view m))
      (txWitnesses.map fun w => (w.get m).map (·.view m)) (lockTime.get m) = .ok (t.view m') := by
  unfold argRefs at hm
  simp only [List.mem_append] at hm
  unfold HTx.make at h
  obtain ⟨t0, h0, h⟩ := bind_ok_iff.1 h
  rw [h0]
  cases h
  obtain ⟨-, he⟩ := Tx.make_iff.1 h0
  unfold HTx.view
  have tt : ∀ {α : Type} (s : SArg α), (s.toTuple m).get m' = s.get m := fun _ => rfl
  simp only [Option.map_map, Function.comp_def, tt]
  have e1 : version.get m' = version.get m := BArg.get_congr fun a ha => hm a (by simp [ha])
  have e2 : lockTime.get m' = lockTime.get m := BArg.get_congr fun a ha => hm a (by simp [ha])
  have e3 : flag.map (·.get m') = flag.map (·.get m) := by
    cases flag with
    | none => rfl
    | some f => simp only [Option.map_some]; rw [BArg.get_congr fun a ha => hm a (by simp [ha])]
  have e4 : (txIns.get m).map (·.view m') = (txIns.get m).map (·.view m) :=
    List.map_congr_left fun i hi => HTxIn.view_congr fun a ha => hm a (by
      have : a ∈ (txIns.get m).flatMap HTxIn.refs := List.mem_flatMap.2 ⟨i, hi, ha⟩
      simp only [this, true_or, or_true])
  have e5 : (txOuts.get m).map (·.view m') = (txOuts.get m).map (·.view m) :=
    List.map_congr_left fun i hi => HTxOut.view_congr fun a ha => hm a (by
      have : a ∈ (txOuts.get m).flatMap HTxOut.refs := List.mem_flatMap.2 ⟨i, hi, ha⟩
      simp only [this, true_or, or_true])
  have e6 : txWitnesses.map (fun w => (w.get m).map (·.view m')) = txWitnesses.map fun w => (w.get m).map (·.view m) := by
    cases txWitnesses with
    | none => rfl
    | some ws =>
      simp only [Option.map_some, Option.some.injEq]
      refine List.map_congr_left fun w hw' => HWitness.view_congr ?_ fun a ha => hm a ?_
      · obtain ⟨m0, s, hs⟩ := hw ws rfl w hw'
        rw [C100_witness m0 s w hs m', C100_witness m0 s w hs m]
      · have : a ∈ ((Option.map (fun w => (w.get m).flatMap (HWitness.refs m)) (some ws)).getD []) := List.mem_flatMap.2 ⟨w, hw', ha⟩
        simp only [this, true_or, or_true]
  rw [e1, e2, e3, e4, e5, e6, he]
  rfl

/-- C100: the bytes and the ids of a `Tx` stay the same whatever is changed, bytearrays included. -/
theorem C100_frozen (E : Env) (m : Mem) (version : BArg) (flag : Option BArg) (txIns : SArg HTxIn) (txOuts : SArg HTxOut)
    (txWitnesses : Option (SArg HWitness)) (lockTime : BArg) (t : HTx)
    (h : HTx.make E m version flag txIns txOuts txWitnesses lockTime = .ok t) :
    ∃ t0, Tx.make E (version.get m) (flag.map (·.get m)) ((txIns.get m).map (·.view m)) ((txOuts.get m).map (·.view m))
      (txWitnesses.map fun w => (w.get m).map (·.view m)) (lockTime.get m) = .ok t0 ∧
    ∀ m' : Mem, (t.view m').bytes = t0.bytes ∧ (t.view m').txId = t0.txId ∧ (t.view m').wtxId = t0.wtxId ∧
      (t.view m').txIdLe = t0.txIdLe ∧ (t.view m').wtxIdLe = t0.wtxIdLe ∧ (t.view m').txIns.map (·.bytes) = t0.txIns.map (·.bytes) ∧
      (t.view m').txOuts.map (·.bytes) = t0.txOuts.map (·.bytes) := by
  unfold HTx.make at h
  obtain ⟨t0, h0, h⟩ := bind_ok_iff.1 h
  cases h
  refine ⟨t0, h0, fun m' => ⟨rfl, rfl, rfl, rfl, rfl, ?_, ?_⟩⟩
  · obtain ⟨-, he⟩ := Tx.make_iff.1 h0
    rw [he]
    simp [HTx.view, SArg.toTuple, SArg.get, txObj, HTxIn.view, Function.comp_def]
  · obtain ⟨-, he⟩ := Tx.make_iff.1 h0
    rw [he]
    simp [HTx.view, SArg.toTuple, SArg.get, txObj, HTxOut.view, Function.comp_def]

/-- A memory with one bytearray. -/
def memArr (b : Bytes) : Mem := ⟨fun _ => b, fun _ _ => []⟩

/-- An environment whose hash returns the last 32 bytes. -/
def tailEnv : Env := ⟨bitcoinMain, { toyHashes with sha256 := fun m => (m.reverse ++ List.replicate 32 0).take 32 }⟩

/-- C100 fails for bytearrays: a sequence number given as a bytearray and changed later changes what is signed, while the transaction still
serializes as before. -/
theorem C100_bytearray_false : ∃ (m m' : Mem) (o : HOutpoint) (i : HTxIn) (out : HTxOut) (t : HTx),
    HOutpoint.make m (.bytes (List.replicate 32 7)) (.bytes [0, 0, 0, 0]) = .ok o ∧
    HTxIn.make m o (.bytes []) (.bytes []) (.bytearray 0) = .ok i ∧
    HTxOut.make m (.bytes [1, 0, 0, 0, 0, 0, 0, 0]) (.bytes [0x51]) = .ok out ∧
    HTx.make tailEnv m (.bytes [1, 0, 0, 0]) none (.tuple [i]) (.tuple [out]) none (.bytes [0, 0, 0, 0]) = .ok t ∧
    (t.view m').bytes = (t.view m).bytes ∧ (t.view m').txId = (t.view m).txId ∧
    (t.view m').txIns.map (·.sequence) ≠ (t.view m).txIns.map (·.sequence) ∧
    (t.view m').sighashAll tailEnv 0 [1, 0x51] ≠ (t.view m).sighashAll tailEnv 0 [1, 0x51] := by
  refine ⟨memArr [0xff, 0xff, 0xff, 0xff], memArr [0, 0, 0, 0], _, _, _, _, rfl, rfl, rfl, rfl, rfl, rfl, ?_, ?_⟩
  · decide
  · decide +kernel

/-- The hypotheses can be met: a transaction with a witness and a bytearray for its version. -/
example : ∃ o i out w t, HOutpoint.make (memArr [2, 0, 0, 0]) (.bytes (List.replicate 32 7)) (.bytes [0, 0, 0, 0]) = .ok o ∧
    HTxIn.make (memArr [2, 0, 0, 0]) o (.bytes []) (.bytes []) (.bytes [0, 0, 0, 0]) = .ok i ∧
    HTxOut.make (memArr [2, 0, 0, 0]) (.bytes [1, 0, 0, 0, 0, 0, 0, 0]) (.bytes [0x51]) = .ok out ∧
    HWitness.make (memArr [2, 0, 0, 0]) (.list 3) = .ok w ∧
    HTx.make toyEnv (memArr [2, 0, 0, 0]) (.bytearray 5) (some (.bytes [0, 1])) (.tuple [i]) (.tuple [out]) (some (.tuple [w])) (.bytes [0, 0, 0, 0]) = .ok t :=
  ⟨_, _, _, _, _, rfl, rfl, rfl, rfl, rfl⟩

end Verif.Props
