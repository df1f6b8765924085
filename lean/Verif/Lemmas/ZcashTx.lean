import Verif.Lemmas.Zcash
import Verif.Model.Sprout
import Verif.Model.Overwinter
import Verif.Model.Sapling

namespace Verif
open Spec Props

attribute [local irreducible] Env.hash256

/-! ### parsing inputs and outputs -/

/-- The same input up to how the script sig is split. -/
def SameIn (i i' : TxIn) : Prop := i'.Built ∧ i'.outpoint = i.outpoint ∧ i'.scriptSig = i.scriptSig ∧ i'.sequence = i.sequence

/-- Inputs and outputs that parse back. -/
structure InsOutsStable (net : Network) (ins : List TxIn) (outs : List TxOut) : Prop where
  nIns : LenOK net ins.length
  nOuts : LenOK net outs.length
  ins : ∀ i ∈ ins, i.Stable net
  outs : ∀ o ∈ outs, o.outputScript.length < 252

theorem parseInsOuts_bytes {net : Network} (hn : net.Supported) {ins : List TxIn} {outs : List TxOut} (hi : ∀ i ∈ ins, i.Built)
    (ho : ∀ o ∈ outs, o.Built) (hs : InsOutsStable net ins outs) (li : ins.length < 2 ^ 64) (lo : outs.length < 2 ^ 64)
    (pre rest : Bytes) :
    ∃ ins', parseInsOuts net (pre ++ (vector (ins.map (·.bytes)) ++ (vector (outs.map (·.bytes)) ++ rest))) pre.length =
      .ok ⟨ins', outs, (compactSize outs.length).length, pre.length + (vector (ins.map (·.bytes))).length + (vector (outs.map (·.bytes))).length⟩ ∧
      List.Forall₂ SameIn ins ins' ∧ ins'.map (·.bytes) = ins.map (·.bytes) := by
  obtain ⟨ins', i1, i2, i3⟩ := parseIns hn hi hs.ins (pre ++ compactSize ins.length)
    (compactSize outs.length ++ ((outs.map (·.bytes)).flatten ++ rest))
  refine ⟨ins', ?_, i2, i3⟩
  have o1 := parseMany_bytes_eq (f := TxOut.fromBytes net) (bytes := (·.bytes)) outs
    (fun x hx rest => TxOut.fromBytes_bytes (ho x hx) (hs.outs x hx) rest)
    (pre ++ compactSize ins.length ++ (ins.map (·.bytes)).flatten ++ compactSize outs.length) rest
  have d1 := List.drop_left' (l₁ := pre) (l₂ := compactSize ins.length ++ ((ins.map (·.bytes)).flatten ++
        (compactSize outs.length ++ ((outs.map (·.bytes)).flatten ++ rest)))) rfl
  have d2 := List.drop_left' (l₂ := compactSize outs.length ++ ((outs.map (·.bytes)).flatten ++ rest))
    (rfl : (pre ++ compactSize ins.length ++ (ins.map (·.bytes)).flatten).length = _)
  unfold vector parseInsOuts
  simp only [List.length_map, List.append_assoc] at i1 o1 d1 d2 ⊢
  generalize pre ++ (compactSize ins.length ++ ((ins.map (·.bytes)).flatten ++
        (compactSize outs.length ++ ((outs.map (·.bytes)).flatten ++ rest)))) = B at *
  simp only [List.length_append] at i1 o1 d2 ⊢
  simp only [← Nat.add_assoc] at i1 o1 d2 ⊢
  rw [d1, VarInt.fromBytes_len li hs.nIns]
  simp only [ok_bind]
  rw [i1, ok_bind]
  simp only []
  rw [d2, VarInt.fromBytes_len lo hs.nOuts]
  simp only [ok_bind]
  rw [o1, ok_bind]

/-! ### optional arguments -/

theorem validateOpt_ok {x : Option Bytes} {n : Nat} {u : Unit} : validateOpt x n = .ok u ↔ ∃ b, x = some b ∧ b.length = n := by
  cases x with
  | none => simp [validateOpt]
  | some b => simp [validateOpt, validateBytes_ok]

theorem validateOpt_eq (x : Option Bytes) (n : Nat) :
    validateOpt x n = if x.map List.length = some n then .ok () else .error .valueError := by
  cases x with
  | none => rfl
  | some b => simp only [validateOpt, validateBytes_eq, Option.map_some, Option.some.injEq]

theorem i2lePadded2 : i2lePadded 2 4 = .ok [0x02, 0x00, 0x00, 0x00] := by decide

theorem le2i_four {v : Bytes} (h : v.length = 4) {n : Nat} : le2i v = n → v = natToLE 4 n := by
  rintro rfl
  unfold le2i
  rw [← h]
  exact (natToLE_leToNat v).symm

/-- The 4-byte little-endian version number. -/
theorem le2i_eq_two {v : Bytes} (h : v.length = 4) : le2i v = 2 ↔ v = [0x02, 0x00, 0x00, 0x00] :=
  ⟨fun e => by rw [le2i_four h e]; decide, fun e => by rw [e]; decide⟩

theorem le2i_eq_one {v : Bytes} (h : v.length = 4) : le2i v = 1 ↔ v = [0x01, 0x00, 0x00, 0x00] :=
  ⟨fun e => by rw [le2i_four h e]; decide, fun e => by rw [e]; decide⟩

end Verif
