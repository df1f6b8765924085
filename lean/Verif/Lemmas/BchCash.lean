import Verif.Lemmas.FourErrors
import Verif.Lemmas.Polymod
import Verif.Lemmas.CashTable

namespace Verif.Cashaddr
open LinCode

/-- Multiplication of every symbol by `z` in GF(32) = GF(2)[z]/(z^5 + z^3 + 1). -/
def M (x : BitVec 40) : BitVec 40 :=
  let hi := (x >>> 4) &&& 0x842108421#40
  ((x &&& 0x7bdef7bdef#40) <<< 1) ^^^ hi ^^^ (hi <<< 3)

theorem M_lin (x y : BitVec 40) : M (x ^^^ y) = M x ^^^ M y := by
  unfold M
  apply BitVec.eq_of_getLsbD_eq
  intro i hi
  simp only [BitVec.getLsbD_xor, BitVec.getLsbD_shiftLeft, BitVec.getLsbD_and, BitVec.getLsbD_ushiftRight]
  generalize x.getLsbD (i - 1) = p1; generalize y.getLsbD (i - 1) = q1; generalize (0x7bdef7bdef#40).getLsbD (i - 1) = r1
  generalize x.getLsbD (4 + i) = p2; generalize y.getLsbD (4 + i) = q2; generalize (0x842108421#40).getLsbD i = r2
  generalize x.getLsbD (4 + (i - 3)) = p3; generalize y.getLsbD (4 + (i - 3)) = q3; generalize (0x842108421#40).getLsbD (i - 3) = r3
  generalize (decide (i < 40)) = s; generalize (decide (i < 1)) = t; generalize (decide (i < 3)) = u
  cases s <;> cases t <;> cases u <;> cases r1 <;> cases r2 <;> cases r3 <;> simp <;> revert p1 q1 p2 q2 p3 q3 <;> decide

theorem M_A (x : BitVec 40) : M (A x) = A (M x) := by
  apply lin_ext (f := fun x => M (A x)) (g := fun x => A (M x))
  · intro x y; simp only [A_lin, M_lin]
  · intro x y; simp only [A_lin, M_lin]
  · have : ∀ i < 40, M (A (BitVec.twoPow 40 i)) = A (M (BitVec.twoPow 40 i)) := by decide +kernel
    exact this

theorem M_31 (x : BitVec 40) : M^[31] x = x := by
  apply lin_ext (f := fun x => M^[31] x) (g := id)
  · intro x y; exact iter_xor M_lin 31 x y
  · intro x y; rfl
  · have : ∀ i < 40, M^[31] (BitVec.twoPow 40 i) = BitVec.twoPow 40 i := by decide +kernel
    exact this

theorem M_zero (x : BitVec 40) (h : M x = 0#40) : x = 0#40 := by
  have := M_31 x
  rw [Function.iterate_succ_apply, h, iter_zero M_lin] at this
  exact this.symm

theorem M_sym (x : BitVec 40) (h : x.toNat < 32) : (M x).toNat < 32 := by
  have key : ∀ n < 32, (M (BitVec.ofNat 40 n)).toNat < 32 := by decide +kernel
  simpa using key _ h

theorem M_one : ∀ d < 31, ∃ k < 31, M^[k] (BitVec.ofNat 40 (d + 1)) = 1#40 := by decide +kernel

theorem scaling : Scaling A M := ⟨M_lin, M_A, M_sym, M_one, M_zero⟩

theorem table_chain : chain A ((symbols 40).map (·.toNat)) CashTable.rows = true := by decide +kernel
theorem table_hits : allHits CashTable.sets CashTable.rows = true := by decide +kernel
set_option maxHeartbeats 1000000 in
theorem table_miss : allMiss CashTable.sets CashTable.rows.reverse = true := by decide +kernel

theorem table_ok : TableOK A 127 CashTable.rows CashTable.sets :=
  ⟨table_chain, rfl, by decide +kernel, table_hits, table_miss, by decide +kernel⟩

theorem polymod_few {vs : List (BitVec 40)} (hS : ∀ x ∈ vs, Sym x) (hl : vs.length ≤ 128) (h1 : 0 < weight vs)
    (h4 : weight vs ≤ 4) : run A 0#40 vs ≠ 0#40 :=
  table_ok.errors scaling A_lin A_inj vs hS hl h1 h4

end Verif.Cashaddr
