import Verif.Props.Decred

/-! # C64 for calls that leave arguments out -/

namespace Verif.Props
open Verif Spec Addresses

attribute [local irreducible] blake256

/-- C64: `sighash_all(index, script)` without the last argument, and `sighash_all(index)`, are the Decred signature hash of type ALL, the latter of the empty script. -/
theorem C64_all_defaults (net : Network) (t : DecredTx) (h : t.Built net) (hw : t.txWitnesses.length = t.txIns.length) (index : Int) (k : Nat)
    (hi : pyIndex index t.txIns.length = some k) (script : Bytes)
    (hs : DecredTx.signedSize t (t.txIns.map (·.bytes)) (t.txOuts.map (·.bytes)) k script ≤ 100000)
    (hs' : DecredTx.signedSize t (t.txIns.map (·.bytes)) (t.txOuts.map (·.bytes)) k [] ≤ 100000) :
    t.sighashAll net index (some script) = .ok (dcrSighash blake256 t.sig k script 1) ∧
    t.sighashAll net index = .ok (dcrSighash blake256 t.sig k [] 1) :=
  ⟨C64_all net t h hw index k hi (some script) hs, C64_all net t h hw index k hi none hs'⟩

/-- C64: the same for `sighash_single`, in the case in which it is right (`C64_single_partial`). The full statement — for any index — fails: `C64_single_false`. -/
theorem C64_single_defaults_partial (net : Network) (t : DecredTx) (h : t.Built net) (i : Nat) (hw : t.txWitnesses.length = t.txIns.length)
    (hi : t.txIns.length = i + 1) (ho : i < t.txOuts.length) (hv : ∀ o ∈ t.txOuts.take i, o.version = [0, 0]) (script : Option Bytes)
    (hs : DecredTx.signedSize t (t.txIns.map (·.bytes)) (t.txOuts.map (·.bytes)) i (script.getD []) ≤ 100000)
    (hs' : DecredTx.signedSize t (dcrSigIns t.sig i 3) (dcrSigOuts t.sig i 3) i (script.getD []) ≤ 100000) :
    t.sighashSingle net i script = .ok (dcrSighash blake256 t.sig i (script.getD []) 3) ∧
    (script = none → t.sighashSingle net i = .ok (dcrSighash blake256 t.sig i [] 3)) := by
  have key := C64_single_partial net t h i hw hi ho hv script hs hs'
  refine ⟨key, ?_⟩
  rintro rfl
  exact key

example : (exDTx 1 1).Built decredMain ∧ (exDTx 1 1).txWitnesses.length = (exDTx 1 1).txIns.length ∧ (exDTx 1 1).txIns.length = 0 + 1 ∧
    pyIndex (-1) (exDTx 1 1).txIns.length = some 0 ∧ 0 < (exDTx 1 1).txOuts.length ∧
    DecredTx.signedSize (exDTx 1 1) ((exDTx 1 1).txIns.map (·.bytes)) ((exDTx 1 1).txOuts.map (·.bytes)) 0 [0x51] ≤ 100000 ∧
    DecredTx.signedSize (exDTx 1 1) (dcrSigIns (exDTx 1 1).sig 0 3) (dcrSigOuts (exDTx 1 1).sig 0 3) 0 [0x51] ≤ 100000 :=
  ⟨exDTx_built (by simp) (by simp), by decide +kernel, by decide +kernel, by decide +kernel, by decide +kernel, by decide +kernel, by decide +kernel⟩

end Verif.Props
