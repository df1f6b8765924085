import Verif.Model.DynBuilder
import Verif.Model.DynCopy
import Verif.Model.DynParse
import Verif.Model.Sighash

/-! # tx/tx.py: the sighash methods of `Tx` on arguments of any type

The same values and simplifications as in `Model/Dyn.lean`. `True` and `False` are the integers 1 and 0, as which `bool` behaves everywhere here. `self` is an object of
the class `Tx`; of a value that is none the methods are missing. -/

namespace Verif

namespace Val

/-- `l[v]` for a list or tuple `l`. Only integers are indices. -/
def itemOf (l : List Val) : Val → Py Val
  | .int n => getItem l n
  | _ => .error .typeError

/-- `l[v] = x` for a list `l`. -/
def setOf (l : List Val) (x : Val) : Val → Py (List Val)
  | .int n => setItem l n x
  | _ => .error .typeError

/-- `v >= n` and `v < n` (the negation) for an integer `n`: other values than integers are not ordered with it. -/
def geInt (n : Nat) : Val → Py Bool
  | .int i => .ok (decide (i ≥ n))
  | _ => .error .typeError

/-- `x.outpoint` of an input (tx/tx.py:135). -/
def outpointOf : Val → Py Val
  | .obj .txIn [o, _, _, _, _] _ => .ok o
  | _ => .error .attributeError

/-- `x.sequence` of an input (tx/tx.py:139). -/
def sequenceOf : Val → Py Val
  | .obj .txIn [_, _, _, _, q] _ => .ok q
  | _ => .error .attributeError

/-- `self.tx_ins` of a `Tx` (tx/tx.py:526), a tuple. -/
def txInsOf : Val → Py (List Val)
  | .obj .tx [_, _, .tuple i, _, _, _, _, _, _, _] _ => .ok i
  | _ => .error .attributeError

/-- `self.tx_outs` of a `Tx` (tx/tx.py:527), a tuple. -/
def txOutsOf : Val → Py (List Val)
  | .obj .tx [_, _, _, .tuple o, _, _, _, _, _, _] _ => .ok o
  | _ => .error .attributeError

/-- `self.version` of a `Tx` (tx/tx.py:524). -/
def versionOf : Val → Py Val
  | .obj .tx [v, _, _, _, _, _, _, _, _, _] _ => .ok v
  | _ => .error .attributeError

/-- `self.lock_time` of a `Tx` (tx/tx.py:531). -/
def lockTimeOf : Val → Py Val
  | .obj .tx [_, _, _, _, _, l, _, _, _, _] _ => .ok l
  | _ => .error .attributeError

end Val

namespace Dyn
open Val

/-- tx/tx.py:626-628, `Tx.is_witness`. -/
def isWitness : Val → Py Bool
  | .obj .tx [_, f, _, _, w, _, _, _, _, _] _ => .ok (f.given || w.given)
  | _ => .error .attributeError

/-- tx/tx.py:667-685, `Tx._sighash_prep`. -/
def sighashPrep (E : Env) (self index script : Val) : Py Val := do
  let ins ← self.txInsOf
  let copyTxIns ← mapPy (fun i => copyTxIn i .none (.bytes []) (.bytes []) .none) ins
  let toStrip ← readVarInt E.net script
  let cur ← itemOf copyTxIns index
  let rest ← script.from_ toStrip.bytes.length
  let cur ← copyTxIn cur .none .none rest .none
  let copyTxIns ← setOf copyTxIns cur index
  copyTx E self .none .none (.list copyTxIns) .none .none .none

/-- tx/tx.py:1016-1029, `Tx._sighash_final_hashing`. -/
def sighashFinalHashing (E : Env) (copyTx : Val) (sighashType : Nat) : Py Val := do
  let data ← iadd [] copyTx
  let ty ← i2lePadded sighashType 4
  .ok (.bytes (E.hash256 (data ++ ty)))

/-- tx/tx.py:997-1014, `Tx._sighash_anyone_can_pay`. -/
def sighashAnyoneCanPay (E : Env) (index self : Val) (sighashType : Nat) : Py Val := do
  let ins ← self.txInsOf
  let cur ← itemOf ins index
  let self ← copyTx E self .none .none (.list [cur]) .none .none .none
  sighashFinalHashing E self (sighashType ||| SIGHASH_ANYONECANPAY)

/-- tx/tx.py:1031-1042, `Tx._hash_prevouts`. -/
def hashPrevouts (E : Env) (self anyoneCanPay : Val) : Py Bytes :=
  if anyoneCanPay.truthy then .ok (List.replicate 32 0)
  else do
    let ins ← self.txInsOf
    let os ← mapPy outpointOf ins
    let data ← iaddAll [] os
    .ok (E.hash256 data)

/-- tx/tx.py:1044-1062, `Tx._hash_sequence`. -/
def hashSequence (E : Env) (self : Val) (sighashType : Nat) (anyoneCanPay : Val) : Py Bytes :=
  if anyoneCanPay.truthy ∨ sighashType = SIGHASH_SINGLE then .ok (List.replicate 32 0)
  else do
    let ins ← self.txInsOf
    let qs ← mapPy sequenceOf ins
    let data ← iaddAll [] qs
    .ok (E.hash256 data)

/-- tx/tx.py:1064-1090, `Tx._hash_outputs`. -/
def hashOutputs (E : Env) (self index : Val) (sighashType : Nat) : Py Bytes := do
  let outs ← self.txOutsOf
  if sighashType = SIGHASH_ALL then do
    let data ← iaddAll [] outs
    .ok (E.hash256 data)
  else if sighashType = SIGHASH_SINGLE then do
    let ge ← index.geInt outs.length
    if ge then .error .notImplementedError
    else do
      let o ← itemOf outs index
      let data ← iadd [] o
      .ok (E.hash256 data)
  else .error .notImplementedError

/-- tx/tx.py:956-993 and 1124-1155: the common part of `segwit_sighash` and `_sighash_forkid`, `ty` being the last item. -/
def sighash143 (E : Env) (self index : Val) (sighashType : Nat) (prevoutValue script anyoneCanPay : Val) (ty : Py Bytes) : Py Val := do
  let version ← self.versionOf
  let data ← iadd [] version
  let prevouts ← hashPrevouts E self anyoneCanPay
  let sequences ← hashSequence E self sighashType anyoneCanPay
  let ins ← self.txInsOf
  let cur ← itemOf ins index
  let o ← cur.outpointOf
  let data ← iadd (data ++ prevouts ++ sequences) o
  let data ← iadd data script
  let data ← iadd data prevoutValue
  let cur ← itemOf ins index
  let q ← cur.sequenceOf
  let data ← iadd data q
  let outs ← hashOutputs E self index sighashType
  let lockTime ← self.lockTimeOf
  let data ← iadd (data ++ outs) lockTime
  let ty ← ty
  .ok (.bytes (E.hash256 (data ++ ty)))

/-- tx/tx.py:945-995, `Tx.segwit_sighash`. -/
def segwitSighash (E : Env) (self index : Val) (sighashType : Nat) (prevoutValue script anyoneCanPay : Val) : Py Val :=
  sighash143 E self index sighashType prevoutValue script anyoneCanPay (Tx.segwitSighashAdjustment sighashType anyoneCanPay.truthy)

/-- tx/tx.py:1111-1157, `Tx._sighash_forkid`; `forkid` is the network's `FORKID`. -/
def sighashForkid (E : Env) (self : Val) (forkid : Nat) (index script prevoutValue : Val) (sighashType : Nat) (anyoneCanPay : Val) : Py Val := do
  prevoutValue.validate (some 8)
  sighash143 E self index sighashType prevoutValue script anyoneCanPay (Tx.forkidSighashAdjustment forkid sighashType anyoneCanPay.truthy)

/-- tx/tx.py:715-794, `Tx.sighash_all`. The parameters are in this order, also for the calls that the other overloads declare. -/
def sighashAll (E : Env) (self index script : Val) (prevoutValue : Val := .none) (anyoneCanPay : Val := .int 0) : Py Val :=
  match E.net.forkid with
  | some forkid => sighashForkid E self forkid index script prevoutValue SIGHASH_ALL anyoneCanPay
  | Option.none => do
    let w ← isWitness self
    if w then segwitSighash E self index SIGHASH_ALL prevoutValue script anyoneCanPay
    else do
      let copyTx ← sighashPrep E self index script
      if anyoneCanPay.truthy then sighashAnyoneCanPay E index copyTx SIGHASH_ALL
      else sighashFinalHashing E copyTx SIGHASH_ALL

/-- tx/tx.py:922-943: the legacy part of `sighash_single`. The slice `copy_tx.tx_outs[:index + 1]` that is not used cannot fail, `index` having been compared with an
integer before. -/
def sighashSingleLegacy (E : Env) (self index script anyoneCanPay : Val) : Py Val := do
  let copy ← sighashPrep E self index script
  let ins ← copy.txInsOf
  let outs ← copy.txOutsOf
  let copyTxOuts ← mapPy (fun _ => txOut (.bytes (List.replicate 8 0xff)) (.bytes [])) ins
  let curOut ← itemOf outs index
  let copyTxOuts ← setOf copyTxOuts curOut index
  let copyTxIns ← mapPy (fun i => copyTxIn i .none .none .none (.bytes [0, 0, 0, 0])) ins
  let curIn ← itemOf ins index
  let copyTxIns ← setOf copyTxIns curIn index
  let copy ← copyTx E copy .none .none (.list copyTxIns) (.list copyTxOuts) .none .none
  if anyoneCanPay.truthy then sighashAnyoneCanPay E index copy SIGHASH_SINGLE
  else sighashFinalHashing E copy SIGHASH_SINGLE

/-- tx/tx.py:824-943, `Tx.sighash_single`. -/
def sighashSingle (E : Env) (self index script : Val) (prevoutValue : Val := .none) (anyoneCanPay : Val := .int 0) : Py Val := do
  let outs ← self.txOutsOf
  let ge ← index.geInt outs.length
  if ge then .error .notImplementedError
  else match E.net.forkid with
  | some forkid => sighashForkid E self forkid index script prevoutValue SIGHASH_SINGLE anyoneCanPay
  | Option.none => do
    let w ← isWitness self
    if w then segwitSighash E self index SIGHASH_SINGLE prevoutValue script anyoneCanPay
    else sighashSingleLegacy E self index script anyoneCanPay

end Dyn

end Verif
