import Verif.Model.DynSighash

/-! # tx/sprout.py and tx/decred.py: the sighash methods on arguments of any type

The same values and simplifications as in `Model/Dyn.lean`. `self` is an object of the class; of a value that is none the methods are missing. The slices `tx_outs[:index + 1]` of
the two `sighash_single`, which are not used, cannot fail: `index` has been compared with an integer or used as an index before. -/

namespace Verif

namespace Val

/-- `self.tx_ins` of a `SproutTx` (tx/sprout.py:97), a tuple. -/
def sproutInsOf : Val → Py (List Val)
  | .obj .sproutTx [_, .tuple i, _, _, _, _, _, _, _, _, _] _ => .ok i
  | _ => .error .attributeError

/-- `self.tx_outs` of a `SproutTx` (tx/sprout.py:98), a tuple. -/
def sproutOutsOf : Val → Py (List Val)
  | .obj .sproutTx [_, _, .tuple o, _, _, _, _, _, _, _, _] _ => .ok o
  | _ => .error .attributeError

/-- `self.tx_joinsplits` of a `SproutTx` (tx/sprout.py:99). -/
def sproutJsOf : Val → Py Val
  | .obj .sproutTx [_, _, _, j, _, _, _, _, _, _, _] _ => .ok j
  | _ => .error .attributeError

/-- `self.version` of a `DecredTx` (tx/decred.py:253). -/
def dcrVersionOf : Val → Py Val
  | .obj .dcrTx [v, _, _, _, _, _, _, _] _ => .ok v
  | _ => .error .attributeError

/-- `self.tx_ins` of a `DecredTx` (tx/decred.py:254), whatever the caller passed. -/
def dcrInsOf : Val → Py Val
  | .obj .dcrTx [_, i, _, _, _, _, _, _] _ => .ok i
  | _ => .error .attributeError

/-- `self.tx_outs` of a `DecredTx` (tx/decred.py:255). -/
def dcrOutsOf : Val → Py Val
  | .obj .dcrTx [_, _, o, _, _, _, _, _] _ => .ok o
  | _ => .error .attributeError

/-- `self.tx_witnesses` of a `DecredTx` (tx/decred.py:258). -/
def dcrWitsOf : Val → Py Val
  | .obj .dcrTx [_, _, _, _, _, w, _, _] _ => .ok w
  | _ => .error .attributeError

/-- `self.tx_id_le` of a `DecredTx` (tx/decred.py:266). -/
def dcrIdOf : Val → Py Val
  | .obj .dcrTx [_, _, _, _, _, _, i, _] _ => .ok i
  | _ => .error .attributeError

/-- `v[index]` where `v` is a list or tuple. What else `v` may be (bytes, a string) has no elements when it is an attribute of a `DecredTx`. -/
def itemAt (v index : Val) : Py Val :=
  match v with
  | .list l => itemOf l index
  | .tuple l => itemOf l index
  | _ => match index with
    | .int _ => .error .indexError
    | _ => .error .typeError

end Val

namespace Dyn
open Val

/-- tx/sprout.py:245-267, `SproutTx._sighash_prep`. -/
def sproutPrep (E : Env) (self index script : Val) : Py Val := do
  let ins ← self.sproutInsOf
  if ins.length = 0 then copySprout E self .none .none .none .none .none .none (.bytes [])
  else do
    let copyTxIns ← mapPy (fun i => copyTxIn i .none (.bytes []) (.bytes []) .none) ins
    let toStrip ← readVarInt E.net script
    let cur ← itemOf copyTxIns index
    let rest ← script.from_ toStrip.bytes.length
    let cur ← copyTxIn cur .none .none rest .none
    let copyTxIns ← setOf copyTxIns cur index
    copySprout E self .none (.list copyTxIns) .none .none .none .none (.bytes [])

/-- tx/sprout.py:355-367, `SproutTx._sighash_final_hashing`. -/
def sproutFinal (E : Env) (copyTx : Val) (sighashType : Nat) : Py Val := do
  zcashGate E.net
  let data ← iadd [] copyTx
  let ty ← i2lePadded sighashType 4
  .ok (.bytes (E.hash256 (data ++ ty)))

/-- tx/sprout.py:331-353, `SproutTx._sighash_anyone_can_pay`. -/
def sproutAnyoneCanPay (E : Env) (self index copyTx : Val) (sighashType : Nat) : Py Val := do
  let js ← self.sproutJsOf
  if js.given then .error .valueError
  else do
    let ins ← copyTx.sproutInsOf
    let cur ← itemOf ins index
    let copyTx ← copySprout E copyTx .none (.list [cur]) .none .none .none .none .none
    sproutFinal E copyTx (sighashType ||| SIGHASH_ANYONECANPAY)

/-- tx/sprout.py:269-285, `SproutTx.sighash_all`. -/
def sproutSighashAll (E : Env) (self index script : Val) (anyoneCanPay : Val := .int 0) : Py Val := do
  let copyTx ← sproutPrep E self index script
  if anyoneCanPay.truthy then sproutAnyoneCanPay E self index copyTx SIGHASH_ALL
  else sproutFinal E copyTx SIGHASH_ALL

/-- tx/sprout.py:307-329: `sighash_single` after its tests. -/
def sproutSingleRest (E : Env) (self index script anyoneCanPay : Val) : Py Val := do
  let copy ← sproutPrep E self index script
  let ins ← copy.sproutInsOf
  let outs ← copy.sproutOutsOf
  let copyTxOuts ← mapPy (fun _ => txOut (.bytes (List.replicate 8 0xff)) (.bytes [])) ins
  let curOut ← itemOf outs index
  let copyTxOuts ← setOf copyTxOuts curOut index
  let copyTxIns ← mapPy (fun i => copyTxIn i .none .none .none (.bytes [0, 0, 0, 0])) ins
  let curIn ← itemOf ins index
  let copyTxIns ← setOf copyTxIns curIn index
  let copy ← copySprout E copy .none (.list copyTxIns) (.list copyTxOuts) .none .none .none .none
  if anyoneCanPay.truthy then sproutAnyoneCanPay E self index copy SIGHASH_SINGLE
  else sproutFinal E copy SIGHASH_SINGLE

/-- tx/sprout.py:287-329, `SproutTx.sighash_single`. -/
def sproutSighashSingle (E : Env) (self index script : Val) (anyoneCanPay : Val := .int 0) : Py Val := do
  let js ← self.sproutJsOf
  if js.given then .error .valueError
  else do
    let outs ← self.sproutOutsOf
    let ge ← index.geInt outs.length
    if ge then .error .notImplementedError
    else sproutSingleRest E self index script anyoneCanPay

/-- tx/decred.py:345-354, `DecredTx._sighash_prep`. -/
def dcrPrep (net : Network) (self index script : Val) : Py Val := do
  let wits ← self.dcrWitsOf
  let l ← wits.iter
  let copies ← mapPy (fun w => copyDcrWitness net w .none .none .none (.bytes []) (.bytes [])) l
  let cur ← itemOf copies index
  let cur ← copyDcrWitness net cur .none .none .none script (.bytes [])
  let copies ← setOf copies cur index
  copyDcrTx net self .none .none .none .none .none (.list copies)

/-- tx/decred.py:320-322: one turn of the loop in `witness_signing`. -/
def dcrSigningPart (data : Bytes) (w : Val) : Py Bytes :=
  match w with
  | .obj .dcrWitness [_, _, _, .int l, _, _, g] _ => do
    let n ← VarInt.make l
    iadd (data ++ n.bytes) g
  | _ => .error .attributeError

/-- tx/decred.py:320-322: the loop. -/
def dcrSigningParts (data : Bytes) : List Val → Py Bytes
  | [] => .ok data
  | w :: ws => do
    let data ← dcrSigningPart data w
    dcrSigningParts data ws

/-- tx/decred.py:315-323, `DecredTx.witness_signing`. -/
def dcrWitnessSigning (net : Network) (self : Val) : Py Bytes := do
  decredGate net
  let version ← self.dcrVersionOf
  let v ← firstTwo version
  let data ← iadd [] v
  let wits ← self.dcrWitsOf
  let len ← wits.len
  let n ← VarInt.make (len : Int)
  let l ← wits.iter
  dcrSigningParts (data ++ [0x03, 0x00] ++ n.bytes) l

/-- tx/decred.py:431-440, `DecredTx._sighash_final_hashing`. The prefix hash is the attribute `tx_id_le` (tx/decred.py:280-284). -/
def dcrFinal (net : Network) (copyTx : Val) (sighashType : Nat) : Py Val := do
  decredGate net
  let ty ← i2lePadded sighashType 4
  let pre ← copyTx.dcrIdOf
  let data ← iadd ty pre
  let ws ← dcrWitnessSigning net copyTx
  .ok (.bytes (blake256 (data ++ blake256 ws)))

/-- tx/decred.py:416-429, `DecredTx._sighash_anyone_can_pay`. -/
def dcrAnyoneCanPay (net : Network) (index copyTx : Val) (sighashType : Nat) : Py Val := do
  let wits ← copyTx.dcrWitsOf
  let l ← wits.iter
  let copies ← mapPy (fun w => copyDcrWitness net w .none .none .none (.bytes []) (.bytes [])) l
  let cur ← wits.itemAt index
  let copies ← setOf copies cur index
  let copyTx ← copyDcrTx net copyTx .none .none .none .none .none (.list copies)
  dcrFinal net copyTx (sighashType ||| SIGHASH_ANYONECANPAY)

/-- tx/decred.py:395-414, `DecredTx.sighash_all`. -/
def dcrSighashAll (net : Network) (self index : Val) (script : Val := .none) (anyoneCanPay : Val := .int 0) : Py Val := do
  let copyTx ← dcrPrep net self index script
  if anyoneCanPay.truthy then dcrAnyoneCanPay net index copyTx SIGHASH_ALL
  else dcrFinal net copyTx SIGHASH_ALL

/-- tx/decred.py:367-377: the outputs of the copy for SINGLE; any IndexError becomes NotImplementedError. -/
def dcrSingleOuts (net : Network) (copyTx index : Val) : Py (List Val) :=
  tryCatchPy (do
    let ins ← copyTx.dcrInsOf
    let l ← ins.iter
    let outs ← mapPy (fun _ => dcrTxOut net (.bytes (List.replicate 8 0xff)) (.bytes [0, 0]) (.bytes [])) l
    let txOuts ← copyTx.dcrOutsOf
    let cur ← txOuts.itemAt index
    setOf outs cur index) (fun e => e == .indexError) (.error .notImplementedError)

/-- tx/decred.py:356-393, `DecredTx.sighash_single`. -/
def dcrSighashSingle (net : Network) (self index : Val) (script : Val := .none) (anyoneCanPay : Val := .int 0) : Py Val := do
  let copyTx ← dcrPrep net self index script
  let outs ← dcrSingleOuts net copyTx index
  let txIns ← copyTx.dcrInsOf
  let l ← txIns.iter
  let ins ← mapPy (fun i => copyDcrTxIn net i .none (.bytes [0, 0, 0, 0])) l
  let cur ← txIns.itemAt index
  let ins ← setOf ins cur index
  let copyTx ← copyDcrTx net copyTx .none (.list ins) (.list outs) .none .none .none
  if anyoneCanPay.truthy then dcrAnyoneCanPay net index copyTx SIGHASH_SINGLE
  else dcrFinal net copyTx SIGHASH_SINGLE

end Dyn

end Verif
