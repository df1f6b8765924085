import Verif.Model.Tx

/-! # tx/tx.py: the sighash methods of `Tx`

`prevout_value` is an optional argument, `none` when not given. -/

namespace Verif

/-- `l[i] = x`. -/
def setItem {α : Type} (l : List α) (i : Int) (x : α) : Py (List α) :=
  match pyIndex i l.length with
  | some k => .ok (l.set k x)
  | none => .error .indexError

/-- `[f(x) for x in l]` where `f` can raise. -/
def mapPy {α β : Type} (f : α → Py β) : List α → Py (List β)
  | [] => .ok []
  | x :: xs => do
    let y ← f x
    let ys ← mapPy f xs
    .ok (y :: ys)

/-- tx/tx.py:644-646, `Tx.sighash_none`. -/
def Tx.sighashNone (_t : Tx) : Py Bytes := .error .notImplementedError

/-- tx/tx.py:667-685, `Tx._sighash_prep`. -/
def Tx.sighashPrep (E : Env) (t : Tx) (index : Int) (script : Bytes) : Py Tx := do
  let copyTxIns ← mapPy (fun i => i.copy (stackScript := some []) (redeemScript := some [])) t.txIns
  let toStrip ← VarInt.fromBytes E.net script
  let cur ← getItem copyTxIns index
  let cur ← cur.copy (redeemScript := some (script.drop toStrip.bytes.length))
  let copyTxIns ← setItem copyTxIns index cur
  t.copy E (txIns := some copyTxIns)

/-- tx/tx.py:1016-1029, `Tx._sighash_final_hashing`. -/
def Tx.sighashFinalHashing (E : Env) (copyTx : Tx) (sighashType : Nat) : Py Bytes := do
  let ty ← i2lePadded sighashType 4
  .ok (E.hash256 (copyTx.bytes ++ ty))

/-- tx/tx.py:997-1014, `Tx._sighash_anyone_can_pay`. -/
def Tx.sighashAnyoneCanPay (E : Env) (index : Int) (copyTx : Tx) (sighashType : Nat) : Py Bytes := do
  let cur ← getItem copyTx.txIns index
  let copyTx ← copyTx.copy E (txIns := some [cur])
  Tx.sighashFinalHashing E copyTx (sighashType ||| SIGHASH_ANYONECANPAY)

/-- tx/tx.py:1031-1042, `Tx._hash_prevouts`. -/
def Tx.hashPrevouts (E : Env) (t : Tx) (anyoneCanPay : Bool) : Bytes :=
  if anyoneCanPay then List.replicate 32 0 else E.hash256 (t.txIns.flatMap (·.outpoint.bytes))

/-- tx/tx.py:1044-1062, `Tx._hash_sequence`. -/
def Tx.hashSequence (E : Env) (t : Tx) (sighashType : Nat) (anyoneCanPay : Bool) : Bytes :=
  if anyoneCanPay ∨ sighashType = SIGHASH_SINGLE then List.replicate 32 0 else E.hash256 (t.txIns.flatMap (·.sequence))

/-- tx/tx.py:1064-1090, `Tx._hash_outputs`. -/
def Tx.hashOutputs (E : Env) (t : Tx) (index : Int) (sighashType : Nat) : Py Bytes :=
  if sighashType = SIGHASH_ALL then .ok (E.hash256 (t.txOuts.flatMap (·.bytes)))
  else if sighashType = SIGHASH_SINGLE ∧ index < t.txOuts.length then do
    let o ← getItem t.txOuts index
    .ok (E.hash256 o.bytes)
  else .error .notImplementedError

/-- tx/tx.py:1092-1100, `Tx._forkid_sighash_adjustment`. -/
def Tx.forkidSighashAdjustment (forkid sighashType : Nat) (anyoneCanPay : Bool) : Py Bytes :=
  let sighash := (forkid <<< 8) ||| sighashType ||| SIGHASH_FORKID
  let sighash := if anyoneCanPay then sighash ||| SIGHASH_ANYONECANPAY else sighash
  i2lePadded sighash 4

/-- tx/tx.py:1102-1109, `Tx._segwit_sighash_adjustment`. -/
def Tx.segwitSighashAdjustment (sighashType : Nat) (anyoneCanPay : Bool) : Py Bytes :=
  i2lePadded ((if anyoneCanPay then sighashType ||| SIGHASH_ANYONECANPAY else sighashType : Nat)) 4

/-- tx/tx.py:945-995, `Tx.segwit_sighash`. `data += None` is a TypeError. -/
def Tx.segwitSighash (E : Env) (t : Tx) (index : Int) (sighashType : Nat) (prevoutValue : Option Bytes) (script : Bytes)
    (anyoneCanPay : Bool) : Py Bytes := do
  let cur ← getItem t.txIns index
  let value ← match prevoutValue with
    | some v => .ok v
    | none => .error .typeError
  let outs ← t.hashOutputs E index sighashType
  let ty ← Tx.segwitSighashAdjustment sighashType anyoneCanPay
  .ok (E.hash256 (t.version ++ t.hashPrevouts E anyoneCanPay ++ t.hashSequence E sighashType anyoneCanPay ++ cur.outpoint.bytes
    ++ script ++ value ++ cur.sequence ++ outs ++ t.lockTime ++ ty))

/-- tx/tx.py:1111-1157, `Tx._sighash_forkid`; `forkid` is the network's `FORKID`. -/
def Tx.sighashForkid (E : Env) (t : Tx) (forkid : Nat) (index : Int) (script : Bytes) (prevoutValue : Option Bytes)
    (sighashType : Nat) (anyoneCanPay : Bool) : Py Bytes := do
  let value ← match prevoutValue with
    | some v => do
      validateBytes v (some 8)
      .ok v
    | none => .error .valueError
  let cur ← getItem t.txIns index
  let outs ← t.hashOutputs E index sighashType
  let ty ← Tx.forkidSighashAdjustment forkid sighashType anyoneCanPay
  .ok (E.hash256 (t.version ++ t.hashPrevouts E anyoneCanPay ++ t.hashSequence E sighashType anyoneCanPay ++ cur.outpoint.bytes
    ++ script ++ value ++ cur.sequence ++ outs ++ t.lockTime ++ ty))

/-- tx/tx.py:715-794, `Tx.sighash_all`. -/
def Tx.sighashAll (E : Env) (t : Tx) (index : Int) (script : Bytes) (prevoutValue : Option Bytes := none)
    (anyoneCanPay : Bool := false) : Py Bytes :=
  match E.net.forkid with
  | some forkid => t.sighashForkid E forkid index script prevoutValue SIGHASH_ALL anyoneCanPay
  | none =>
    if t.isWitness then t.segwitSighash E index SIGHASH_ALL prevoutValue script anyoneCanPay
    else do
      let copyTx ← t.sighashPrep E index script
      if anyoneCanPay then Tx.sighashAnyoneCanPay E index copyTx SIGHASH_ALL
      else Tx.sighashFinalHashing E copyTx SIGHASH_ALL

/-- tx/tx.py:922-943: the legacy part of `sighash_single`. -/
def Tx.sighashSingleLegacy (E : Env) (t : Tx) (index : Int) (script : Bytes) (anyoneCanPay : Bool) : Py Bytes := do
  let copyTx ← t.sighashPrep E index script
  let copyTxOuts ← mapPy (fun _ => TxOut.make (List.replicate 8 0xff) []) copyTx.txIns
  let curOut ← getItem copyTx.txOuts index
  let copyTxOuts ← setItem copyTxOuts index curOut
  let copyTxIns ← mapPy (fun i => i.copy (sequence := some [0, 0, 0, 0])) copyTx.txIns
  let curIn ← getItem copyTx.txIns index
  let copyTxIns ← setItem copyTxIns index curIn
  let copyTx ← copyTx.copy E (txIns := some copyTxIns) (txOuts := some copyTxOuts)
  if anyoneCanPay then Tx.sighashAnyoneCanPay E index copyTx SIGHASH_SINGLE
  else Tx.sighashFinalHashing E copyTx SIGHASH_SINGLE

/-- tx/tx.py:824-943, `Tx.sighash_single`. -/
def Tx.sighashSingle (E : Env) (t : Tx) (index : Int) (script : Bytes) (prevoutValue : Option Bytes := none)
    (anyoneCanPay : Bool := false) : Py Bytes :=
  if index ≥ t.txOuts.length then .error .notImplementedError
  else match E.net.forkid with
  | some forkid => t.sighashForkid E forkid index script prevoutValue SIGHASH_SINGLE anyoneCanPay
  | none =>
    if t.isWitness then t.segwitSighash E index SIGHASH_SINGLE prevoutValue script anyoneCanPay
    else t.sighashSingleLegacy E index script anyoneCanPay

end Verif
