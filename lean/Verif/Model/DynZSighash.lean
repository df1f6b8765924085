import Verif.Model.DynSighash
import Verif.Model.DynZcash

/-! # tx/overwinter.py and tx/sapling.py: the sighash methods on arguments of any type

The same values and simplifications as in `Model/Dyn.lean`. The two classes have the methods `_hash_prevouts`, `_hash_sequence`, `_hash_outputs` and `_hash_joinsplits` in the
same words; they are written once. -/

namespace Verif

namespace Val

/-- `v == n` for an integer `n`. `ByteData` raises (tx/shared.py:52-71); values of the other types are different from it. -/
def eqInt (n : Nat) : Val → Py Bool
  | .int i => .ok (decide (i = n))
  | .obj _ _ _ => .error .typeError
  | _ => .ok false

/-- `v > n` for an integer `n`. -/
def gtInt (n : Nat) : Val → Py Bool
  | .int i => .ok (decide (i > n))
  | _ => .error .typeError

/-- `v | n` for an integer `n`. Of a negative number it is the complement of what is left of its complement without the bits of `n`. -/
def orInt (n : Nat) : Val → Py Val
  | .int (.ofNat k) => .ok (.int (.ofNat (k ||| n)))
  | .int (.negSucc k) => .ok (.int (.negSucc (k ^^^ (k &&& n))))
  | _ => .error .typeError

/-- `x[:n]`. Of objects of `ByteData` it is the slice of their bytes (tx/shared.py:32-33). -/
def upTo (n : Nat) : Val → Py Val
  | .bytes b => .ok (.bytes (b.take n))
  | .bytearray b => .ok (.bytearray (b.take n))
  | .obj _ _ b => .ok (.bytes (b.take n))
  | .str s => .ok (.str (s.take n))
  | .list l => .ok (.list (l.take n))
  | .tuple l => .ok (.tuple (l.take n))
  | _ => .error .typeError

/-- `self.tx_ins` (tx/overwinter.py:100, tx/sapling.py:376), a tuple. -/
def zInsOf : Val → Py (List Val)
  | .obj .overwinterTx [.tuple i, _, _, _, _, _, _, _, _, _, _] _ => .ok i
  | .obj .saplingTx [_, .tuple i, _, _, _, _, _, _, _, _, _, _, _, _, _] _ => .ok i
  | _ => .error .attributeError

/-- `self.tx_outs` (tx/overwinter.py:101, tx/sapling.py:377), a tuple. -/
def zOutsOf : Val → Py (List Val)
  | .obj .overwinterTx [_, .tuple o, _, _, _, _, _, _, _, _, _] _ => .ok o
  | .obj .saplingTx [_, _, .tuple o, _, _, _, _, _, _, _, _, _, _, _, _] _ => .ok o
  | _ => .error .attributeError

/-- `self.lock_time` (tx/overwinter.py:102, tx/sapling.py:378). -/
def zLockOf : Val → Py Val
  | .obj .overwinterTx [_, _, l, _, _, _, _, _, _, _, _] _ => .ok l
  | .obj .saplingTx [_, _, _, l, _, _, _, _, _, _, _, _, _, _, _] _ => .ok l
  | _ => .error .attributeError

/-- `self.expiry_height` (tx/overwinter.py:103, tx/sapling.py:379). -/
def zExpiryOf : Val → Py Val
  | .obj .overwinterTx [_, _, _, e, _, _, _, _, _, _, _] _ => .ok e
  | .obj .saplingTx [_, _, _, _, e, _, _, _, _, _, _, _, _, _, _] _ => .ok e
  | _ => .error .attributeError

/-- `self.tx_joinsplits` (tx/overwinter.py:106 and 115, tx/sapling.py:393 and 402), a tuple. -/
def zJsOf : Val → Py (List Val)
  | .obj .overwinterTx [_, _, _, _, .tuple j, _, _, _, _, _, _] _ => .ok j
  | .obj .saplingTx [_, _, _, _, _, _, _, _, .tuple j, _, _, _, _, _, _] _ => .ok j
  | _ => .error .attributeError

/-- `self.joinsplit_pubkey` (tx/overwinter.py:107 and 116, tx/sapling.py:394 and 403). -/
def zJsKeyOf : Val → Py Val
  | .obj .overwinterTx [_, _, _, _, _, k, _, _, _, _, _] _ => .ok k
  | .obj .saplingTx [_, _, _, _, _, _, _, _, _, k, _, _, _, _, _] _ => .ok k
  | _ => .error .attributeError

/-- `self.value_balance` (tx/sapling.py:380). -/
def balanceOf : Val → Py Val
  | .obj .saplingTx [_, _, _, _, _, b, _, _, _, _, _, _, _, _, _] _ => .ok b
  | _ => .error .attributeError

/-- `self.tx_shielded_spends` (tx/sapling.py:382-385), a tuple. -/
def spendsOf : Val → Py (List Val)
  | .obj .saplingTx [_, _, _, _, _, _, .tuple s, _, _, _, _, _, _, _, _] _ => .ok s
  | _ => .error .attributeError

/-- `self.tx_shielded_outputs` (tx/sapling.py:387-390), a tuple. -/
def outputsOf : Val → Py (List Val)
  | .obj .saplingTx [_, _, _, _, _, _, _, .tuple s, _, _, _, _, _, _, _] _ => .ok s
  | _ => .error .attributeError

end Val

namespace Dyn
open Val

/-- tx/overwinter.py:318-329 and tx/sapling.py:657-667, `_hash_prevouts`. -/
def zHashPrevouts (E : Env) (self anyoneCanPay : Val) : Py Bytes :=
  if anyoneCanPay.truthy then .ok (List.replicate 32 0)
  else do
    let ins ← self.zInsOf
    let os ← mapPy outpointOf ins
    let data ← iaddAll [] os
    .ok (E.H.blake2b (ascii (pystr "ZcashPrevoutHash")) data)

/-- tx/overwinter.py:331-342 and tx/sapling.py:669-680, `_hash_sequence`. -/
def zHashSequence (E : Env) (self sighashType anyoneCanPay : Val) : Py Bytes :=
  if anyoneCanPay.truthy then .ok (List.replicate 32 0)
  else do
    let single ← sighashType.eqInt SIGHASH_SINGLE
    if single then .ok (List.replicate 32 0)
    else do
      let ins ← self.zInsOf
      let qs ← mapPy sequenceOf ins
      let data ← iaddAll [] qs
      .ok (E.H.blake2b (ascii (pystr "ZcashSequencHash")) data)

/-- tx/overwinter.py:344-363 and tx/sapling.py:682-701, `_hash_outputs`. -/
def zHashOutputs (E : Env) (self sighashType index : Val) : Py Bytes := do
  let all ← sighashType.eqInt SIGHASH_ALL
  let single ← sighashType.eqInt SIGHASH_SINGLE
  if ¬ (all ∨ single) then .ok (List.replicate 32 0)
  else do
    let outs ← self.zOutsOf
    if all then do
      let data ← iaddAll [] outs
      .ok (E.H.blake2b (ascii (pystr "ZcashOutputsHash")) data)
    else do
      let gt ← index.gtInt outs.length
      if gt then .error .notImplementedError
      else do
        let o ← itemOf outs index
        let data ← iadd [] o
        .ok (E.H.blake2b (ascii (pystr "ZcashOutputsHash")) data)

/-- tx/overwinter.py:365-379 and tx/sapling.py:703-717, `_hash_joinsplits`. -/
def zHashJoinsplits (E : Env) (self : Val) : Py Bytes := do
  let js ← self.zJsOf
  if js.length = 0 then .ok (List.replicate 32 0)
  else do
    let data ← iaddAll [] js
    let pk ← self.zJsKeyOf
    let data ← iadd data pk
    .ok (E.H.blake2b (ascii (pystr "ZcashJSplitsHash")) data)

/-- tx/sapling.py:719-731, `SaplingTx._hash_shielded_spends`. -/
def zHashSpends (E : Env) (self : Val) : Py Bytes := do
  let ss ← self.spendsOf
  if ss.length = 0 then .ok (List.replicate 32 0)
  else do
    let cut ← mapPy (upTo 320) ss
    let data ← iaddAll [] cut
    .ok (E.H.blake2b (ascii (pystr "ZcashSSpendsHash")) data)

/-- tx/sapling.py:733-745, `SaplingTx._hash_shielded_outputs`. -/
def zHashShieldedOutputs (E : Env) (self : Val) : Py Bytes := do
  let so ← self.outputsOf
  if so.length = 0 then .ok (List.replicate 32 0)
  else do
    let data ← iaddAll [] so
    .ok (E.H.blake2b (ascii (pystr "ZcashSOutputHash")) data)

/-- tx/overwinter.py:302-304 and tx/sapling.py:642-644: the four bytes of the hash type. -/
def zTypeBytes (sighashType anyoneCanPay : Val) : Py Val := do
  let ty ← if anyoneCanPay.truthy then sighashType.orInt SIGHASH_ANYONECANPAY else .ok sighashType
  ty.toLe 4

/-- tx/overwinter.py:306-310 and tx/sapling.py:646-650: the part about the input being signed. -/
def zInputPart (self prevoutValue scriptCode index joinsplit : Val) (data : Bytes) : Py Bytes :=
  if joinsplit.truthy then .ok data
  else do
    let ins ← self.zInsOf
    let cur ← itemOf ins index
    let o ← cur.outpointOf
    let data ← iadd data o
    let data ← iadd data scriptCode
    let data ← iadd data prevoutValue
    let cur ← itemOf ins index
    let q ← cur.sequenceOf
    iadd data q

/-- tx/overwinter.py:276-316, `OverwinterTx.sighash`. -/
def overSighash (E : Env) (self sighashType prevoutValue scriptCode : Val) (index : Val := .int 0) (joinsplit : Val := .int 0) (anyoneCanPay : Val := .int 0) : Py Val := do
  check (¬ (joinsplit.truthy ∧ anyoneCanPay.truthy)) .valueError
  zcashGate E.net
  let prevouts ← zHashPrevouts E self anyoneCanPay
  let sequences ← zHashSequence E self sighashType anyoneCanPay
  let outs ← zHashOutputs E self sighashType index
  let js ← zHashJoinsplits E self
  let lock ← self.zLockOf
  let data ← iadd ([0x03, 0x00, 0x00, 0x80] ++ [0x70, 0x82, 0xc4, 0x03] ++ prevouts ++ sequences ++ outs ++ js) lock
  let expiry ← self.zExpiryOf
  let data ← iadd data expiry
  let ty ← zTypeBytes sighashType anyoneCanPay
  let data ← iadd data ty
  let data ← zInputPart self prevoutValue scriptCode index joinsplit data
  .ok (.bytes (E.H.blake2b (ascii (pystr "ZcashSigHash") ++ [0x19, 0x1b, 0xa8, 0x5b]) data))

/-- tx/sapling.py:611-655, `SaplingTx.sighash`. -/
def sapSighash (E : Env) (self sighashType prevoutValue : Val) (index : Val := .int 0) (joinsplit : Val := .int 0) (scriptCode : Val := .none)
    (anyoneCanPay : Val := .int 0) : Py Val := do
  check (¬ (joinsplit.truthy ∧ anyoneCanPay.truthy)) .valueError
  zcashGate E.net
  let prevouts ← zHashPrevouts E self anyoneCanPay
  let sequences ← zHashSequence E self sighashType anyoneCanPay
  let outs ← zHashOutputs E self sighashType index
  let js ← zHashJoinsplits E self
  let spends ← zHashSpends E self
  let outputs ← zHashShieldedOutputs E self
  let lock ← self.zLockOf
  let data ← iadd ([0x04, 0x00, 0x00, 0x80] ++ [0x85, 0x20, 0x2f, 0x89] ++ prevouts ++ sequences ++ outs ++ js ++ spends ++ outputs) lock
  let expiry ← self.zExpiryOf
  let data ← iadd data expiry
  let balance ← self.balanceOf
  let data ← iadd data balance
  let ty ← zTypeBytes sighashType anyoneCanPay
  let data ← iadd data ty
  let data ← zInputPart self prevoutValue scriptCode index joinsplit data
  .ok (.bytes (E.H.blake2b (ascii (pystr "ZcashSigHash") ++ [0xbb, 0x09, 0xb8, 0x76]) data))

/-- tx/overwinter.py:270-271, `OverwinterTx.sighash_all`: `anyone_can_pay` is a named parameter, hence not in `kwargs`. -/
def overSighashAll (E : Env) (self prevoutValue scriptCode : Val) (index : Val := .int 0) (joinsplit : Val := .int 0) (_anyoneCanPay : Val := .int 0) : Py Val :=
  overSighash E self (.int SIGHASH_ALL) prevoutValue scriptCode index joinsplit

/-- tx/overwinter.py:273-274, `OverwinterTx.sighash_single`. -/
def overSighashSingle (E : Env) (self prevoutValue scriptCode : Val) (index : Val := .int 0) (joinsplit : Val := .int 0) (_anyoneCanPay : Val := .int 0) : Py Val :=
  overSighash E self (.int SIGHASH_SINGLE) prevoutValue scriptCode index joinsplit

/-- tx/sapling.py:605-606, `SaplingTx.sighash_all`. -/
def sapSighashAll (E : Env) (self prevoutValue : Val) (index : Val := .int 0) (joinsplit : Val := .int 0) (scriptCode : Val := .none) (_anyoneCanPay : Val := .int 0) : Py Val :=
  sapSighash E self (.int SIGHASH_ALL) prevoutValue index joinsplit scriptCode

/-- tx/sapling.py:608-609, `SaplingTx.sighash_single`. -/
def sapSighashSingle (E : Env) (self prevoutValue : Val) (index : Val := .int 0) (joinsplit : Val := .int 0) (scriptCode : Val := .none) (_anyoneCanPay : Val := .int 0) : Py Val :=
  sapSighash E self (.int SIGHASH_SINGLE) prevoutValue index joinsplit scriptCode

end Dyn

end Verif
