import Lean.Elab.Term
import Verif.Spec.Hash
import Verif.Model.Builder

/-! What the modules of test vectors share.  The vectors are the ones of the tests of the library; they check that the model is a model
of this code and no theorem depends on them. -/

namespace Verif.Vectors
open Verif.Spec

/-- `hx n 0x..` is the explicit list of the `n` bytes of a hexadecimal literal. -/
syntax (name := hxStx) "hx " num num : term

open Lean Elab Term in
@[term_elab hxStx] def elabHx : TermElab := fun stx _ => do
  let n := stx[1].isNatLit?.getD 0
  let v := stx[2].isNatLit?.getD 0
  let ty : Lean.Expr := Lean.Expr.const ``UInt8 []
  let rec go : Nat → Nat → Lean.Expr → Lean.Expr
    | 0, _, acc => acc
    | k + 1, v, acc =>
      go k (v / 256) (mkApp3 (Lean.Expr.const ``List.cons [Lean.Level.zero]) ty (mkApp (Lean.Expr.const ``UInt8.ofNat []) (mkRawNatLit (v % 256))) acc)
  return go n v (mkApp (Lean.Expr.const ``List.nil [Lean.Level.zero]) ty)

/-- The characters with these codes. -/
def chars (b : Bytes) : PyStr := b.map fun x => Char.ofNat x.toNat

/-- The call returns a value that satisfies `p`. -/
def ok {α : Type} (x : Py α) (p : α → Bool) : Bool :=
  match x with
  | .ok a => p a
  | .error _ => false

/-- The call raises `e`. -/
def fails {α : Type} (x : Py α) (e : PyErr) : Bool :=
  match x with
  | .ok _ => false
  | .error e' => e' = e

/-- The hash functions of `hashlib`. -/
abbrev hashlib : Hashes := Spec.hashlib

/-- `select_network('bitcoin_main')`. -/
def btc : Env := ⟨bitcoinMain, hashlib⟩
/-- `select_network('bitcoin_cash_main')`. -/
def bch : Env := ⟨bitcoinCashMain, hashlib⟩
/-- `select_network('decred_main')`. -/
def dcr : Env := ⟨decredMain, hashlib⟩
/-- `select_network('zcash_sprout_main')`. -/
def spr : Env := ⟨zcashSproutMain, hashlib⟩
/-- `select_network('zcash_overwinter_main')`. -/
def ovw : Env := ⟨zcashOverwinterMain, hashlib⟩
/-- `select_network('zcash_sapling_main')`. -/
def sap : Env := ⟨zcashSaplingMain, hashlib⟩

/-- The bytes of an outpoint. -/
def outpointBytes : AnyOutpoint → Bytes
  | .std o => o.bytes
  | .decred o => o.bytes
/-- The bytes of an input. -/
def inBytes : AnyTxIn → Bytes
  | .std o => o.bytes
  | .decred o => o.bytes
/-- The bytes of an output. -/
def outBytes : AnyTxOut → Bytes
  | .std o => o.bytes
  | .decred o => o.bytes
/-- The bytes of a transaction. -/
def txBytes : AnyTx → Bytes
  | .std o => o.bytes
  | .decred o => o.bytes
  | .sprout o => o.bytes
  | .overwinter o => o.bytes
  | .sapling o => o.bytes
/-- The input as a Bitcoin input. -/
def stdIn (x : Py AnyTxIn) : Py TxIn := do
  match ← x with
  | .std i => .ok i
  | .decred _ => .error .typeError
/-- The output as a Bitcoin output. -/
def stdOut (x : Py AnyTxOut) : Py TxOut := do
  match ← x with
  | .std o => .ok o
  | .decred _ => .error .typeError

end Verif.Vectors
