/-
Python built-ins used by riemann, as total Lean functions.
Nothing here is code of the repository; it is the model of the Python 3 runtime that the
repository's code relies on (part of the trusted base, see DESIGN.md).
-/

namespace Verif

/-- Python `bytes` / `bytearray`. -/
abbrev Bytes := List UInt8

/-- Python `str` (sequence of Unicode scalar values; lone surrogates are not representable). -/
abbrev PyStr := List Char

/-- Exception classes raised by, or escaping from, the modelled code. -/
inductive PyErr where
  | valueError
  | typeError
  | indexError
  | keyError
  | notImplementedError
  | overflowError
  | attributeError
  | exception
  deriving DecidableEq, Repr

/-- A Python computation: a value or an exception. -/
abbrev Py (α : Type) := Except PyErr α

deriving instance DecidableEq for Except

open Lean in
/-- `pystr "abc"` is the explicit character list `['a', 'b', 'c']`. -/
macro "pystr" s:str : term => do
  let cs := s.getString.toList.toArray.map fun c => Syntax.mkCharLit c
  `(([ $[$cs],* ] : List Char))

/-- `if not c: raise e`. -/
def check (c : Prop) [Decidable c] (e : PyErr) : Py Unit :=
  if c then .ok () else .error e

/-- `try: m  except ValueError: h`-style handler: runs `h` when `m` raises an exception satisfying `p`. -/
def tryCatchPy {α : Type} (m : Py α) (p : PyErr → Bool) (h : Py α) : Py α :=
  match m with
  | .ok a => .ok a
  | .error e => if p e then h else .error e

/-! ### Integers and bytes -/

/-- The `k` low-order base-256 digits of `n`, least significant first. -/
def natToLE : Nat → Nat → Bytes
  | 0, _ => []
  | k + 1, n => UInt8.ofNat (n % 256) :: natToLE k (n / 256)

/-- `int.from_bytes(b, 'little')`. -/
def leToNat : Bytes → Nat
  | [] => 0
  | b :: bs => b.toNat + 256 * leToNat bs

/-- `int.to_bytes(n, k, 'little')`: OverflowError when negative or too big. (`k : Nat`: no caller in the
modelled code passes a negative length.) -/
def toBytesLE (n : Int) (k : Nat) : Py Bytes :=
  if 0 ≤ n ∧ n < (256 ^ k : Nat) then .ok (natToLE k n.toNat) else .error .overflowError

/-- `int.to_bytes(n, k, 'big')`. -/
def toBytesBE (n : Int) (k : Nat) : Py Bytes :=
  if 0 ≤ n ∧ n < (256 ^ k : Nat) then .ok (natToLE k n.toNat).reverse else .error .overflowError

/-- `int.to_bytes(n, k, 'little', signed=True)`. CPython accepts `n = 0` and (a quirk) `n = -1` at `k = 0`. -/
def toBytesLESigned (n : Int) (k : Nat) : Py Bytes :=
  if -((256 ^ k : Nat) : Int) ≤ 2 * n ∧ 2 * n < (256 ^ k : Nat) ∨ (k = 0 ∧ n = -1) then
    .ok (natToLE k (n % (256 ^ k : Nat)).toNat)
  else .error .overflowError

/-- `int.from_bytes(b, 'little', signed=True)`. -/
def leToIntSigned (b : Bytes) : Int :=
  if 2 * leToNat b < 256 ^ b.length then leToNat b else (leToNat b : Int) - (256 ^ b.length : Nat)

/-- `n.bit_length()` for `n ≥ 0` (for negative `n` Python uses `|n|`). -/
def bitLength (n : Int) : Nat := if n.natAbs = 0 then 0 else n.natAbs.log2 + 1

/-! ### Slicing and indexing -/

/-- `b[i:j]` for non-negative `i`, `j`. -/
def slice {α : Type} (b : List α) (i j : Nat) : List α := (b.take j).drop i

/-- `b[-n:]` for `n > 0`. -/
def lastN {α : Type} (b : List α) (n : Nat) : List α := b.drop (b.length - n)

/-- `b[:-n]` for `n > 0`. -/
def dropLastN {α : Type} (b : List α) (n : Nat) : List α := b.take (b.length - n)

/-- Normalisation of a Python index for a sequence of length `len`: negative indices count from the end. -/
def pyIndex (i : Int) (len : Nat) : Option Nat :=
  if 0 ≤ i then (if i < len then some i.toNat else none)
  else if 0 ≤ i + len then some (i + len).toNat else none

/-- `b[i]` with IndexError. -/
def getItem {α : Type} (b : List α) (i : Int) : Py α :=
  match pyIndex i b.length with
  | some k => match b[k]? with
    | some x => .ok x
    | none => .error .indexError
  | none => .error .indexError

/-- `b[k]` for a non-negative index. -/
def getNat {α : Type} (b : List α) (k : Nat) : Py α :=
  match b[k]? with
  | some x => .ok x
  | none => .error .indexError

/-- `b.find(p) == 0`. -/
def startsWith {α : Type} [BEq α] (b p : List α) : Bool := p.isPrefixOf b

/-- `sub in s` for strings. -/
def strContains (sub : PyStr) : PyStr → Bool
  | [] => sub.isPrefixOf []
  | c :: cs => sub.isPrefixOf (c :: cs) || strContains sub cs

/-! ### Hex -/

/-- Lower-case hex digit. -/
def hexDigit (n : Nat) : Char :=
  if n < 10 then Char.ofNat (48 + n) else Char.ofNat (87 + n)

/-- `bytes.hex()`. -/
def toHex : Bytes → PyStr
  | [] => []
  | b :: bs => hexDigit (b.toNat / 16) :: hexDigit (b.toNat % 16) :: toHex bs

/-- Value of a hex digit character, either case. -/
def hexVal (c : Char) : Option Nat :=
  if 48 ≤ c.toNat ∧ c.toNat ≤ 57 then some (c.toNat - 48)
  else if 97 ≤ c.toNat ∧ c.toNat ≤ 102 then some (c.toNat - 87)
  else if 65 ≤ c.toNat ∧ c.toNat ≤ 70 then some (c.toNat - 55)
  else none

/-- ASCII whitespace, skipped by `bytes.fromhex` between byte pairs. -/
def isAsciiSpace (c : Char) : Bool :=
  c.toNat == 32 || (9 ≤ c.toNat && c.toNat ≤ 13)

/-- `bytes.fromhex(s)`: ASCII whitespace allowed between byte pairs, anything else malformed is a ValueError. -/
def fromHex : PyStr → Py Bytes
  | [] => .ok []
  | c :: cs =>
    if isAsciiSpace c then fromHex cs
    else match cs with
      | [] => .error .valueError
      | d :: ds => match hexVal c, hexVal d with
        | some a, some b => match fromHex ds with
          | .ok r => .ok (UInt8.ofNat (16 * a + b) :: r)
          | .error e => .error e
        | _, _ => .error .valueError

/-! ### Strings -/

/-- Characters for which `str.isspace` holds and at which `str.split()` splits. -/
def isPySpace (c : Char) : Bool :=
  let n := c.toNat
  (9 ≤ n && n ≤ 13) || (28 ≤ n && n ≤ 32) || n == 0x85 || n == 0xa0 || n == 0x1680 ||
  (0x2000 ≤ n && n ≤ 0x200a) || n == 0x2028 || n == 0x2029 || n == 0x202f || n == 0x205f || n == 0x3000

/-- `s.split()`; `cur` is the current token, reversed. -/
def splitAux (cur : PyStr) : PyStr → List PyStr
  | [] => if cur.isEmpty then [] else [cur.reverse]
  | c :: cs =>
    if isPySpace c then
      (if cur.isEmpty then splitAux [] cs else cur.reverse :: splitAux [] cs)
    else splitAux (c :: cur) cs

/-- `s.split()`. -/
def pySplit (s : PyStr) : List PyStr := splitAux [] s

/-- `' '.join(l)`. -/
def joinSpace : List PyStr → PyStr
  | [] => []
  | [t] => t
  | t :: ts => t ++ ' ' :: joinSpace ts

end Verif
