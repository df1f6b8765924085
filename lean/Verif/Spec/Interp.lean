import Verif.Spec.Script
import Verif.Spec.Ints

/-! # When is an output spent?

Bitcoin's rules for spending an output (BIP 16, BIP 65, BIP 141, BIP 143 and the interpreter), written for the operations that the library's
output scripts and templates use. Signature checks and lock times are left abstract.

Simplifications: operations not listed fail (so only scripts made of the listed operations are decided); the limits on the number of
operations and of stack elements are left out; a signature is not looked for in the script it signs (`FindAndDelete`). -/

namespace Verif.Spec

/-- What a script can ask about the rest of the world. -/
structure World where
  sha256 : Bytes → Bytes
  hash160 : Bytes → Bytes
  /-- `checkSig witness code sig key`: is `sig` a signature by `key` of the spending transaction with script code `code`? -/
  checkSig : Bool → Bytes → Bytes → Bytes → Bool
  /-- Does the spending transaction satisfy the given lock time? -/
  lockTime : Bytes → Bool
  /-- Are the rules for witnesses in force? -/
  segwit : Bool

/-- A push of `n` bytes. -/
def takePush (n : Nat) (r : Bytes) : Option (ScriptItem × Bytes) := if r.length < n then none else some (.push (r.take n), r.drop n)

/-- The first item of a script and the rest; `none` if there is none or a push runs over the end. -/
def nextItem (s : Bytes) : Option (ScriptItem × Bytes) :=
  match s with
  | [] => none
  | b :: rest =>
    if 1 ≤ b.toNat ∧ b.toNat ≤ 75 then takePush b.toNat rest
    else if b.toNat = 76 then match rest with
      | l :: r => takePush l.toNat r
      | _ => none
    else if b.toNat = 77 then match rest with
      | l :: h :: r => takePush (l.toNat + 256 * h.toNat) r
      | _ => none
    else if b.toNat = 78 then match rest with
      | l :: h :: i :: j :: r => takePush (l.toNat + 256 * h.toNat + 65536 * i.toNat + 16777216 * j.toNat) r
      | _ => none
    else some (.op b, rest)

/-- At most so many items of a script, if these are all. -/
def parseItems : Nat → Bytes → Option (List ScriptItem)
  | _, [] => some []
  | 0, _ :: _ => none
  | fuel + 1, b :: rest => match nextItem (b :: rest) with
    | none => none
    | some (i, r) => (parseItems fuel r).map (i :: ·)

/-- The items of a script. -/
def scriptItems (b : Bytes) : Option (List ScriptItem) := parseItems b.length b

/-- A stack element as a truth value: false is zero, positive or negative, of any length. -/
def truthy (x : Bytes) : Bool := !(x.all (· == 0)) && !(x.dropLast.all (· == 0) && x.getLast? == some 0x80)

/-- The truth values that operations push. -/
def ofBool (b : Bool) : Bytes := if b then [1] else []

/-- A stack element of at most `max` bytes as a number, if it is not negative: little-endian, the top bit of the last byte is the sign. -/
def scriptNumber (max : Nat) (x : Bytes) : Option Nat :=
  if max < x.length then none
  else match x.getLast? with
    | none => some 0
    | some l =>
      if l.toNat < 128 then some (leValue x)
      else if x.dropLast.all (· == 0) && l.toNat == 128 then some 0 else none

/-- Numbers of keys and signatures. -/
def smallNumber (x : Bytes) : Option Nat := scriptNumber 4 x

/-- Are the signatures, in this order, signatures by some of the keys, in this order? -/
def sigsMatch (ok : Bytes → Bytes → Bool) : List Bytes → List Bytes → Bool
  | [], _ => true
  | _ :: _, [] => false
  | s :: ss, k :: ks => if ok s k then sigsMatch ok ss ks else sigsMatch ok (s :: ss) ks

/-- OP_CHECKMULTISIG on a stack (top first): number of keys, keys, number of signatures, signatures, one more element. -/
def multisig (ok : Bytes → Bytes → Bool) (stack : List Bytes) : Option (Bool × List Bytes) :=
  match stack with
  | [] => none
  | n :: rest => match smallNumber n with
    | none => none
    | some n =>
      if 20 < n ∨ rest.length < n + 1 then none
      else match rest.drop n with
        | [] => none
        | m :: rest' => match smallNumber m with
          | none => none
          | some m => if n < m ∨ rest'.length < m + 1 then none
            else some (sigsMatch ok (rest'.take m) (rest.take n), rest'.drop (m + 1))

/-- An operation that is executed: the new stack, top first. -/
def runOp (w : World) (witness : Bool) (code : Bytes) (n : Nat) (stack : List Bytes) : Option (List Bytes) :=
  if n = 0 then some ([] :: stack)
  else if n = 79 then some ([0x81] :: stack)
  else if 81 ≤ n ∧ n ≤ 96 then some ([UInt8.ofNat (n - 80)] :: stack)
  else if n = 97 then some stack
  else if n = 105 then match stack with -- OP_VERIFY
    | x :: s => if truthy x then some s else none
    | _ => none
  else if n = 117 then match stack with -- OP_DROP
    | _ :: s => some s
    | _ => none
  else if n = 118 then match stack with -- OP_DUP
    | x :: s => some (x :: x :: s)
    | _ => none
  else if n = 135 then match stack with -- OP_EQUAL
    | x :: y :: s => some (ofBool (x == y) :: s)
    | _ => none
  else if n = 136 then match stack with -- OP_EQUALVERIFY
    | x :: y :: s => if x = y then some s else none
    | _ => none
  else if n = 168 then match stack with -- OP_SHA256
    | x :: s => some (w.sha256 x :: s)
    | _ => none
  else if n = 169 then match stack with -- OP_HASH160
    | x :: s => some (w.hash160 x :: s)
    | _ => none
  else if n = 172 then match stack with -- OP_CHECKSIG
    | key :: sig :: s => some (ofBool (w.checkSig witness code sig key) :: s)
    | _ => none
  else if n = 173 then match stack with -- OP_CHECKSIGVERIFY
    | key :: sig :: s => if w.checkSig witness code sig key then some s else none
    | _ => none
  else if n = 174 then match multisig (w.checkSig witness code) stack with -- OP_CHECKMULTISIG
    | some (r, s) => some (ofBool r :: s)
    | none => none
  else if n = 177 then match stack with -- OP_CHECKLOCKTIMEVERIFY
    | x :: s => if w.lockTime x then some (x :: s) else none
    | _ => none
  else none

/-- One item, executed or skipped: `flags` are the conditions of the OP_IFs one is in. -/
def runItem (w : World) (witness : Bool) (code : Bytes) (it : ScriptItem) (s : List Bytes × List Bool) : Option (List Bytes × List Bool) :=
  let exec := s.2.all id
  match it with
  | .push d => if 520 < d.length then none else some (if exec then (d :: s.1, s.2) else s)
  | .op b =>
    if b.toNat = 99 then -- OP_IF
      if exec then match s.1 with
        | x :: st => some (st, truthy x :: s.2)
        | [] => none
      else some (s.1, false :: s.2)
    else if b.toNat = 100 then -- OP_NOTIF
      if exec then match s.1 with
        | x :: st => some (st, (!truthy x) :: s.2)
        | [] => none
      else some (s.1, false :: s.2)
    else if b.toNat = 103 then match s.2 with -- OP_ELSE
      | f :: fs => some (s.1, (!f) :: fs)
      | [] => none
    else if b.toNat = 104 then match s.2 with -- OP_ENDIF
      | _ :: fs => some (s.1, fs)
      | [] => none
    else if exec then (runOp w witness code b.toNat s.1).map (·, s.2)
    else if b.toNat ∈ [101, 102, 126, 127, 128, 129, 131, 132, 133, 134, 141, 142, 149, 150, 151, 152, 153] then none
    else some s

/-- All items in order. -/
def runItems (w : World) (witness : Bool) (code : Bytes) : List ScriptItem → List Bytes × List Bool → Option (List Bytes × List Bool)
  | [], s => some s
  | i :: is, s => match runItem w witness code i s with
    | some s' => runItems w witness code is s'
    | none => none

/-- The stack after a script, which is also the script code that its signatures sign. -/
def evalScript (w : World) (witness : Bool) (code : Bytes) (stack : List Bytes) : Option (List Bytes) :=
  if 10000 < code.length then none
  else match scriptItems code with
    | none => none
    | some items => match runItems w witness code items (stack, []) with
      | some (st, []) => some st
      | _ => none

/-- Is the output script a pay-to-script-hash one (BIP 16)? -/
def isP2sh (s : Bytes) : Bool := s.length == 23 && s.take 2 == [0xa9, 0x14] && s.drop 22 == [0x87]

/-- Version and program of a witness output (BIP 141). -/
def witnessProgram (s : Bytes) : Option (Nat × Bytes) :=
  match s with
  | v :: l :: prog =>
    if (v.toNat = 0 ∨ 81 ≤ v.toNat ∧ v.toNat ≤ 96) ∧ 2 ≤ prog.length ∧ prog.length ≤ 40 ∧ l.toNat = prog.length then
      some (if v.toNat = 0 then 0 else v.toNat - 80, prog)
    else none
  | _ => none

/-- Nothing but pushes. -/
def pushOnly (s : Bytes) : Bool :=
  match scriptItems s with
  | none => false
  | some items => items.all fun i => match i with | .push _ => true | .op b => decide (b.toNat ≤ 96)

/-- The rules for witnesses (first element at the bottom of the stack). Later versions are not yet restricted. -/
def verifyWitness (w : World) (version : Nat) (prog : Bytes) (items : List Bytes) : Bool :=
  let finish (script : Bytes) (stack : List Bytes) : Bool :=
    stack.all (·.length ≤ 520) && match evalScript w true script stack with
      | some [x] => truthy x
      | _ => false
  if version = 0 then
    if prog.length = 20 then items.length == 2 && finish ([0x76, 0xa9, 0x14] ++ prog ++ [0x88, 0xac]) items.reverse
    else if prog.length = 32 then match items.reverse with
      | script :: stack => w.sha256 script == prog && finish script stack
      | [] => false
    else false
  else true

/-- Does an input with this script sig and witness spend an output with this script? -/
def spends (w : World) (scriptSig : Bytes) (witness : List Bytes) (script : Bytes) : Bool :=
  match evalScript w false scriptSig [] with
  | none => false
  | some stack => match evalScript w false script stack with
    | some (x :: _) => truthy x &&
      match (if w.segwit then witnessProgram script else none) with
      | some (v, prog) => scriptSig == [] && verifyWitness w v prog witness
      | none =>
        if isP2sh script then pushOnly scriptSig && match stack with
          | [] => false
          | redeem :: st => match evalScript w false redeem st with
            | some (y :: _) => truthy y && (match (if w.segwit then witnessProgram redeem else none) with
              | some (v, prog) => scriptSig == minimalPush redeem && verifyWitness w v prog witness
              | none => witness == [])
            | _ => false
        else witness == []
    | _ => false

end Verif.Spec
