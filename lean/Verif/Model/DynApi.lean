import Verif.Model.DynBuilder
import Verif.Model.DynCopy
import Verif.Model.DynParse
import Verif.Model.Networks

/-! # Programs that use the library

A program holds values, calls the functions of the library that return objects with values it holds, reads attributes, takes elements, makes lists and tuples of what it holds, and
selects networks. An operation that raises leaves it with what it held (the program goes on after an `except`).

Simplifications, besides those of `Model/Dyn.lean`: a call gives an argument for every parameter (one that is not given has its default, which is a value too); the functions that return
numbers, texts and bytes only are left out, since a program can write such values itself; lists and bytearrays are not
changed after they are made (`Model/DynChange.lean` is about that). -/

namespace Verif

namespace Dyn
open Val

/-- The functions of the library that return objects. -/
inductive Fn where
  /-- `C(…)` -/
  | init (c : Cls)
  /-- `C.from_bytes(b)` -/
  | fromBytes (c : Cls)
  /-- `C.from_hex(s)` -/
  | fromHex (c : Cls)
  /-- `x.copy(…)` -/
  | copy
  | makeOutput | makeShOutput | makePkhOutput | makeOpReturnOutput | makeWitness | makeOutpoint | makeDecredInput | makeLegacyInput | makeWitnessInput | makeTx
  | simpleOutput | simpleOutpoint | simpleInput | simpleLegacyTx | simpleWitnessTx

/-- The constructors. `make_witness_stack_item` (tx/tx_builder.py:303-307) and `make_decred_witness` (319-333) are calls of them too. Of `ByteData` itself and of `VarInt` see `Lit`. -/
def initOf (E : Env) : Cls → List Val → Py Val
  | .outpoint, [a, b] => outpoint a b
  | .txIn, [a, b, c, d] => txIn a b c d
  | .txOut, [a, b] => txOut a b
  | .item, [a] => item a
  | .witness, [a] => witness a
  | .tx, [a, b, c, d, e, f] => tx E a b c d e f
  | .sproutProof, [a, b, c, d, e, f, g, h] => sproutProof E.net a b c d e f g h
  | .saplingProof, [a, b, c] => saplingProof E.net a b c
  | .sproutJs, [a, b, c, d, e, f, g, h, i, j] => sproutJs E.net a b c d e f g h i j
  | .saplingJs, [a, b, c, d, e, f, g, h, i, j] => saplingJs E.net a b c d e f g h i j
  | .saplingSpend, [a, b, c, d, e, f] => saplingSpend E.net a b c d e f
  | .saplingOutput, [a, b, c, d, e, f] => saplingOutput E.net a b c d e f
  | .sproutTx, [a, b, c, d, e, f, g] => sproutTx E a b c d e f g
  | .overwinterTx, [a, b, c, d, e, f, g] => overwinterTx E a b c d e f g
  | .saplingTx, [a, b, c, d, e, f, g, h, i, j, k] => saplingTx E a b c d e f g h i j k
  | .dcrOutpoint, [a, b, c] => dcrOutpoint E.net a b c
  | .dcrTxIn, [a, b] => dcrTxIn E.net a b
  | .dcrTxOut, [a, b, c] => dcrTxOut E.net a b c
  | .dcrWitness, [a, b, c, d, e] => dcrWitness E.net a b c d e
  | .dcrTx, [a, b, c, d, e, f] => dcrTx E.net a b c d e f
  | _, _ => .error .typeError

/-- `from_bytes` of the classes. Those of `DecredInputWitness` and `DecredTx` (tx/decred.py:195-198, 276-278) raise; that of `ByteData` is tx/shared.py:155-159. -/
def readOf (E : Env) (c : Cls) (v : Val) : Py Val :=
  match c with
  | .outpoint => readOutpoint v
  | .txIn => readTxIn E.net v
  | .txOut => readTxOut E.net v
  | .item => readItem E.net v
  | .witness => readWitness E.net v
  | .tx => readTx E v
  | .sproutProof => readSproutProof E.net v
  | .saplingProof => readSaplingProof E.net v
  | .sproutJs => readSproutJs E.net v
  | .saplingJs => readSaplingJs E.net v
  | .saplingSpend => readSpend E.net v
  | .saplingOutput => readOutput E.net v
  | .sproutTx => readSproutTx E v
  | .overwinterTx => readOverwinterTx E v
  | .saplingTx => readSaplingTx E v
  | .dcrOutpoint => readDcrOutpoint E.net v
  | .dcrTxIn => readDcrTxIn E.net v
  | .dcrTxOut => readDcrTxOut E.net v
  | .dcrWitness => .error .notImplementedError
  | .dcrTx => .error .notImplementedError
  | .other => do
    let b ← iadd [] v
    .ok (.obj .other [] b)

/-- tx/shared.py:151-153 and tx/tx.py:547-550, `from_hex`. -/
def readHexOf (E : Env) (c : Cls) (v : Val) : Py Val :=
  match v with
  | .str s => do
    let b ← fromHex s
    readOf E c (.bytes b)
  | _ => .error .typeError

/-- `self.copy(…)`: the method of the class of the object. The classes that are not here have none (but `VarInt`, see `Lit`). -/
def copyOf (E : Env) (self : Val) (args : List Val) : Py Val :=
  match self with
  | .obj c _ _ =>
    match c, args with
    | .outpoint, [a, b] => copyOutpoint self a b
    | .txIn, [a, b, c, d] => copyTxIn self a b c d
    | .txOut, [a, b] => copyTxOut self a b
    | .witness, [a] => copyWitness self a
    | .tx, [a, b, c, d, e, f] => copyTx E self a b c d e f
    | .sproutTx, [a, b, c, d, e, f, g] => copySprout E self a b c d e f g
    | .overwinterTx, [a, b, c, d, e, f, g] => copyOverwinter E self a b c d e f g
    | .saplingTx, [a, b, c, d, e, f, g, h, i, j, k] => copySapling E self a b c d e f g h i j k
    | .dcrOutpoint, [a, b, c] => copyDcrOutpoint E.net self a b c
    | .dcrTxIn, [a, b] => copyDcrTxIn E.net self a b
    | .dcrTxOut, [a, b, c] => copyDcrTxOut E.net self a b c
    | .dcrWitness, [a, b, c, d, e] => copyDcrWitness E.net self a b c d e
    | .dcrTx, [a, b, c, d, e, f] => copyDcrTx E.net self a b c d e f
    | _, _ => .error .typeError
  | _ => .error .attributeError

/-- A call of a function of the library. -/
def call (E : Env) : Fn → List Val → Py Val
  | .init c, args => initOf E c args
  | .fromBytes c, [v] => readOf E c v
  | .fromHex c, [v] => readHexOf E c v
  | .copy, v :: args => copyOf E v args
  | .makeOutput, [a, b, c] => makeOutput E a b c
  | .makeShOutput, [a, b, c] => makeShOutput E a b c
  | .makePkhOutput, [a, b, c] => makePkhOutput E a b c
  | .makeOpReturnOutput, [a] => makeOpReturnOutput E a
  | .makeWitness, [a] => makeWitness a
  | .makeOutpoint, [a, b, c] => makeOutpoint E a b c
  | .makeDecredInput, [a, b] => makeDecredInput E a b
  | .makeLegacyInput, [a, b, c, d] => makeLegacyInput E a b c d
  | .makeWitnessInput, [a, b] => makeWitnessInput E a b
  | .makeTx, [a, b, c, d, k1, k2, k3, k4, k5, k6, k7, k8, k9] => makeTx E a b c d ⟨k1, k2, k3, k4, k5, k6, k7, k8, k9⟩
  | .simpleOutput, [a, b] => simpleOutput E a b
  | .simpleOutpoint, [a, b, c] => simpleOutpoint E a b c
  | .simpleInput, [a, b] => simpleInput E a b
  | .simpleLegacyTx, [a, b, k1, k2, k3, k4, k5, k6] => simpleLegacyTx E a b ⟨k1, k2, k3, k4, k5, k6⟩
  | .simpleWitnessTx, [a, b, c, d] => simpleWitnessTx E a b c d
  | _, _ => .error .typeError

/-- Values that a program can write. `byteData b` is an object of `ByteData` or `VarInt`, which has no attributes that are objects; of a `VarInt` the bytes are a number's, but any are
allowed here. -/
inductive Lit where
  | none | int (n : Int) | str (s : PyStr) | bytes (b : Bytes) | bytearray (b : Bytes) | byteData (b : Bytes)

/-- The value. -/
def Lit.val : Lit → Val
  | .none => .none
  | .int n => .int n
  | .str s => .str s
  | .bytes b => .bytes b
  | .bytearray b => .bytearray b
  | .byteData b => .obj .other [] b

/-- What a program does next; numbers say which of the values it holds, the oldest being the first. -/
inductive Op where
  /-- `riemann.select_network(name)` -/
  | select (name : PyStr)
  | lit (l : Lit)
  | list (is : List Nat)
  | tuple (is : List Nat)
  /-- `x[k]`, of a list or tuple -/
  | elem (i k : Nat)
  /-- `x.name`, the `k`-th of the attributes of an object -/
  | attr (i k : Nat)
  | call (f : Fn) (is : List Nat)

/-- A program: the selected network (riemann/__init__.py:3), and the values that it holds. -/
structure Session where
  net : Network
  vals : List Val

/-- The value that an operation gives, if it does not raise. -/
def Session.give (H : Hashes) (s : Session) : Op → Option Val
  | .select _ => Option.none
  | .lit l => some l.val
  | .list is => (is.mapM (s.vals[·]?)).map .list
  | .tuple is => (is.mapM (s.vals[·]?)).map .tuple
  | .elem i k =>
    match s.vals[i]? with
    | some (.list l) => l[k]?
    | some (.tuple l) => l[k]?
    | _ => Option.none
  | .attr i k =>
    match s.vals[i]? with
    | some (.obj _ t _) => t[k]?
    | _ => Option.none
  | .call f is =>
    match is.mapM (s.vals[·]?) with
    | some args => (Dyn.call ⟨s.net, H⟩ f args).toOption
    | Option.none => Option.none

/-- One operation. -/
def Session.step (H : Hashes) (s : Session) (o : Op) : Session :=
  { net := match o with | .select name => (selectNetwork name s.net).2 | _ => s.net
    vals := s.vals ++ (s.give H o).toList }

/-- A program from its start (riemann/__init__.py:3). -/
def Session.run (H : Hashes) (ops : List Op) : Session := ops.foldl (Session.step H) ⟨initialNetwork, []⟩

end Dyn

end Verif
