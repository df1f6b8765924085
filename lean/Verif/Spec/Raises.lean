import Verif.Model.DynApi

/-! # Which exceptions a function of the library may raise -/

namespace Verif

namespace Spec
open Dyn

/-- How many arguments the constructor takes. -/
def initArity : Cls → Nat
  | .outpoint => 2 | .txIn => 4 | .txOut => 2 | .item => 1 | .witness => 1 | .tx => 6
  | .sproutProof => 8 | .sproutJs => 10 | .saplingProof => 3 | .saplingSpend => 6 | .saplingOutput => 6 | .saplingJs => 10
  | .sproutTx => 7 | .overwinterTx => 7 | .saplingTx => 11
  | .dcrOutpoint => 3 | .dcrTxIn => 2 | .dcrTxOut => 3 | .dcrWitness => 5 | .dcrTx => 6
  | .other => 0

/-- How many arguments the function takes; of `copy`, see `C131_copy`. -/
def arity : Fn → Nat
  | .init c => initArity c
  | .fromBytes _ | .fromHex _ => 1
  | .copy => 0
  | .makeOutput | .makeShOutput | .makePkhOutput | .makeOutpoint | .simpleOutpoint => 3
  | .makeOpReturnOutput | .makeWitness => 1
  | .makeDecredInput | .makeWitnessInput | .simpleOutput | .simpleInput => 2
  | .makeLegacyInput | .simpleWitnessTx => 4
  | .makeTx => 13
  | .simpleLegacyTx => 8

/-- The exceptions of a constructor: a ValueError; a TypeError of those that take sequences (or scripts to be joined); an AttributeError of `Tx` (its flag). -/
def initExcs : Cls → List PyErr
  | .outpoint | .txOut | .item | .sproutProof | .saplingProof | .saplingSpend | .saplingOutput | .dcrOutpoint | .dcrTxIn | .dcrTxOut => [.valueError]
  | .txIn | .witness | .sproutJs | .saplingJs | .sproutTx | .overwinterTx | .saplingTx | .dcrWitness | .dcrTx => [.valueError, .typeError]
  | .tx => [.valueError, .typeError, .attributeError]
  | .other => []

/-- The exceptions of `from_bytes`. The IndexError is that of the numbers of elements, the NotImplementedError that of long scripts; AttributeError and UnboundLocalError
(`exception`) are raised for lists and tuples. -/
def readExcs : Cls → List PyErr
  | .outpoint | .sproutProof | .saplingProof | .sproutJs | .saplingJs | .saplingSpend | .saplingOutput | .dcrOutpoint | .dcrTxIn => [.valueError, .typeError]
  | .txIn => [.valueError, .typeError, .indexError]
  | .item | .witness => [.valueError, .typeError, .indexError, .attributeError, .exception]
  | .txOut | .tx | .sproutTx | .dcrTxOut => [.valueError, .typeError, .indexError, .attributeError, .exception, .notImplementedError]
  | .overwinterTx | .saplingTx => [.valueError, .typeError, .indexError, .attributeError, .notImplementedError]
  | .dcrWitness | .dcrTx => [.notImplementedError]
  | .other => [.typeError]

/-- The exceptions of `from_hex`: of what is not a string a TypeError, of what is not hex a ValueError, and what `from_bytes` raises for bytes. -/
def hexExcs : Cls → List PyErr
  | .outpoint | .sproutProof | .saplingProof | .sproutJs | .saplingJs | .saplingSpend | .saplingOutput | .dcrOutpoint | .dcrTxIn | .other => [.valueError, .typeError]
  | .txIn | .item | .witness => [.valueError, .typeError, .indexError]
  | .txOut | .tx | .sproutTx | .overwinterTx | .saplingTx | .dcrTxOut => [.valueError, .typeError, .indexError, .notImplementedError]
  | .dcrWitness | .dcrTx => [.valueError, .typeError, .notImplementedError]

/-- The exceptions of a function. OverflowError and AttributeError of the builders are those of the numbers they take. -/
def excs : Fn → List PyErr
  | .init c => initExcs c
  | .fromBytes c => readExcs c
  | .fromHex c => hexExcs c
  | .copy => []
  | .makeOutput => [.valueError]
  | .makeOpReturnOutput | .makeWitness => [.valueError, .typeError]
  | .makeShOutput => [.valueError, .typeError, .attributeError, .overflowError, .notImplementedError]
  | .makePkhOutput | .makeOutpoint | .makeDecredInput | .makeLegacyInput | .makeWitnessInput | .makeTx
  | .simpleOutput | .simpleOutpoint | .simpleInput | .simpleLegacyTx | .simpleWitnessTx => [.valueError, .typeError, .attributeError, .overflowError]

/-- The class has a method `copy` with the arguments of its constructor. -/
def HasCopy : Cls → Bool
  | .outpoint | .txIn | .txOut | .witness | .tx | .sproutTx | .overwinterTx | .saplingTx | .dcrOutpoint | .dcrTxIn | .dcrTxOut | .dcrWitness | .dcrTx => true
  | _ => false

end Spec

end Verif
