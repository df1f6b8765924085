import Verif.Model.DynDecred

/-! # `copy` on arguments of any type

The same values and simplifications as in `Model/Dyn.lean`. `self` is an object of the class; of a value that is none the method is missing. -/

namespace Verif

namespace Dyn
open Val

/-- `arg if arg is not None else self.attr`. -/
def keep (arg attr : Val) : Val :=
  match arg with
  | .none => attr
  | v => v

/-- tx/tx.py:44-52, `Outpoint.copy`. -/
def copyOutpoint (self txId index : Val) : Py Val :=
  match self with
  | .obj .outpoint [a, b] _ => outpoint (keep txId a) (keep index b)
  | _ => .error .attributeError

/-- tx/tx.py:143-157, `TxIn.copy`. -/
def copyTxIn (self outpoint stackScript redeemScript sequence : Val) : Py Val :=
  match self with
  | .obj .txIn [a, b, c, _, d] _ => txIn (keep outpoint a) (keep stackScript b) (keep redeemScript c) (keep sequence d)
  | _ => .error .attributeError

/-- tx/tx.py:260-269, `TxOut.copy`. -/
def copyTxOut (self value outputScript : Val) : Py Val :=
  match self with
  | .obj .txOut [a, b] _ => txOut (keep value a) (keep outputScript b)
  | _ => .error .attributeError

/-- tx/tx.py:371-377, `InputWitness.copy`. -/
def copyWitness (self stack : Val) : Py Val :=
  match self with
  | .obj .witness [a] _ => witness (keep stack a)
  | _ => .error .attributeError

/-- tx/tx.py:648-665, `Tx.copy`. -/
def copyTx (E : Env) (self version flag txIns txOuts txWitnesses lockTime : Val) : Py Val :=
  match self with
  | .obj .tx [a, b, c, d, e, f, _, _, _, _] _ =>
    tx E (keep version a) (keep flag b) (keep txIns c) (keep txOuts d) (keep txWitnesses e) (keep lockTime f)
  | _ => .error .attributeError

/-- tx/decred.py:41-48, `DecredOutpoint.copy`. -/
def copyDcrOutpoint (net : Network) (self txId index tree : Val) : Py Val :=
  match self with
  | .obj .dcrOutpoint [a, b, c] _ => dcrOutpoint net (keep txId a) (keep index b) (keep tree c)
  | _ => .error .attributeError

/-- tx/decred.py:77-82, `DecredTxIn.copy`. -/
def copyDcrTxIn (net : Network) (self outpoint sequence : Val) : Py Val :=
  match self with
  | .obj .dcrTxIn [a, b] _ => dcrTxIn net (keep outpoint a) (keep sequence b)
  | _ => .error .attributeError

/-- tx/decred.py:116-124, `DecredTxOut.copy`. -/
def copyDcrTxOut (net : Network) (self value version outputScript : Val) : Py Val :=
  match self with
  | .obj .dcrTxOut [a, b, _, c] _ => dcrTxOut net (keep value a) (keep version b) (keep outputScript c)
  | _ => .error .attributeError

/-- tx/decred.py:180-193, `DecredInputWitness.copy`. -/
def copyDcrWitness (net : Network) (self value height index stackScript redeemScript : Val) : Py Val :=
  match self with
  | .obj .dcrWitness [a, b, c, _, d, e, _] _ =>
    dcrWitness net (keep value a) (keep height b) (keep index c) (keep stackScript d) (keep redeemScript e)
  | _ => .error .attributeError

/-- tx/decred.py:330-340, `DecredTx.copy`. -/
def copyDcrTx (net : Network) (self version txIns txOuts lockTime expiry txWitnesses : Val) : Py Val :=
  match self with
  | .obj .dcrTx [a, b, c, d, e, f, _, _] _ =>
    dcrTx net (keep version a) (keep txIns b) (keep txOuts c) (keep lockTime d) (keep expiry e) (keep txWitnesses f)
  | _ => .error .attributeError

/-- tx/sprout.py:219-243, `SproutTx.copy`. -/
def copySprout (E : Env) (self version txIns txOuts lockTime txJoinsplits joinsplitPubkey joinsplitSig : Val) : Py Val :=
  match self with
  | .obj .sproutTx [a, b, c, e, d, f, g, _, _, _, _] _ =>
    sproutTx E (keep version a) (keep txIns b) (keep txOuts c) (keep lockTime d) (keep txJoinsplits e) (keep joinsplitPubkey f) (keep joinsplitSig g)
  | _ => .error .attributeError

/-- tx/overwinter.py:142-167, `OverwinterTx.copy`. -/
def copyOverwinter (E : Env) (self txIns txOuts lockTime expiryHeight txJoinsplits joinsplitPubkey joinsplitSig : Val) : Py Val :=
  match self with
  | .obj .overwinterTx [a, b, c, d, e, f, g, _, _, _, _] _ =>
    overwinterTx E (keep txIns a) (keep txOuts b) (keep lockTime c) (keep expiryHeight d) (keep txJoinsplits e) (keep joinsplitPubkey f) (keep joinsplitSig g)
  | _ => .error .attributeError

/-- tx/sapling.py:430-471, `SaplingTx.copy`. -/
def copySapling (E : Env) (self txIns txOuts lockTime expiryHeight valueBalance txShieldedSpends txShieldedOutputs txJoinsplits joinsplitPubkey joinsplitSig
    bindingSig : Val) : Py Val :=
  match self with
  | .obj .saplingTx [k, a, b, c, d, e, f, g, h, i, j, _, _, _, _] _ =>
    saplingTx E (keep txIns a) (keep txOuts b) (keep lockTime c) (keep expiryHeight d) (keep valueBalance e) (keep txShieldedSpends f)
      (keep txShieldedOutputs g) (keep txJoinsplits h) (keep joinsplitPubkey i) (keep joinsplitSig j) (keep bindingSig k)
  | _ => .error .attributeError

end Dyn

end Verif
