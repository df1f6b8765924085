import Verif.Model.DynDecred
import Verif.Model.Sapling

/-! # The objects of the model with types as Python values

The attributes are in the order of the constructors in `Model/Dyn`, `Model/DynZcash` and `Model/DynDecred`. -/

namespace Verif

/-- The attributes of an `Outpoint` as its constructor assigns them (tx/tx.py:39-40), and its bytes. -/
def embO (o : Outpoint) : Val := .obj .outpoint [.bytes o.txId, .bytes o.index] o.bytes

/-- The attributes of a `TxIn` as its constructor assigns them (tx/tx.py:135-139), and its bytes. -/
def embIn (t : TxIn) : Val := .obj .txIn [embO t.outpoint, .bytes t.stackScript, .bytes t.redeemScript, .bytes t.scriptSig, .bytes t.sequence] t.bytes

/-- The attributes of a `TxOut` as its constructor assigns them (tx/tx.py:255-256), and its bytes. -/
def embOut (o : TxOut) : Val := .obj .txOut [.bytes o.value, .bytes o.outputScript] o.bytes

/-- The attributes of a `WitnessStackItem` as its constructor assigns them (tx/tx.py:308), and its bytes. -/
def embItem (i : WitnessStackItem) : Val := .obj .item [.bytes i.item] i.bytes

/-- The attributes of an `InputWitness` as its constructor assigns them (tx/tx.py:353), and its bytes. -/
def embWit (w : InputWitness) : Val := .obj .witness [.tuple (w.stack.map embItem)] w.bytes

/-- Bytes or None. -/
def embOpt (b : Option Bytes) : Val := b.elim .none .bytes

/-- A tuple of witnesses or None. -/
def embWits (w : Option (List InputWitness)) : Val := w.elim .none fun l => .tuple (l.map embWit)

/-- The attributes of a `Tx` as its constructor assigns them (tx/tx.py:524-543; `wtx_id_le` is None here if it is not set), and its bytes. -/
def embTx (t : Tx) : Val :=
  .obj .tx [.bytes t.version, embOpt t.flag, .tuple (t.txIns.map embIn), .tuple (t.txOuts.map embOut), embWits t.txWitnesses, .bytes t.lockTime, .bytes t.txIdLe,
    embOpt t.wtxIdLe, .bytes t.txId, embOpt t.wtxId] t.bytes

/-- The attributes of a `SproutZkproof` as its constructor assigns them (tx/zcash_shared.py:55-62), and its bytes. -/
def embSproutProof (p : SproutZkproof) : Val :=
  .obj .sproutProof [.bytes p.piSubA, .bytes p.piPrimeSubA, .bytes p.piSubB, .bytes p.piPrimeSubB, .bytes p.piSubC, .bytes p.piPrimeSubC, .bytes p.piSubK, .bytes p.piSubH] p.bytes

/-- The attributes of a `SaplingZkproof` as its constructor assigns them (tx/sapling.py:27-29), and its bytes. -/
def embSapProof (p : SaplingZkproof) : Val := .obj .saplingProof [.bytes p.piSubA, .bytes p.piSubB, .bytes p.piSubC] p.bytes

/-- The attributes of a `SproutJoinsplit` as its constructor assigns them (tx/zcash_shared.py:134-143), and its bytes. -/
def embSproutJs (j : SproutJoinsplit) : Val :=
  .obj .sproutJs [.bytes j.vpubOld, .bytes j.vpubNew, .bytes j.anchor, .bytes j.nullifiers, .bytes j.commitments, .bytes j.ephemeralKey, .bytes j.randomSeed, .bytes j.vmacs,
    embSproutProof j.zkproof, .bytes j.encodedNotes] j.bytes

/-- The attributes of a `SaplingJoinsplit` as its constructor assigns them (tx/sapling.py:212-221), and its bytes. -/
def embSapJs (j : SaplingJoinsplit) : Val :=
  .obj .saplingJs [.bytes j.vpubOld, .bytes j.vpubNew, .bytes j.anchor, .bytes j.nullifiers, .bytes j.commitments, .bytes j.ephemeralKey, .bytes j.randomSeed, .bytes j.vmacs,
    embSapProof j.zkproof, .bytes j.encodedNotes] j.bytes

/-- The attributes of a `SaplingShieldedSpend` as its constructor assigns them (tx/sapling.py:77-82), and its bytes. -/
def embSpend (s : SaplingShieldedSpend) : Val :=
  .obj .saplingSpend [.bytes s.cv, .bytes s.anchor, .bytes s.nullifier, .bytes s.rk, embSapProof s.zkproof, .bytes s.spendAuthSig] s.bytes

/-- The attributes of a `SaplingShieldedOutput` as its constructor assigns them (tx/sapling.py:134-139), and its bytes. -/
def embOutput (s : SaplingShieldedOutput) : Val :=
  .obj .saplingOutput [.bytes s.cv, .bytes s.cmu, .bytes s.ephemeralKey, .bytes s.encCiphertext, .bytes s.outCiphertext, embSapProof s.zkproof] s.bytes

/-- A tuple of bytes. -/
def embBs (l : List Bytes) : Val := .tuple (l.map .bytes)

/-- The attributes of an `OverwinterTx` as its constructor assigns them (tx/overwinter.py:97-122), and its bytes. -/
def embOver (t : OverwinterTx) : Val :=
  .obj .overwinterTx [.tuple (t.txIns.map embIn), .tuple (t.txOuts.map embOut), .bytes t.lockTime, .bytes t.expiryHeight, .tuple (t.txJoinsplits.map embSproutJs),
    embOpt t.joinsplitPubkey, embOpt t.joinsplitSig, embBs t.hsigs, embBs t.primaryInputs, .bytes t.txIdLe, .bytes t.txId] t.bytes

/-- The attributes of a `SproutTx` as its constructor assigns them (tx/sprout.py:96-117), and its bytes. -/
def embSprout (t : SproutTx) : Val :=
  .obj .sproutTx [.bytes t.version, .tuple (t.txIns.map embIn), .tuple (t.txOuts.map embOut), .tuple (t.txJoinsplits.map embSproutJs), .bytes t.lockTime,
    embOpt t.joinsplitPubkey, embOpt t.joinsplitSig, embBs t.hsigs, embBs t.primaryInputs, .bytes t.txIdLe, .bytes t.txId] t.bytes

/-- The attributes of a `SaplingTx` as its constructor assigns them (tx/sapling.py:370-409), and its bytes. -/
def embSap (t : SaplingTx) : Val :=
  .obj .saplingTx [embOpt t.bindingSig, .tuple (t.txIns.map embIn), .tuple (t.txOuts.map embOut), .bytes t.lockTime, .bytes t.expiryHeight, .bytes t.valueBalance,
    .tuple (t.txShieldedSpends.map embSpend), .tuple (t.txShieldedOutputs.map embOutput), .tuple (t.txJoinsplits.map embSapJs),
    embOpt t.joinsplitPubkey, embOpt t.joinsplitSig, embBs t.hsigs, embBs t.primaryInputs, .bytes t.txIdLe, .bytes t.txId] t.bytes

/-- The attributes of a `DecredOutpoint` as its constructor assigns them (tx/decred.py:35-37), and its bytes. -/
def embDcrO (o : DecredOutpoint) : Val := .obj .dcrOutpoint [.bytes o.txId, .bytes o.index, .bytes o.tree] o.bytes

/-- The attributes of a `DecredTxIn` as its constructor assigns them (tx/decred.py:72-73), and its bytes. -/
def embDcrIn (t : DecredTxIn) : Val := .obj .dcrTxIn [embDcrO t.outpoint, .bytes t.sequence] t.bytes

/-- The attributes of a `DecredTxOut` as its constructor assigns them (tx/decred.py:109-112), and its bytes. -/
def embDcrOut (o : DecredTxOut) : Val := .obj .dcrTxOut [.bytes o.value, .bytes o.version, .int o.outputScriptLen, .bytes o.outputScript] o.bytes

/-- The attributes of a `DecredInputWitness` as its constructor assigns them (tx/decred.py:170-176), and its bytes. -/
def embDcrWit (w : DecredInputWitness) : Val :=
  .obj .dcrWitness [.bytes w.value, .bytes w.height, .bytes w.index, .int w.scriptLen, .bytes w.stackScript, .bytes w.redeemScript, .bytes w.scriptSig] w.bytes

/-- A `DecredTx` (tx/decred.py:253-267) keeps the sequences it is given. -/
def embDcrTx (si so sw : Val) (t : DecredTx) : Val :=
  .obj .dcrTx [.bytes t.version, si, so, .bytes t.lockTime, .bytes t.expiry, sw, .bytes t.txIdLe, .bytes t.txId] t.bytes

end Verif
