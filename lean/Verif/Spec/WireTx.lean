import Verif.Spec.Wire

/-! Specification of a transaction as a record of plain fields, and of its bytes on the wire. Independent of the model: nothing here
knows about the classes of the library. -/

namespace Verif.Spec

/-- An input of a transaction. -/
structure WireIn where
  txId : Bytes
  index : Bytes
  script : Bytes
  sequence : Bytes
  deriving DecidableEq, Repr

/-- An output of a transaction. -/
structure WireOut where
  value : Bytes
  script : Bytes
  deriving DecidableEq, Repr

/-- A transaction: legacy when there is no witness field, BIP144 otherwise. -/
structure WireTx where
  version : Bytes
  ins : List WireIn
  outs : List WireOut
  wits : Option (List (List Bytes))
  lockTime : Bytes
  deriving DecidableEq, Repr

def WireIn.bytes (i : WireIn) : Bytes := wireIn i.txId i.index i.script i.sequence
def WireOut.bytes (o : WireOut) : Bytes := wireOut o.value o.script

/-- The bytes that are sent over the network. -/
def WireTx.bytes (w : WireTx) : Bytes :=
  match w.wits with
  | none => wireLegacy w.version (w.ins.map WireIn.bytes) (w.outs.map WireOut.bytes) w.lockTime
  | some ws => wireSegwit w.version (w.ins.map WireIn.bytes) (w.outs.map WireOut.bytes) (ws.map wireWitness) w.lockTime

/-- The bytes whose hash is the transaction id. -/
def WireTx.stripped (w : WireTx) : Bytes :=
  wireLegacy w.version (w.ins.map WireIn.bytes) (w.outs.map WireOut.bytes) w.lockTime

/-- Fixed-width fields have their widths, lengths fit in 64 bits. -/
structure WireIn.WF (i : WireIn) : Prop where
  txId : i.txId.length = 32
  index : i.index.length = 4
  sequence : i.sequence.length = 4
  script : i.script.length < 2 ^ 64

structure WireOut.WF (o : WireOut) : Prop where
  value : o.value.length = 8
  script : o.script.length < 2 ^ 64

/-- A stack of witness items whose lengths fit in 64 bits. -/
def WitWF (w : List Bytes) : Prop := w.length < 2 ^ 64 ∧ ∀ i ∈ w, i.length < 2 ^ 64

/-- A well-formed transaction: it has inputs and outputs, and in BIP144 format a witness for each input. -/
structure WireTx.WF (w : WireTx) : Prop where
  version : w.version.length = 4
  lockTime : w.lockTime.length = 4
  ins : w.ins ≠ [] ∧ w.ins.length < 2 ^ 64 ∧ ∀ i ∈ w.ins, i.WF
  outs : w.outs ≠ [] ∧ w.outs.length < 2 ^ 64 ∧ ∀ o ∈ w.outs, o.WF
  wits : ∀ ws, w.wits = some ws → ws.length = w.ins.length ∧ ∀ s ∈ ws, WitWF s

end Verif.Spec
