import Verif.Props.DynDcrSighash
import Verif.Props.DynSession

/-! Property C128: at any point of any program, signing an object that it holds gives the digest of the transaction that the object's bytes are, on the network that is selected now.

`Session.run H ops` is a program after the operations `ops` (C125). An object that it holds can have been made, read or copied while other networks were selected. -/

namespace Verif.Props
open Verif Spec Dyn

/-- The environment of a program: the network that is selected now. -/
def now (H : Hashes) (ops : List Op) : Env := ⟨(Session.run H ops).net, H⟩

theorem run_snoc (H : Hashes) (ops : List Op) (o : Op) : Session.run H (ops ++ [o]) = (Session.run H ops).step H o := by
  simp [Session.run]

/-- C128, what "selected now" means: at the start it is Bitcoin; a program that selects a network of the library has it selected; a name that is none, and everything else that a program
does, leave the selected network as it is. -/
theorem C128_selected (H : Hashes) (ops : List Op) : (now H []).net = bitcoinMain ∧
    (∀ name n, (name, n) ∈ supported → (now H (ops ++ [.select name])).net = n) ∧
    (∀ name, (∀ n, (name, n) ∉ supported) → (now H (ops ++ [.select name])).net = (now H ops).net) ∧
    ∀ o, (∀ name, o ≠ .select name) → (now H (ops ++ [o])).net = (now H ops).net := by
  refine ⟨rfl, fun name n h => ?_, fun name h => ?_, fun o h => ?_⟩
  · show (Session.run H (ops ++ [.select name])).net = n
    rw [run_snoc]
    show (selectNetwork name _).2 = n
    rw [selectNetwork, (C33_lookup name n).2 h]
  · show (Session.run H (ops ++ [.select name])).net = _
    rw [run_snoc]
    show (selectNetwork name _).2 = _
    unfold selectNetwork
    cases hg : getNetwork name with
    | ok n => exact absurd ((C33_lookup name n).1 hg) (h n)
    | error e => rfl
  · show (Session.run H (ops ++ [o])).net = _
    rw [run_snoc]
    cases o with
    | select name => exact absurd rfl (h name)
    | _ => rfl

/-- C128 for a `Tx`: there are fields, whose bytes are those of the object, such that `sighash_all` and `sighash_single` with anything for arguments give a digest of these fields by the
rules of the selected network: with a fork id the digest of BIP143 with the fork id, without one that of BIP143 if there is a flag or witnesses, and else the one from before SegWit. -/
theorem C128_tx (H : Hashes) (ops : List Op) (v : Val) (h : v ∈ (Session.run H ops).vals) (hc : v.isInstance .tx = true) :
    ∃ w : WireTx, Loose w ∧ v.content = some w.bytes ∧ ∀ (index script value acp : Val) (a : Bool) (_ : a = true ↔ ¬ IsFalse acp) (single : Bool) (d : Val),
      (∀ k, (now H ops).net.forkid = some k → (Dyn.sighash single (now H ops) v index script value acp = .ok d ↔
        ∃ i inp j s x, PointsTo w index i inp ∧ (single = true → OutAt w index j) ∧ Byteslike script s ∧ Byteslike value x ∧ x.length = 8 ∧
          d = .bytes ((now H ops).hash256 (bip143 (now H ops).hash256 w.sig j (inp.txId ++ inp.index) inp.sequence s x (k * 256 + hashWord single a + 0x40))))) ∧
      ((now H ops).net.forkid = none → ¬ Plain v → (Dyn.sighash single (now H ops) v index script value acp = .ok d ↔
        ∃ i inp j s x, PointsTo w index i inp ∧ (single = true → OutAt w index j) ∧ Byteslike script s ∧ Byteslike value x ∧
          d = .bytes ((now H ops).hash256 (bip143 (now H ops).hash256 w.sig j (inp.txId ++ inp.index) inp.sequence s x (hashWord single a))))) ∧
      ((now H ops).net.forkid = none → Plain v → (Dyn.sighash single (now H ops) v index script value acp = .ok d ↔
        ∃ i inp j first tl p k, PointsTo w index i inp ∧ (single = true → OutAt w index j) ∧ Byteslike script (first :: tl) ∧
          readVarInt ((now H ops).net.isOverwinter || (now H ops).net.isSapling) first tl = some (p, k) ∧ ((first :: tl).drop p.length).length ≤ 1650 ∧
          d = .bytes ((now H ops).hash256 (legacyData w.sig single i (w.sig.outs.getD j []) ((first :: tl).drop p.length) (hashWord single a))))) := by
  obtain ⟨hn, hv⟩ := run_ok H ops
  have hm : MadeOn Network.Supported (now H ops) v := hv v h
  have hn : (now H ops).net.Supported := hn
  obtain ⟨t, ht⟩ := tx_twin (fun _ h => h) hn hm hc
  have hw := fieldsOf_loose ht.built
  have hb : v.content = some (fieldsOf t).bytes := by rw [fieldsOf_bytes hn ht.built]; exact ht.content
  exact ⟨fieldsOf t, hw, hb, fun index script value acp a ha single d =>
    ⟨fun k hf => C123_forkid (fun _ h => h) _ hn k hf v hm hc _ hw hb index script value acp a ha single d,
      fun hf hp => C123_witness (fun _ h => h) _ hn hf v hm hc hp _ hw hb index script value acp a ha single d,
      fun hf hp => C123_legacy (fun _ h => h) _ hn hf v hm hc hp _ hw hb index script value acp a ha single d⟩⟩

/-- C128 for an `OverwinterTx`. It can be signed on every network of Zcash, also on that of Sapling, and on no other network. -/
theorem C128_overwinter (H : Hashes) (ops : List Op) (v : Val) (h : v ∈ (Session.run H ops).vals) (hc : v.isInstance .overwinterTx = true) :
    ∃ w : ZTx, w.WF ∧ w.version = 3 ∧ v.content = some w.bytes ∧ ∀ (ty value script index js acp d : Val),
      Dyn.overSighash (now H ops) v ty value script index js acp = .ok d ↔ (now H ops).net.isZcash = true ∧ (IsFalse js ∨ IsFalse acp) ∧
        ∃ (n j : Nat) (a : Bool) (inp : Option ZInput), ty = .int n ∧ n < 2 ^ 32 ∧ (a = true ↔ ¬ IsFalse acp) ∧ (n = 3 → ∃ o, At w.outs index j o) ∧
          Signed w value script index js inp ∧ d = .bytes (if n = 1 ∨ n = 3 then sighash143 H.blake2b w.zsig j inp (zWord n a)
            else H.blake2b (persSigHash 0x5ba81b19) (oddPreimage143 H.blake2b w.zsig a inp (zWord n a))) := by
  obtain ⟨w, h1, h2, -, -, -, -, n, -, attrs, e, -⟩ := C125_overwinter H ops v h hc
  have hcon : v.content = some w.bytes := by rw [e]; rfl
  exact ⟨w, h2, h1, hcon, fun ty value script index js acp d => C124_overwinter _ v ((run_ok H ops).2 v h) hc w h2 h1 hcon ty value script index js acp d⟩

/-- C128 for a `SaplingTx`. -/
theorem C128_sapling (H : Hashes) (ops : List Op) (v : Val) (h : v ∈ (Session.run H ops).vals) (hc : v.isInstance .saplingTx = true) :
    ∃ w : ZTx, w.WF ∧ w.version = 4 ∧ v.content = some w.bytes ∧ ∀ (ty value script index js acp d : Val),
      Dyn.sapSighash (now H ops) v ty value index js script acp = .ok d ↔ (now H ops).net.isZcash = true ∧ (IsFalse js ∨ IsFalse acp) ∧
        ∃ (n j : Nat) (a : Bool) (inp : Option ZInput), ty = .int n ∧ n < 2 ^ 32 ∧ (a = true ↔ ¬ IsFalse acp) ∧ (n = 3 → ∃ o, At w.outs index j o) ∧
          Signed w value script index js inp ∧ d = .bytes (if n = 1 ∨ n = 3 then sighash243 H.blake2b w.zsig j inp (zWord n a)
            else H.blake2b (persSigHash 0x76b809bb) (oddPreimage243 H.blake2b w.zsig a inp (zWord n a))) := by
  obtain ⟨w, h1, h2, -, -, -, -, -, n, -, attrs, e, -⟩ := C125_sapling H ops v h hc
  have hcon : v.content = some w.bytes := by rw [e]; rfl
  exact ⟨w, h2, h1, hcon, fun ty value script index js acp d => C124_sapling _ v ((run_ok H ops).2 v h) hc w h2 h1 hcon ty value script index js acp d⟩

/-- C128 for a `SproutTx`: it can be signed on the networks of Sprout only. -/
theorem C128_sprout (H : Hashes) (ops : List Op) (v : Val) (h : v ∈ (Session.run H ops).vals) (hc : v.isInstance .sproutTx = true) :
    ∃ w : SproutWire, w.WF ∧ v.content = some w.bytes ∧ ∀ (index script acp d : Val),
      Dyn.sproutSighashAll (now H ops) v index script acp = .ok d ↔ ((now H ops).net.isZcash = true ∧ (now H ops).net.isSprout = true) ∧ IsFalse acp ∧
        (w.ins = [] ∧ d = .bytes ((now H ops).hash256 (w.unsigned [] ++ leBytes 4 1)) ∨
          ∃ i inp first tl p k, At w.ins index i inp ∧ Byteslike script (first :: tl) ∧
            readVarInt ((now H ops).net.isOverwinter || (now H ops).net.isSapling) first tl = some (p, k) ∧
            ((first :: tl).drop p.length).length ≤ 1650 ∧ (w.unsigned (w.blanked i ((first :: tl).drop p.length))).length ≤ 100000 ∧
            d = .bytes ((now H ops).hash256 (w.unsigned (w.blanked i ((first :: tl).drop p.length)) ++ leBytes 4 1))) := by
  obtain ⟨w, ⟨hw, hcon⟩, -⟩ := C126_fields _ v ((run_ok H ops).2 v h) hc
  exact ⟨w, hw, hcon, fun index script acp d => C126_all _ v ((run_ok H ops).2 v h) hc w hw hcon index script acp d⟩

/-- C128 for a `DecredTx`: it can be signed on the networks of Decred only. -/
theorem C128_decred (H : Hashes) (ops : List Op) (v : Val) (h : v ∈ (Session.run H ops).vals) (hc : v.isInstance .dcrTx = true) :
    ∃ w : DcrTx, DcrWidths w ∧ v.content = some w.bytes ∧ ∀ (index script acp d : Val),
      (Dyn.dcrSighashAll (now H ops).net v index script acp = .ok d ↔ (now H ops).net.isDecred = true ∧
        ∃ k u s a, At w.wits index k u ∧ ScriptArg script s ∧ (dcrPrepared w k s).bytes.length ≤ 100000 ∧ (a = false ↔ IsFalse acp) ∧
          d = .bytes (dcrDigest (dcrPrepared w k s) (hashWord false a))) ∧
      (Dyn.dcrSighashSingle (now H ops).net v index script acp = .ok d ↔ (now H ops).net.isDecred = true ∧
        ∃ k u s a i x j o, At w.wits index k u ∧ ScriptArg script s ∧ (dcrPrepared w k s).bytes.length ≤ 100000 ∧ (a = false ↔ IsFalse acp) ∧
          At w.ins index i x ∧ At w.outs index j o ∧ (dcrOne (dcrPrepared w k s) i o).bytes.length ≤ 100000 ∧
          d = .bytes (dcrDigest (dcrOne (dcrPrepared w k s) i o) (hashWord true a))) := by
  obtain ⟨w, ⟨hw, hcon⟩, -⟩ := C127_fields _ v ((run_ok H ops).2 v h) hc
  exact ⟨w, hw, hcon, fun index script acp d => ⟨C127_all _ v ((run_ok H ops).2 v h) hc w hw hcon index script acp d, C127_single _ v ((run_ok H ops).2 v h) hc w hw hcon index script acp d⟩⟩

/-- C128: which of the networks without a fork id is selected when a `Tx` is signed makes no difference, as long as the hash function and the rule for numbers are the same: the program
may select one or another (or a name that is none) before, and signs the same. So a signature for Bitcoin is one for Litecoin: nothing that is signed names the network. -/
theorem C128_replay (H : Hashes) (ops : List Op) (v : Val) (h : v ∈ (Session.run H ops).vals) (hc : v.isInstance .tx = true) (name name' : PyStr)
    (hf : (now H (ops ++ [.select name])).net.forkid = none) (hf' : (now H (ops ++ [.select name'])).net.forkid = none)
    (hd : (now H (ops ++ [.select name])).net.isDecred = (now H (ops ++ [.select name'])).net.isDecred)
    (hz : ((now H (ops ++ [.select name])).net.isOverwinter || (now H (ops ++ [.select name])).net.isSapling) =
      ((now H (ops ++ [.select name'])).net.isOverwinter || (now H (ops ++ [.select name'])).net.isSapling))
    (single : Bool) (index script value acp d : Val) :
    Dyn.sighash single (now H (ops ++ [.select name])) v index script value acp = .ok d ↔ Dyn.sighash single (now H (ops ++ [.select name'])) v index script value acp = .ok d := by
  have held : ∀ name, v ∈ (Session.run H (ops ++ [.select name])).vals := by
    intro name
    rw [run_snoc]
    exact List.mem_append_left _ h
  obtain ⟨w, hw, hb, h1⟩ := C128_tx H _ v (held name) hc
  obtain ⟨w', hw', hb', h1'⟩ := C128_tx H _ v (held name') hc
  obtain rfl : w = w' := WireTx.bytes_inj hw hw' (Option.some.inj (hb.symm.trans hb'))
  obtain ⟨-, h2, h3⟩ := h1 index script value acp acp.truthy (truthy_iff acp) single d
  obtain ⟨-, h2', h3'⟩ := h1' index script value acp acp.truthy (truthy_iff acp) single d
  have hh : (now H (ops ++ [.select name])).hash256 = (now H (ops ++ [.select name'])).hash256 := by
    funext b
    simp only [Env.hash256, hd]
    rfl
  by_cases hp : Plain v
  · rw [h3 hf hp, h3' hf' hp, hh, hz]
  · rw [h2 hf hp, h2' hf' hp, hh]

/-! ### cases -/

/-- What a program gets from signing the `i`-th of its values. -/
def signed (ops : List Op) (i : Nat) (f : Env → Val → Py Val) : Option Bool := ((Session.run toyEnv.H ops).vals[i]?).map fun v => (f (now toyEnv.H ops) v).isOk

/-- The transaction that `exSession` made on Bitcoin is signed on Litecoin, which is selected at the end. After Bitcoin Cash is selected there is no digest without a value, and there is
one with. -/
example : signed exSession 11 (fun E v => Dyn.sighash false E v (.int 0) (.bytes [1, 0x51]) .none (.int 0)) = some true ∧
    signed (exSession ++ [.select (pystr "bitcoin_cash_main")]) 11 (fun E v => Dyn.sighash false E v (.int 0) (.bytes [1, 0x51]) .none (.int 0)) = some false ∧
    signed (exSession ++ [.select (pystr "bitcoin_cash_main")]) 11 (fun E v => Dyn.sighash false E v (.int 0) (.bytes [1, 0x51]) (.bytes [0, 0, 0, 0, 0, 0, 0, 1]) (.int 0)) = some true ∧
    ((Session.run toyEnv.H exSession).vals[11]?.map (·.isInstance .tx)) = some true := by
  refine ⟨?_, ?_, ?_, ?_⟩ <;> decide +kernel

/-- An `OverwinterTx` is signed on the network of Sapling, but not on Bitcoin; a `SproutTx` not on the network of Sapling. -/
def pOver : List Op := exParts ++ [.select (pystr "zcash_overwinter_main"), .call (.init .overwinterTx) [8, 9, 2, 2, 10, 5, 5]]
def pSprout : List Op := exParts ++ [.select (pystr "zcash_sprout_main"), .lit (.bytes [1, 0, 0, 0]), .call (.init .sproutTx) [11, 8, 9, 2, 10, 5, 5]]

example : signed (pOver ++ [.select (pystr "zcash_sapling_main")]) 11 (fun E v => Dyn.overSighash E v (.int 1) (.bytes []) (.bytes [])) = some true ∧
    signed (pOver ++ [.select (pystr "bitcoin_main")]) 11 (fun E v => Dyn.overSighash E v (.int 1) (.bytes []) (.bytes [])) = some false ∧
    signed pSprout 12 (fun E v => Dyn.sproutSighashAll E v (.int 0) (.bytes [1, 0x51])) = some true ∧
    signed (pSprout ++ [.select (pystr "zcash_sapling_main")]) 12 (fun E v => Dyn.sproutSighashAll E v (.int 0) (.bytes [1, 0x51])) = some false ∧
    ((Session.run toyEnv.H pOver).vals[11]?.map (·.isInstance .overwinterTx)) = some true ∧ ((Session.run toyEnv.H pSprout).vals[12]?.map (·.isInstance .sproutTx)) = some true := by
  refine ⟨?_, ?_, ?_, ?_, ?_, ?_⟩ <;> decide +kernel

/-- A `SaplingTx`, signed on the test network. -/
def pSap : List Op := exParts ++ [.select (pystr "zcash_sapling_main"), .call (.init .saplingTx) [8, 9, 2, 2, 3, 10, 10, 10, 5, 5, 5], .select (pystr "zcash_sapling_test")]

example : signed pSap 11 (fun E v => Dyn.sapSighash E v (.int 1) (.bytes []) (.int 0) (.int 0) (.bytes [])) = some true ∧
    ((Session.run toyEnv.H pSap).vals[11]?.map (·.isInstance .saplingTx)) = some true := by
  refine ⟨?_, ?_⟩ <;> decide +kernel

/-- A `DecredTx` with a witness. -/
def pDcr : List Op := exParts ++ [.select (pystr "decred_main"), .lit (.bytearray (List.replicate 37 9)), .call (.fromBytes .dcrOutpoint) [11], .call (.init .dcrTxIn) [12, 2],
  .lit (.bytes [0, 0]), .call .makeOutput [3, 1, 14], .tuple [13], .list [15], .call (.init .dcrWitness) [3, 2, 2, 1, 1], .list [18], .call (.init .dcrTx) [6, 16, 17, 2, 2, 19]]

example : signed (pDcr ++ [.select (pystr "decred_test")]) 20 (fun E v => Dyn.dcrSighashAll E.net v (.int 0)) = some true ∧
    signed (pDcr ++ [.select (pystr "bitcoin_main")]) 20 (fun E v => Dyn.dcrSighashAll E.net v (.int 0)) = some false ∧
    ((Session.run toyEnv.H pDcr).vals[20]?.map (·.isInstance .dcrTx)) = some true := by
  refine ⟨?_, ?_, ?_⟩ <;> decide +kernel

/-- Bitcoin and Litecoin are two such networks. -/
example : (now toyEnv.H (exSession ++ [.select (pystr "bitcoin_main")])).net = bitcoinMain ∧ (now toyEnv.H (exSession ++ [.select (pystr "litecoin_main")])).net = litecoinMain ∧
    bitcoinMain.forkid = none ∧ litecoinMain.forkid = none ∧ bitcoinMain.isDecred = litecoinMain.isDecred ∧
    (bitcoinMain.isOverwinter || bitcoinMain.isSapling) = (litecoinMain.isOverwinter || litecoinMain.isSapling) := by
  refine ⟨?_, ?_, ?_, ?_, ?_, ?_⟩ <;> decide +kernel

end Verif.Props
