import Verif.Props.DynSessionSighash
import Verif.Props.DynSend

/-! Property C134: a transaction is signed by another program as by the one that made it. -/

namespace Verif.Props
open Verif Spec Dyn

/-- C134: two programs, whatever they did, hold transactions with the same bytes (one may have made it, and sent it to the other), and the same network is selected. Then signing gives
the same digests, for arguments of all types, on networks with a fork id; on others as well, if both or neither have a flag or witnesses. -/
theorem C134_tx (H : Hashes) (ops ops' : List Op) (v v' : Val) (h : v ∈ (Session.run H ops).vals) (h' : v' ∈ (Session.run H ops').vals)
    (hc : v.isInstance .tx = true) (hc' : v'.isInstance .tx = true) (he : v'.content = v.content) (hnet : (now H ops').net = (now H ops).net)
    (hp : (now H ops).net.forkid ≠ none ∨ (Plain v ↔ Plain v')) (single : Bool) (index script value acp d : Val) :
    Dyn.sighash single (now H ops') v' index script value acp = .ok d ↔ Dyn.sighash single (now H ops) v index script value acp = .ok d := by
  obtain ⟨w, hw, hb, h1⟩ := C128_tx H _ v h hc
  obtain ⟨w', hw', hb', h1'⟩ := C128_tx H _ v' h' hc'
  obtain rfl : w = w' := WireTx.bytes_inj hw hw' (Option.some.inj (hb.symm.trans (he.symm.trans hb')))
  obtain ⟨h2, h3, h4⟩ := h1 index script value acp acp.truthy (truthy_iff acp) single d
  obtain ⟨h2', h3', h4'⟩ := h1' index script value acp acp.truthy (truthy_iff acp) single d
  have hE : now H ops' = now H ops := congrArg (fun n => Env.mk n H) hnet
  rw [hE] at h2' h3' h4' ⊢
  cases hf : (now H ops).net.forkid with
  | some k => rw [h2 k hf, h2' k hf]
  | none =>
    have hp := hp.resolve_left (fun c => c hf)
    by_cases c : Plain v
    · rw [h4 hf c, h4' hf (hp.1 c)]
    · rw [h3 hf c, h3' hf (fun c' => c (hp.2 c'))]

/-- C134 for `OverwinterTx`: any networks of Zcash will do. -/
theorem C134_overwinter (H : Hashes) (ops ops' : List Op) (v v' : Val) (h : v ∈ (Session.run H ops).vals) (h' : v' ∈ (Session.run H ops').vals)
    (hc : v.isInstance .overwinterTx = true) (hc' : v'.isInstance .overwinterTx = true) (he : v'.content = v.content)
    (hnet : (now H ops').net.isZcash = (now H ops).net.isZcash) (ty value script index js acp d : Val) :
    Dyn.overSighash (now H ops') v' ty value script index js acp = .ok d ↔ Dyn.overSighash (now H ops) v ty value script index js acp = .ok d := by
  obtain ⟨w, hw, hv, hb, h1⟩ := C128_overwinter H _ v h hc
  have hm : MadeOn Network.Supported (now H ops') v' := (run_ok H ops').2 v' h'
  rw [h1, C124_overwinter (now H ops') v' hm hc' w hw hv (he.trans hb), hnet]
  rfl

/-- C134 for `SaplingTx`. -/
theorem C134_sapling (H : Hashes) (ops ops' : List Op) (v v' : Val) (h : v ∈ (Session.run H ops).vals) (h' : v' ∈ (Session.run H ops').vals)
    (hc : v.isInstance .saplingTx = true) (hc' : v'.isInstance .saplingTx = true) (he : v'.content = v.content)
    (hnet : (now H ops').net.isZcash = (now H ops).net.isZcash) (ty value script index js acp d : Val) :
    Dyn.sapSighash (now H ops') v' ty value index js script acp = .ok d ↔ Dyn.sapSighash (now H ops) v ty value index js script acp = .ok d := by
  obtain ⟨w, hw, hv, hb, h1⟩ := C128_sapling H _ v h hc
  have hm : MadeOn Network.Supported (now H ops') v' := (run_ok H ops').2 v' h'
  rw [h1, C124_sapling (now H ops') v' hm hc' w hw hv (he.trans hb), hnet]
  rfl

/-- C134 for `SproutTx` (`sighash_single` is always refused, C126). -/
theorem C134_sprout (H : Hashes) (ops ops' : List Op) (v v' : Val) (h : v ∈ (Session.run H ops).vals) (h' : v' ∈ (Session.run H ops').vals)
    (hc : v.isInstance .sproutTx = true) (hc' : v'.isInstance .sproutTx = true) (he : v'.content = v.content)
    (hnet : (now H ops').net = (now H ops).net) (index script acp d : Val) :
    Dyn.sproutSighashAll (now H ops') v' index script acp = .ok d ↔ Dyn.sproutSighashAll (now H ops) v index script acp = .ok d := by
  obtain ⟨w, hw, hb, h1⟩ := C128_sprout H _ v h hc
  have hE : now H ops' = now H ops := congrArg (fun n => Env.mk n H) hnet
  have hm : MadeOn Network.Supported (now H ops') v' := (run_ok H ops').2 v' h'
  rw [h1, C126_all (now H ops') v' hm hc' w hw (he.trans hb), hE]

/-- C134 for `DecredTx`. -/
theorem C134_decred (H : Hashes) (ops ops' : List Op) (v v' : Val) (h : v ∈ (Session.run H ops).vals) (h' : v' ∈ (Session.run H ops').vals)
    (hc : v.isInstance .dcrTx = true) (hc' : v'.isInstance .dcrTx = true) (he : v'.content = v.content)
    (hnet : (now H ops').net.isDecred = (now H ops).net.isDecred) (index script acp d : Val) :
    (Dyn.dcrSighashAll (now H ops').net v' index script acp = .ok d ↔ Dyn.dcrSighashAll (now H ops).net v index script acp = .ok d) ∧
    (Dyn.dcrSighashSingle (now H ops').net v' index script acp = .ok d ↔ Dyn.dcrSighashSingle (now H ops).net v index script acp = .ok d) := by
  obtain ⟨w, hw, hb, h1⟩ := C128_decred H _ v h hc
  have hm : MadeOn Network.Supported (now H ops') v' := (run_ok H ops').2 v' h'
  obtain ⟨h2, h3⟩ := h1 index script acp d
  have g2 := C127_all (now H ops') v' hm hc' w hw (he.trans hb) index script acp d
  have g3 := C127_single (now H ops') v' hm hc' w hw (he.trans hb) index script acp d
  exact ⟨by rw [g2, h2, hnet], by rw [g3, h3, hnet]⟩

theorem tx_not_plain {E : Env} {version flag txIns txOuts lockTime v : Val} {l : List Val} (h : Dyn.tx E version flag txIns txOuts (.list l) lockTime = .ok v) : ¬ Plain v := by
  unfold Dyn.tx at h
  obtain ⟨_, _, h⟩ := bind_ok_iff.1 h
  obtain ⟨_, _, h⟩ := bind_ok_iff.1 h
  obtain ⟨_, _, h⟩ := bind_ok_iff.1 h
  obtain ⟨_, _, h⟩ := bind_ok_iff.1 h
  obtain ⟨_, _, h⟩ := bind_ok_iff.1 h
  obtain ⟨_, _, h⟩ := bind_ok_iff.1 h
  obtain ⟨_, _, h⟩ := bind_ok_iff.1 h
  obtain ⟨_, _, h⟩ := bind_ok_iff.1 h
  obtain ⟨_, _, h⟩ := bind_ok_iff.1 h
  obtain ⟨_, _, h⟩ := bind_ok_iff.1 h
  obtain ⟨_, _, h⟩ := bind_ok_iff.1 h
  obtain ⟨_, _, h⟩ := bind_ok_iff.1 h
  obtain ⟨_, _, h⟩ := bind_ok_iff.1 h
  obtain ⟨_, _, h⟩ := bind_ok_iff.1 h
  obtain ⟨_, _, h⟩ := bind_ok_iff.1 h
  obtain ⟨_, _, h⟩ := bind_ok_iff.1 h
  obtain ⟨_, _, h⟩ := bind_ok_iff.1 h
  obtain ⟨⟨self, wits⟩, hw, h⟩ := bind_ok_iff.1 h
  obtain ⟨_, _, h⟩ := bind_ok_iff.1 h
  have ht : ∃ ws, wits = Val.tuple ws := by
    unfold addWitnesses at hw
    obtain ⟨ws, _, hw⟩ := bind_ok_iff.1 hw
    obtain ⟨_, _, hw⟩ := bind_ok_iff.1 hw
    injection hw with hw
    exact ⟨ws, (congrArg Prod.snd hw).symm⟩
  obtain ⟨ws, rfl⟩ := ht
  rintro ⟨attrs, b, rfl, -, h4⟩
  dsimp only at h
  split at h
  · injection h with h
    injection h with _ h _
    subst h
    exact nomatch h4
  · obtain ⟨_, _, h⟩ := bind_ok_iff.1 h
    injection h with h
    injection h with _ h _
    subst h
    exact nomatch h4

theorem readTx_not_plain {E : Env} {x v : Val} (h : readTx E x = .ok v) : ¬ Plain v := by
  unfold readTx at h
  obtain ⟨_, _, h⟩ := bind_ok_iff.1 h
  obtain ⟨_, _, h⟩ := bind_ok_iff.1 h
  obtain ⟨_, _, h⟩ := bind_ok_iff.1 h
  obtain ⟨_, _, h⟩ := bind_ok_iff.1 h
  obtain ⟨_, _, h⟩ := bind_ok_iff.1 h
  obtain ⟨_, _, h⟩ := bind_ok_iff.1 h
  obtain ⟨_, _, h⟩ := bind_ok_iff.1 h
  obtain ⟨⟨outs, current⟩, _, h⟩ := bind_ok_iff.1 h
  have key : ∀ (r : List Val × Nat) (a b c d : Val), (match r with
      | (wits, current) => do
        let lockTime ← x.slice current (current + 4)
        tx E a b c d (.list wits) lockTime) = .ok v → ¬ Plain v := by
    rintro ⟨wits, current⟩ a b c d h
    obtain ⟨_, _, h⟩ := bind_ok_iff.1 h
    exact tx_not_plain h
  dsimp only at h
  split at h
  · obtain ⟨_, _, h⟩ := bind_ok_iff.1 h
    obtain ⟨_, _, h⟩ := bind_ok_iff.1 h
    split at h
    · obtain ⟨r, _, h⟩ := bind_ok_iff.1 h
      exact key r _ _ _ _ h
    · obtain ⟨r, _, h⟩ := bind_ok_iff.1 h
      exact key r _ _ _ _ h
  · obtain ⟨r, _, h⟩ := bind_ok_iff.1 h
    exact key r _ _ _ _ h

/-- C134, what the last condition of `C134_tx` excludes: no transaction that `from_bytes` or `from_hex` returns is one without flag and witnesses, since an empty tuple is not `None`. -/
theorem C134_read (E : Env) (x v : Val) (h : call E (.fromBytes .tx) [x] = .ok v ∨ call E (.fromHex .tx) [x] = .ok v) : ¬ Plain v := by
  rcases h with h | h
  · exact readTx_not_plain h
  · change readHexOf E .tx x = .ok v at h
    unfold readHexOf at h
    split at h
    · obtain ⟨_, _, h⟩ := bind_ok_iff.1 h
      exact readTx_not_plain h
    · exact nomatch h

/-- C134, so a transaction that was read has no digest without the value of the output it spends, on the networks without a fork id and whatever its bytes are. -/
theorem C134_none (H : Hashes) (ops : List Op) (E : Env) (x v : Val) (h : v ∈ (Session.run H ops).vals)
    (hr : call E (.fromBytes .tx) [x] = .ok v ∨ call E (.fromHex .tx) [x] = .ok v) (hc : v.isInstance .tx = true) (hf : (now H ops).net.forkid = none)
    (single : Bool) (index script acp d : Val) : Dyn.sighash single (now H ops) v index script .none acp ≠ .ok d := by
  obtain ⟨w, hw, hb, h1⟩ := C128_tx H _ v h hc
  intro c
  obtain ⟨_, _, _, _, _, _, _, _, hx, _⟩ := ((h1 index script .none acp acp.truthy (truthy_iff acp) single d).2.1 hf (C134_read E x v hr)).1 c
  exact nomatch hx

theorem two_key (E E' : Env) (index script acp : Val) : ∀ r r' : Option Val, (match r, r' with
    | some v, some v' => v.isInstance .tx && v'.isInstance .tx && decide (v'.content = v.content) &&
      (Dyn.sighash false E v index script .none acp).isOk && !(Dyn.sighash false E' v' index script .none acp).isOk
    | _, _ => false) = true → ∃ v v', r = some v ∧ r' = some v' ∧ v.isInstance .tx = true ∧ v'.isInstance .tx = true ∧ v'.content = v.content ∧
      (∃ d, Dyn.sighash false E v index script .none acp = .ok d) ∧ ∀ d, Dyn.sighash false E' v' index script .none acp ≠ .ok d := by
  intro r r' h
  cases r with
  | none => exact nomatch h
  | some v =>
    cases r' with
    | none => exact nomatch h
    | some v' =>
      simp only [Bool.and_eq_true, decide_eq_true_eq, Bool.not_eq_true'] at h
      obtain ⟨⟨⟨⟨h1, h2⟩, h3⟩, h4⟩, h5⟩ := h
      refine ⟨v, v', rfl, rfl, h1, h2, h3, ?_, ?_⟩
      · cases hs : Dyn.sighash false E v index script .none acp with
        | ok d => exact ⟨d, rfl⟩
        | error e => rw [hs] at h4; exact nomatch h4
      · intro d c
        rw [c] at h5
        exact nomatch h5

/-- C134, and signing does change when a transaction was sent: the program that made it signs without a value; the one that read the same bytes, on the same network, cannot. -/
theorem C134_false : ∃ (ops ops' : List Op) (v v' : Val) (index script acp : Val), v ∈ (Session.run toyEnv.H ops).vals ∧ v' ∈ (Session.run toyEnv.H ops').vals ∧
    v.isInstance .tx = true ∧ v'.isInstance .tx = true ∧ v'.content = v.content ∧ (now toyEnv.H ops').net = (now toyEnv.H ops).net ∧
    (∃ d, Dyn.sighash false (now toyEnv.H ops) v index script .none acp = .ok d) ∧
    ∀ d, Dyn.sighash false (now toyEnv.H ops') v' index script .none acp ≠ .ok d := by
  have hn : (now toyEnv.H (exSend 3 ++ [.call (.fromBytes .tx) [11]])).net = (now toyEnv.H (exSend 3)).net := by decide +kernel
  have hk := two_key (now toyEnv.H (exSend 3)) (now toyEnv.H (exSend 3 ++ [.call (.fromBytes .tx) [11]])) (.int 0) (.bytes [1, 0x51]) (.int 0)
    (Session.run toyEnv.H (exSend 3)).vals[11]? (Session.run toyEnv.H (exSend 3 ++ [.call (.fromBytes .tx) [11]])).vals[12]? (by decide +kernel)
  generalize exSend 3 ++ [.call (.fromBytes .tx) [11]] = ops' at hn hk
  generalize exSend 3 = ops at hn hk
  obtain ⟨v, v', h, h', h1, h2, h3, h4, h5⟩ := hk
  exact ⟨ops, ops', v, v', .int 0, .bytes [1, 0x51], .int 0, List.mem_of_getElem? h, List.mem_of_getElem? h', h1, h2, h3, hn, h4, h5⟩

/-- Whether the values two programs hold at two places have the same bytes, and are both signed. -/
def twoSign (ops ops' : List Op) (i i' : Nat) (f : Env → Val → Py Val) : Bool :=
  decide (((Session.run toyEnv.H ops).vals[i]?.bind Val.content) = ((Session.run toyEnv.H ops').vals[i']?.bind Val.content)) &&
    decide (signed ops i f = some true) && decide (signed ops' i' f = some true)

/-- On Bitcoin Cash, who reads the transaction signs it as who made it. -/
example : twoSign (exSend 3 ++ [.select (pystr "bitcoin_cash_main")]) (exSend 3 ++ [.select (pystr "bitcoin_cash_main"), .call (.fromBytes .tx) [11]]) 11 12
    (fun E v => Dyn.sighash true E v (.int 0) (.bytes [1, 0x51]) (.bytes [0, 0, 0, 0, 0, 0, 0, 1]) (.int 0)) = true := by decide +kernel

/-- Two programs made the same transaction on Bitcoin, without witnesses, in two ways. -/
example : twoSign (exSend 3) (.select (pystr "bitcoin_main") :: exSend 3 ++ [.call .copy [11, 10, 10, 10, 10, 10, 10]]) 11 12
    (fun E v => Dyn.sighash false E v (.int 0) (.bytes [1, 0x51]) .none (.int 0)) = true := by decide +kernel

/-- An `OverwinterTx`, made on its network, and read when the network of Sapling is selected. -/
example : twoSign pOver (pOver ++ [.call (.fromBytes .overwinterTx) [11], .select (pystr "zcash_sapling_main")]) 11 12
    (fun E v => Dyn.overSighash E v (.int 1) (.bytes []) (.bytes [])) = true := by decide +kernel

example : twoSign pSap (pSap ++ [.call (.fromBytes .saplingTx) [11]]) 11 12
    (fun E v => Dyn.sapSighash E v (.int 1) (.bytes []) (.int 0) (.int 0) (.bytes [])) = true := by decide +kernel

/-- A `SproutTx` of version 1, which is never read; two programs made it. -/
example : twoSign pSprout (pSprout ++ [.call (.init .sproutTx) [11, 8, 9, 2, 10, 5, 5]]) 12 13
    (fun E v => Dyn.sproutSighashAll E v (.int 0) (.bytes [1, 0x51])) = true := by decide +kernel

example : twoSign pDcr (pDcr ++ [.call (.init .dcrTx) [6, 16, 17, 2, 2, 19]]) 20 21 (fun E v => Dyn.dcrSighashAll E.net v (.int 0)) = true ∧
    twoSign pDcr (pDcr ++ [.select (pystr "decred_simnet"), .call (.init .dcrTx) [6, 16, 17, 2, 2, 19]]) 20 21 (fun E v => Dyn.dcrSighashSingle E.net v (.int 0)) = true := by
  refine ⟨?_, ?_⟩ <;> decide +kernel

end Verif.Props
