import Verif.Props.Builder

/-! C82 and C89: the output builders of tx_builder.py, and payments to addresses read back from a serialised transaction. -/

namespace Verif.Props

open Verif Spec Addresses Builder

/-! ### C82 -/

/-- The builder returned an output of exactly this value and this script, serialised as the wire format says. -/
def Pays (v : Int) (s : Bytes) (r : Py AnyTxOut) : Prop :=
  ∃ o : TxOut, r = .ok (.std o) ∧ o.Built ∧ o.value.length = 8 ∧ (leValue o.value : Int) = v ∧ o.outputScript = s ∧
    o.bytes = wireOut o.value s

/-- A value an output can carry. -/
def U64 (v : Int) : Prop := 0 ≤ v ∧ v < 2 ^ 64

theorem u64_i2le {v : Int} (h : U64 v) : ∃ b, i2lePadded v 8 = .ok b ∧ b.length = 8 ∧ (leValue b : Int) = v :=
  i2le_ok ⟨h.1, by have := h.2; norm_num; omega⟩

theorem u64_error {v : Int} (h : ¬ U64 v) : i2lePadded v 8 = .error .overflowError := by
  apply i2le_error
  unfold U64 at h
  norm_num at h ⊢
  omega

theorem pays_of {E : Env} (hd : E.net.isDecred = false) {v : Int} (hv : U64 v) {s : Bytes} (hl : s.length < 2 ^ 64) {scr : Py Bytes}
    (h : scr = .ok s) : Pays v s (do let i ← i2lePadded v 8; let s ← scr; makeOutput E i s) := by
  obtain ⟨i, hi, hil, hiv⟩ := u64_i2le hv
  have hm : TxOut.make i s = .ok ⟨i, s, wireOut i s⟩ := TxOut.make_iff.2 ⟨hil, hl, rfl⟩
  refine ⟨_, ?_, ⟨_, _, hm⟩, hil, hiv, rfl, rfl⟩
  unfold makeOutput
  simp [h, hi, hd, hm, Except.map]

/-- **C82**: the output builders pay exactly the value asked for to the template around the hash of the key or of the serialised script.
The witness forms exist on SegWit networks only. -/
theorem C82_pays (E : Env) (hs : E.net.Supported) (hH : E.H.LengthOK) (hd : E.net.isDecred = false) (v : Int) (hv : U64 v)
    (pubkey : Bytes) (script : PyStr) (b : Bytes) (hser : serialize E.net script = .ok b) :
    Pays v (p2pkhScript (E.hash160 pubkey)) (makeP2pkhOutput E v pubkey) ∧
    Pays v (p2pkhScript (E.hash160 pubkey)) (makePkhOutput E v pubkey) ∧
    Pays v (p2shScript (E.hash160 b)) (makeP2shOutput E v script) ∧
    Pays v (p2shScript (E.hash160 b)) (makeShOutput E v script) ∧
    (E.net.segwit = true →
      Pays v (p2wpkhScript (E.hash160 pubkey)) (makeP2wpkhOutput E v pubkey) ∧
      Pays v (p2wpkhScript (E.hash160 pubkey)) (makePkhOutput E v pubkey true) ∧
      Pays v (p2wshScript (E.H.sha256 b)) (makeP2wshOutput E v script) ∧
      Pays v (p2wshScript (E.H.sha256 b)) (makeShOutput E v script true)) ∧
    (E.net.segwit = false →
      makeP2wpkhOutput E v pubkey = .error .valueError ∧ makePkhOutput E v pubkey true = .error .valueError ∧
      makeP2wshOutput E v script = .error .valueError ∧ makeShOutput E v script true = .error .valueError) := by
  obtain ⟨h1, h2, h3, h4⟩ := C29_templates E hs pubkey script b hser
  have l1 := E.hash160_length hH pubkey
  have l2 := E.hash160_length hH b
  have l3 := hH.1 b
  have p1 : Pays v (p2pkhScript (E.hash160 pubkey)) (makePkhOutput E v pubkey) :=
    pays_of hd hv (by simp [p2pkhScript, l1]) h1
  have p2 : Pays v (p2shScript (E.hash160 b)) (makeShOutput E v script) :=
    pays_of hd hv (by simp [p2shScript, l2]) h2
  refine ⟨p1, p1, p2, p2, fun hsw => ?_, fun hsw => ?_⟩
  · have p3 : Pays v (p2wpkhScript (E.hash160 pubkey)) (makePkhOutput E v pubkey true) :=
      pays_of hd hv (by simp [p2wpkhScript, l1]) (h3 hsw).1
    have p4 : Pays v (p2wshScript (E.H.sha256 b)) (makeShOutput E v script true) :=
      pays_of hd hv (by simp [p2wshScript, l3]) (h3 hsw).2
    exact ⟨p3, p3, p4, p4⟩
  · obtain ⟨i, hi, -, -⟩ := u64_i2le hv
    have e1 : makePkhOutput E v pubkey true = .error .valueError := by
      unfold makePkhOutput
      have := (h4 hsw).1
      unfold makeP2wpkhOutputScript at this
      rw [hi, ok_bind, this]; rfl
    have e2 : makeShOutput E v script true = .error .valueError := by
      unfold makeShOutput
      have := (h4 hsw).2
      unfold makeP2wshOutputScript at this
      rw [hi, ok_bind, this]; rfl
    exact ⟨e1, e1, e2, e2⟩

/-- **C82**: what the output builders refuse. A value that does not fit in eight unsigned bytes is an OverflowError whatever the key or
script; a script that does not serialise is refused with the serialiser's own exception. -/
theorem C82_refuses (E : Env) (v : Int) (pubkey : Bytes) (script : PyStr) :
    (¬ U64 v → makeP2pkhOutput E v pubkey = .error .overflowError ∧ makeP2wpkhOutput E v pubkey = .error .overflowError ∧
      makeP2shOutput E v script = .error .overflowError ∧ makeP2wshOutput E v script = .error .overflowError) ∧
    (U64 v → ∀ e, serialize E.net script = .error e → makeP2shOutput E v script = .error e ∧
      (E.net.segwit = true → makeP2wshOutput E v script = .error e)) := by
  refine ⟨fun h => ?_, fun hv e he => ?_⟩
  · have := u64_error h
    refine ⟨?_, ?_, ?_, ?_⟩
    · unfold makeP2pkhOutput makePkhOutput; rw [this]; rfl
    · unfold makeP2wpkhOutput makePkhOutput; rw [this]; rfl
    · unfold makeP2shOutput makeShOutput; rw [this]; rfl
    · unfold makeP2wshOutput makeShOutput; rw [this]; rfl
  · obtain ⟨i, hi, -, -⟩ := u64_i2le hv
    refine ⟨?_, fun hsw => ?_⟩
    · unfold makeP2shOutput makeShOutput makeShOutputScript; rw [hi, ok_bind, he]; rfl
    · unfold makeP2wshOutput makeShOutput makeShOutputScript; rw [hi, ok_bind, he, hsw]; rfl

theorem output_eq {E : Env} {v : Int} {a : PyStr} {s : Bytes} {scr : Py Bytes} (h : toOutputScript E a = .ok s) (h' : scr = .ok s) :
    Simple.output E v a = (do let i ← i2lePadded v 8; let s ← scr; makeOutput E i s) := by
  unfold Simple.output
  rw [h, h', ok_bind]
  cases i2lePadded v 8 <;> rfl

/-- **C82**: paying to a key or script directly and paying to the address made from it give the same output, or the same exception, for
every value. A Bech32 address that by coincidence is a Base58Check string too cannot be paid to at all. -/
theorem C82_address (E : Env) (hs : E.net.Supported) (hH : E.H.LengthOK) (v : Int) (pubkey : Bytes) (script : PyStr) (b : Bytes)
    (hser : serialize E.net script = .ok b) :
    (∃ a a', makeP2pkhAddress E pubkey = .ok (some a) ∧ makeLegacyP2pkhAddress E pubkey = .ok (some a') ∧
      makeP2pkhOutput E v pubkey = Simple.output E v a ∧ makeP2pkhOutput E v pubkey = Simple.output E v a') ∧
    (∃ a a', makeP2shAddress E script = .ok (some a) ∧ makeLegacyP2shAddress E script = .ok (some a') ∧
      makeP2shOutput E v script = Simple.output E v a ∧ makeP2shOutput E v script = Simple.output E v a') ∧
    (E.net.segwit = true →
      (∃ a, makeP2wpkhAddress E pubkey = .ok (some a) ∧ (makeP2wpkhOutput E v pubkey = Simple.output E v a ∨
        (E.net.segwitEncoder = .bech32 ∧ (∃ d, Base58.decode E a = .ok d) ∧ Simple.output E v a = .error .valueError))) ∧
      (∃ a, makeP2wshAddress E script = .ok (some a) ∧ (makeP2wshOutput E v script = Simple.output E v a ∨
        (E.net.segwitEncoder = .bech32 ∧ (∃ d, Base58.decode E a = .ok d) ∧ Simple.output E v a = .error .valueError)))) := by
  have bad : ∀ a, toOutputScript E a = .error .valueError → Simple.output E v a = .error .valueError := by
    intro a h; unfold Simple.output; rw [h]; rfl
  refine ⟨?_, ?_, fun hsw => ⟨?_, ?_⟩⟩
  · obtain ⟨a, a', s, h1, h2, h3, h4, h5⟩ := C29_p2pkh E hs hH pubkey
    exact ⟨a, a', h1, h2, (output_eq h4 h3).symm, (output_eq h5 h3).symm⟩
  · obtain ⟨a, a', s, h1, h2, h3, h4, h5⟩ := C29_p2sh E hs hH script b hser
    exact ⟨a, a', h1, h2, (output_eq h4 h3).symm, (output_eq h5 h3).symm⟩
  · obtain ⟨a, s, h1, h2, h3 | ⟨h3, h4, h5⟩⟩ := C29_p2wpkh E hs hH hsw pubkey
    · exact ⟨a, h1, .inl (output_eq h3 h2).symm⟩
    · exact ⟨a, h1, .inr ⟨h3, h4, bad a h5⟩⟩
  · obtain ⟨a, s, h1, h2, h3 | ⟨h3, h4, h5⟩⟩ := C29_p2wsh E hs hH hsw script b hser
    · exact ⟨a, h1, .inl (output_eq h3 h2).symm⟩
    · exact ⟨a, h1, .inr ⟨h3, h4, bad a h5⟩⟩

example : toyEnv.net.Supported ∧ toyEnv.H.LengthOK ∧ toyEnv.net.isDecred = false ∧ toyEnv.net.segwit = true ∧ U64 5000000000 ∧
    ¬ U64 (-1) ∧ serialize toyEnv.net (pystr "OP_DUP OP_HASH160") = .ok [0x76, 0xa9] ∧
    serialize toyEnv.net (pystr "OP_NOTHING") = .error .valueError :=
  ⟨btc_supported, toyHashes_ok, by decide, by decide, ⟨by decide, by decide⟩, fun h => absurd h.1 (by decide), by decide +kernel,
    by decide +kernel⟩

/-! ### C89 -/

/-- An address that is the network's own name for the script it pays to. -/
def OwnAddress (E : Env) (cashaddr : Bool) (a : PyStr) : Prop :=
  ∃ s, toOutputScript E a = .ok s ∧ fromOutputScript E s cashaddr = .ok (some a)

/-- **C89**: the addresses of keys and scripts are the network's own names for what they pay to. -/
theorem C89_own (E : Env) (hs : E.net.Supported) (hH : E.H.LengthOK) (h : Bytes) (c : Bool) :
    (h.length = 20 → (∃ a, makePkhAddress' E h false c = .ok (some a) ∧ OwnAddress E c a) ∧
      (∃ a, hashToShAddress E h false c = .ok (some a) ∧ OwnAddress E c a)) ∧
    (E.net.segwit = true →
      (h.length = 20 → ∃ a, makePkhAddress' E h true c = .ok (some a) ∧ (OwnAddress E c a ∨ ∃ d, Base58.decode E a = .ok d)) ∧
      (h.length = 32 → ∃ a, hashToShAddress E h true c = .ok (some a) ∧ (OwnAddress E c a ∨ ∃ d, Base58.decode E a = .ok d))) := by
  refine ⟨fun hl => ⟨?_, ?_⟩, fun hsw => ⟨fun hl => ?_, fun hl => ?_⟩⟩
  · obtain ⟨a, h1, h2⟩ := pkh_script E hs hH h hl c
    exact ⟨a, h1, _, h2, by rw [from_p2pkh (netFacts hs) hl]; exact h1⟩
  · obtain ⟨a, h1, h2⟩ := sh_script E hs hH h hl c
    exact ⟨a, h1, _, h2, by rw [from_p2sh (netFacts hs) hl]; exact h1⟩
  · obtain ⟨a, h1, h2⟩ := segwit_script E hs hH hsw 20 h hl (.inl rfl)
    refine ⟨a, by rw [wpkh_make E hs hsw]; exact h1, ?_⟩
    rcases h2 with h2 | ⟨-, h2, -⟩
    · exact .inl ⟨_, h2, from_p2wpkh (netFacts hs) hl _ _ (by rw [wpkh_make E hs hsw]; exact h1)⟩
    · exact .inr h2
  · obtain ⟨a, h1, h2⟩ := segwit_script E hs hH hsw 32 h hl (.inr rfl)
    refine ⟨a, by rw [wsh_make E hs hsw]; exact h1, ?_⟩
    rcases h2 with h2 | ⟨-, h2, -⟩
    · exact .inl ⟨_, h2, from_p2wsh (netFacts hs) hl _ _ (by rw [wsh_make E hs hsw]; exact h1)⟩
    · exact .inr h2

/-- The outputs of a list of payments, one at a time. -/
theorem payments_outs (E : Env) (hs : E.net.Supported) (hd : E.net.isDecred = false) (c : Bool) (ps : List (Int × PyStr))
    (hp : ∀ p ∈ ps, U64 p.1 ∧ OwnAddress E c p.2) :
    ∃ outs : List TxOut, mapPy (fun p : Int × PyStr => Simple.output E p.1 p.2) ps = .ok (outs.map .std) ∧
      (∀ o ∈ outs, o.Built ∧ o.outputScript.length < 252) ∧ outs.length = ps.length ∧
      outs.map (fun o => ((leValue o.value : Int), fromOutputScript E o.outputScript c)) = ps.map (fun p => (p.1, .ok (some p.2))) := by
  induction ps with
  | nil => exact ⟨[], rfl, by simp, rfl, rfl⟩
  | cons p ps ih =>
    obtain ⟨outs, h1, h2, h3, h4⟩ := ih (fun q hq => hp q (by simp [hq]))
    obtain ⟨hv, s, hto, hfrom⟩ := hp p (by simp)
    obtain ⟨o, o1, o2, o3, o4, o5⟩ := (C68_output E hs hd p.1 p.2).1 s hto hv.1 hv.2
    have hl : s.length < 252 := by
      rcases C31_to E hs p.2 with ⟨s', h, hs', hc⟩ | he
      · rw [hto] at hs'
        cases hs'
        rcases hc with ⟨hl, rfl | rfl | rfl⟩ | ⟨hl, rfl⟩ <;>
          simp only [p2pkhScript, p2shScript, p2wpkhScript, p2wshScript, List.length_append, hl, List.length_cons, List.length_nil] <;> omega
      · rw [hto] at he; cases he
    refine ⟨o :: outs, ?_, ?_, by simp [h3], ?_⟩
    · simp only [mapPy, o1, h1, ok_bind, List.map_cons]
    · intro x hx
      rcases List.mem_cons.1 hx with rfl | hx
      · exact ⟨o2, by rw [o4]; exact hl⟩
      · exact h2 x hx
    · simp only [List.map_cons, h4, o3, o4, hfrom]

/-- What C89 says of a transaction: it parses back to itself, its outputs are the payments and its inputs spend the same outpoints. -/
def ReadsBack (E : Env) (c : Bool) (ps : List (Int × PyStr)) (ins : List TxIn) (t : Tx) (k : Simple.Kwargs) : Prop :=
  ∃ t', Tx.fromBytes E t.bytes = .ok t' ∧ t'.bytes = t.bytes ∧ t'.txId = t.txId ∧ t'.wtxId = t.wtxId ∧
    t'.txOuts.map (fun o => ((leValue o.value : Int), fromOutputScript E o.outputScript c)) = ps.map (fun p => (p.1, .ok (some p.2))) ∧
    t'.txIns.map (·.outpoint) = ins.map (·.outpoint) ∧ t'.txIns.map (·.sequence) = ins.map (·.sequence) ∧
    (leValue t'.version : Int) = k.version.getD 2 ∧ (leValue t'.lockTime : Int) = k.lockTime.getD 0

/-- **C89**: pay any list of amounts to addresses with `simple.output`, put the outputs in an unsigned transaction, legacy or witness,
serialise it and parse it back. The outputs read are worth the amounts and `from_output_script` names the addresses paid, in order; the
inputs spend what they were built to spend. (The inputs are what `simple.unsigned_input` makes: their scripts are empty.) -/
theorem C89_payments (E : Env) (hs : E.net.Supported) (hd : E.net.isDecred = false) (hz : E.net.isZcash = false) (c : Bool)
    (ps : List (Int × PyStr)) (hp : ∀ p ∈ ps, U64 p.1 ∧ OwnAddress E c p.2) (hne : ps ≠ []) (hpn : ps.length < 2 ^ 64)
    (ins : List TxIn) (hi : ∀ i ∈ ins, i.Built ∧ i.scriptSig = []) (hine : ins ≠ []) (hin : ins.length < 2 ^ 64)
    (k : Simple.Kwargs) (hv : U32 (k.version.getD 2)) (hl : U32 (k.lockTime.getD 0)) :
    ∃ outs, mapPy (fun p : Int × PyStr => Simple.output E p.1 p.2) ps = .ok (outs.map .std) ∧
      (∃ t, Simple.unsignedLegacyTx E ins outs k = .ok (.std t) ∧ ReadsBack E c ps ins t k) ∧
      (∃ t, Simple.unsignedWitnessTx E ins outs k = .ok (.std t) ∧ ReadsBack E c ps ins t k) := by
  obtain ⟨outs, o1, o2, o3, o4⟩ := payments_outs E hs hd c ps hp
  have hon : outs ≠ [] := by rintro rfl; exact hne (List.length_eq_zero_iff.1 o3.symm)
  have lok : ∀ n, LenOK E.net n := fun n => by
    obtain ⟨h1, h2, h3⟩ := (family hs).2.2.2.1 hz
    exact .inl ⟨by assumption, by assumption⟩
  have st : ∀ i ∈ ins, i.Stable E.net := fun i h => by
    refine ⟨lok _, .inr (.inr (.inr ⟨[], [], ?_, ?_⟩))⟩
    · rw [(hi i h).2]; rfl
    · rw [(hi i h).2]; rfl
  have fin : ∀ t : Tx, t.txIns = ins → t.txOuts = outs → (∀ w ∈ t.txWitnesses.getD [], InputWitness.LenOK E.net w) →
      (leValue t.version : Int) = k.version.getD 2 → (leValue t.lockTime : Int) = k.lockTime.getD 0 → t.Built E →
      ReadsBack E c ps ins t k := by
    intro t e1 e2 e3 e4 e5 hb
    obtain ⟨t', r1, r2, r3, r4, r5, r6, r7, r8, r9, r10, r11, r12, r13⟩ := C40_roundtrip E hs t hb
      ⟨lok _, lok _, by rw [e1]; exact st, by rw [e2]; exact fun o h => (o2 o h).2, e3⟩ [] (fun _ _ => rfl)
    rw [List.append_nil] at r1
    exact ⟨t', r1, r2, r6, r7, by rw [r8, e2]; exact o4, by rw [r11, e1], by rw [r13, e1], by rw [r3]; exact e4, by rw [r5]; exact e5⟩
  refine ⟨outs, o1, ?_, ?_⟩
  · obtain ⟨t, a1, a2, a3, a4, a5, a6, a7, a8⟩ :=
      (C68_unsigned_legacy_tx E hs hz ins outs hin (by rw [o3]; exact hpn) k).1 hv hl hine hon
    exact ⟨t, a1, fin t a2 a3 (by simp [a5]) a6 a7 (a8 (fun i h => (hi i h).1) (fun o h => (o2 o h).1))⟩
  · obtain ⟨t, ws, a1, a2, a3, a4, a5, a6, a7, a8, a9, a10⟩ :=
      (C68_unsigned_witness_tx E hs hz ins outs hin (by rw [o3]; exact hpn) k).1 hv hl hine hon
    refine ⟨t, a1, fin t a2 a3 ?_ a8 a9 (a10 (fun i h => (hi i h).1) (fun o h => (o2 o h).1))⟩
    intro w hw
    rw [a5] at hw
    have := (a7 w hw).1
    refine ⟨lok _, ?_⟩
    rw [this]; simp

/-- A payment of one coin to a key hash. -/
example : ∃ a, makePkhAddress' toyEnv (List.replicate 20 7) false true = .ok (some a) ∧ U64 100000000 ∧ OwnAddress toyEnv true a ∧
    ∃ t, Simple.unsignedInput toyEnv (.std exOutpoint) = .ok (.std t) ∧ t.Built ∧ t.scriptSig = [] ∧ U32 2 ∧
    toyEnv.net.isZcash = false := by
  obtain ⟨a, h1, h2⟩ := ((C89_own toyEnv btc_supported toyHashes_ok (List.replicate 20 7) true).1 (by simp)).1
  obtain ⟨t, t1, t2, -, -, -, t3, -⟩ := (C68_unsigned_input toyEnv (by decide) exOutpoint exOutpoint_built 0xFFFFFFFE).1 (by decide) (by decide)
  exact ⟨a, h1, ⟨by decide, by decide⟩, h2, t, t1, t2, t3, ⟨by decide, by decide⟩, by decide⟩

end Verif.Props
