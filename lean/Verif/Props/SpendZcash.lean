import Verif.Spec.SpendZcash
import Verif.Props.Spend
import Verif.Props.ZcashSig

/-! # C105: what is signed with the digests of the Zcash classes is valid

As C104, for transparent inputs of Sprout, Overwinter and Sapling transactions, checked by the rules of `Spec/SpendZcash`. -/

namespace Verif.Props

open Verif Spec Addresses Builder Examples ExampleScripts

attribute [local irreducible] Env.hash256

/-- The rules of a Zcash network, with any signature scheme. -/
def zrules (E : Env) (verify : Bytes → Bytes → Bytes → Bool) : ZRules := ⟨E.H.sha256, E.hash160, E.hash256, E.H.blake2b, verify⟩

/-- The hash type: ALL or SINGLE, with or without ANYONECANPAY. -/
def sigType (single acp : Bool) : Nat := (if single then 3 else 1) + if acp then 128 else 0

/-- What is claimed of a way to sign an input: `digest code` is what the library returns for a script code with its length, `type` the byte appended
to signatures, `value` the amount spent, `lockTime` and `sequence` those of the transaction and of the input, and `Spends ss prev P` says that the
input with script sig `ss` spends the output `prev` exactly if `P`.

For pay to public key hash, the 2-of-2 template in pay to script hash, and the hash time lock contract: any signature put into the library's script
sig spends the output exactly if it is good for the digest (and the key is the key; for a refund: and the lock time has passed). -/
structure Signable (E : Env) (verify : Bytes → Bytes → Bytes → Bool) (digest : Bytes → Py Bytes) (type : UInt8) (value lockTime sequence : Bytes)
    (Spends : Bytes → WireOut → Prop → Prop) : Prop where
  p2pkh : ∀ pubkey : Bytes, ∃ s d, makeP2pkhOutputScript E pubkey = .ok s ∧ digest (varBytes s) = .ok d ∧
    ∀ sig key : Bytes, 1 ≤ sig.length ∧ sig.length ≤ 519 → 1 ≤ key.length ∧ key.length ≤ 520 →
      ∃ ss, serialize E.net (p2pkhScriptSig (toHex (sig ++ [type])) (toHex key)) = .ok ss ∧
        Spends ss ⟨value, s⟩ (E.hash160 key = E.hash160 pubkey ∧ verify key d sig = true)
  msig : ∀ a b : Bytes, 1 ≤ a.length ∧ a.length ≤ 75 → 1 ≤ b.length ∧ b.length ≤ 75 →
    ∃ r s d, serialize E.net (msigTwoTwo (toHex a) (toHex b)) = .ok r ∧ makeP2shOutputScript E (msigTwoTwo (toHex a) (toHex b)) = .ok s ∧
      digest (varBytes r) = .ok d ∧
      ∀ x y : Bytes, 1 ≤ x.length ∧ x.length ≤ 519 → 1 ≤ y.length ∧ y.length ≤ 519 →
        ∃ ss, makeScriptSig E (msigTwoTwoStackScript (toHex (x ++ [type])) (toHex (y ++ [type]))) (msigTwoTwo (toHex a) (toHex b)) = .ok ss ∧
          Spends ss ⟨value, s⟩ (verify a d x = true ∧ verify b d y = true)
  htlc : ∀ (secret pk0 pk1 timeout : Bytes) (v : Int), 1 ≤ secret.length ∧ secret.length ≤ 520 → 1 ≤ pk0.length ∧ pk0.length ≤ 520 →
    1 ≤ pk1.length ∧ pk1.length ≤ 520 → 1 ≤ timeout.length ∧ timeout.length ≤ 5 → 0 ≤ v → v < 2 ^ 64 →
    ∃ redeem a o r d, htlcOutput E (toHex secret) (toHex pk0) (toHex pk1) (toHex timeout) v = .ok (redeem, some a, .std o) ∧
      serialize E.net redeem = .ok r ∧ digest (varBytes r) = .ok d ∧
      ∀ sig : Bytes, 1 ≤ sig.length ∧ sig.length ≤ 400 →
        (∃ ss, makeScriptSig E (htlcExecute (toHex (sig ++ [type])) (toHex pk0) (toHex secret)) redeem = .ok ss ∧
          Spends ss ⟨value, o.outputScript⟩ (verify pk0 d sig = true)) ∧
        ∃ ss, makeScriptSig E (htlcRefund (toHex (sig ++ [type])) (toHex pk1)) redeem = .ok ss ∧
          Spends ss ⟨value, o.outputScript⟩
            ((∃ n, scriptNumber 5 timeout = some n ∧ (n < 500000000 ↔ leValue lockTime < 500000000) ∧ n ≤ leValue lockTime ∧
              leValue sequence ≠ 0xffffffff) ∧ verify pk1 d sig = true)

/-- BIP 65, from the two fields. -/
def lockFn (lockTime sequence x : Bytes) : Bool :=
  match scriptNumber 5 x with
  | none => false
  | some n => decide ((n < 500000000 ↔ leValue lockTime < 500000000) ∧ n ≤ leValue lockTime ∧ leValue sequence ≠ 0xffffffff)

theorem lockFn_iff (lt sq x : Bytes) : lockFn lt sq x = true ↔ ∃ n, scriptNumber 5 x = some n ∧ (n < 500000000 ↔ leValue lt < 500000000) ∧
    n ≤ leValue lt ∧ leValue sq ≠ 0xffffffff := by
  unfold lockFn
  cases hn : scriptNumber 5 x with
  | none => simp
  | some n =>
    simp only [Option.some.injEq, exists_eq_left']
    exact decide_eq_true_iff

/-- It is enough to know what the script interpreter does with the input. -/
theorem signable_of (E : Env) (hs : E.net.Supported) (hH : E.H.LengthOK) (hd : E.net.isDecred = false) (verify : Bytes → Bytes → Bytes → Bool)
    (dig : Bytes → Py Bytes) (ty : UInt8) (value lt sq : Bytes) (Q : Bytes → WireOut → Prop → Prop)
    (core : ∀ code : Bytes, code.length ≤ 155 → ∃ d, dig (varBytes code) = .ok d ∧
      ∀ (ss s : Bytes) (P : Prop), ss.length ≤ 1650 →
        (∀ check, (∀ sig key, check false code (sig ++ [ty]) key = verify key d sig) → (spends (world E check (lockFn lt sq)) ss [] s = true ↔ P)) →
        Q ss ⟨value, s⟩ P) : Signable E verify dig ty value lt sq Q := by
  constructor
  · intro pubkey
    have hm := (C29_templates E hs pubkey [] [] rfl).1
    have hsl : (p2pkhScript (E.hash160 pubkey)).length = 25 := by simp [p2pkhScript, E.hash160_length hH]
    obtain ⟨d, hdig, core⟩ := core (p2pkhScript (E.hash160 pubkey)) (by omega)
    refine ⟨_, d, hm, hdig, fun sig key h1 h2 => ?_⟩
    have hsgl : (sig ++ [ty]).length = sig.length + 1 := by simp
    have hss := C88_p2pkh_sig E.net hs (sig ++ [ty]) key ⟨by omega, by omega⟩ ⟨h2.1, by omega⟩
    have l1 := minimalPush_length (sig ++ [ty])
    have l2 := minimalPush_length key
    refine ⟨_, hss, core _ _ _ (by rw [List.length_append]; omega) fun check hck => ?_⟩
    rw [C103_p2pkh_sig E hs hH check _ hd pubkey _ key _ _ hm ⟨by omega, by omega⟩ h2 hss, hck]
  · intro a b ha hb
    obtain ⟨r, s, h1, h2, h3, -, -⟩ := C103_msig E hs hH (fun _ _ _ _ => true) (fun _ => true) hd a b ha hb
    obtain ⟨d, hdig, core⟩ := core r h2
    refine ⟨r, s, d, h1, h3, hdig, fun x y hx hy => ?_⟩
    have lx : (x ++ [ty]).length = x.length + 1 := by simp
    have ly : (y ++ [ty]).length = y.length + 1 := by simp
    obtain ⟨r', hr', hss, -⟩ := C88_msig_spend E hs a b (x ++ [ty]) (y ++ [ty]) ha hb ⟨by omega, by omega⟩ ⟨by omega, by omega⟩
    have hrr : r' = r := by
      have := (C88_msig E.net hs a b a b ⟨ha.1, by omega⟩ ⟨hb.1, by omega⟩ ⟨ha.1, by omega⟩ ⟨hb.1, by omega⟩).1
      rw [h1] at this
      rw [hr', ← Except.ok.inj this]
    rw [hrr] at hss
    have l1 := minimalPush_length (x ++ [ty])
    have l2 := minimalPush_length (y ++ [ty])
    have l3 := minimalPush_length r
    refine ⟨_, hss, core _ _ _ ?_ fun check hck => ?_⟩
    · simp only [List.length_append, List.length_cons, List.length_nil] at *
      omega
    · obtain ⟨r2, s2, g1, -, g3, g4, -⟩ := C103_msig E hs hH check (lockFn lt sq) hd a b ha hb
      rw [h1] at g1
      cases g1
      rw [h3] at g3
      cases g3
      obtain ⟨ss, e1, e2⟩ := g4 _ _ (show 1 ≤ (x ++ [ty]).length ∧ _ ≤ 520 by omega)
        (show 1 ≤ (y ++ [ty]).length ∧ _ ≤ 520 by omega)
      rw [hss] at e1
      cases e1
      rw [e2, hck, hck]
  · intro secret pk0 pk1 timeout v h1 h2 h3 h4 hv hv'
    obtain ⟨redeem, a, o, r, g1, g2, g3, -, -, -⟩ :=
      C103_htlc E hs hH (fun _ _ _ _ => true) (fun _ => true) hd secret pk0 pk1 timeout h1 h2 h3 h4 v hv hv'
    obtain ⟨d, hdig, core⟩ := core r (by omega)
    refine ⟨redeem, a, o, r, d, g1, g2, hdig, fun sig hsg => ?_⟩
    have lsg : (sig ++ [ty]).length = sig.length + 1 := by simp
    obtain ⟨redeem', a', o', ho', r', hr', -, -, -, x1, x2⟩ := C102_htlc_partial E hs hH hd secret pk0 pk1 timeout (sig ++ [ty])
      ⟨h1.1, by omega⟩ ⟨h2.1, by omega⟩ ⟨h3.1, by omega⟩ h4 ⟨by omega, by omega⟩ v hv hv'
    rw [g1] at ho'
    cases ho'
    have l1 := minimalPush_length (sig ++ [ty])
    have l2 := minimalPush_length pk0
    have l3 := minimalPush_length pk1
    have l4 := minimalPush_length secret
    have l5 := minimalPush_length r'
    have rlen : r'.length ≤ 126 := by
      have m1 : (E.H.sha256 secret).length = 32 := hH.sha256 secret
      have m2 := E.hash160_length hH pk0
      have m3 := E.hash160_length hH pk1
      rw [hr']
      unfold minimalPush
      rw [if_pos (by omega), if_pos (by omega), if_pos (by omega), if_pos (by omega)]
      simp only [List.length_append, List.length_cons, List.length_nil]
      omega
    have all : ∀ check : Bool → Bytes → Bytes → Bytes → Bool, (∀ sig key, check false r (sig ++ [ty]) key = verify key d sig) →
        (spends (world E check (lockFn lt sq))
          (minimalPush (sig ++ [ty]) ++ minimalPush pk0 ++ minimalPush secret ++ [0x51] ++ minimalPush r') [] o.outputScript = true ↔
          verify pk0 d sig = true) ∧
        (spends (world E check (lockFn lt sq))
          (minimalPush (sig ++ [ty]) ++ minimalPush pk1 ++ [0x00] ++ minimalPush r') [] o.outputScript = true ↔
          lockFn lt sq timeout = true ∧ verify pk1 d sig = true) := by
      intro check hck
      obtain ⟨redeem2, a2, o2, r2, f1, f2, -, f4, f5, -⟩ :=
        C103_htlc E hs hH check (lockFn lt sq) hd secret pk0 pk1 timeout h1 h2 h3 h4 v hv hv'
      rw [g1] at f1
      cases f1
      rw [g2] at f2
      cases f2
      obtain ⟨s1, e1, e2⟩ := f4 (sig ++ [ty]) (by omega)
      obtain ⟨s2, e3, e4⟩ := f5 (sig ++ [ty]) (by omega)
      rw [x1] at e1
      cases e1
      rw [x2] at e3
      cases e3
      rw [hck] at e2 e4
      exact ⟨e2, e4⟩
    refine ⟨⟨_, x1, core _ _ _ ?_ fun check hck => (all check hck).1⟩, ⟨_, x2, core _ _ _ ?_ fun check hck => ?_⟩⟩
    · simp only [List.length_append, List.length_cons, List.length_nil] at *
      omega
    · simp only [List.length_append, List.length_cons, List.length_nil] at *
      omega
    · rw [(all check hck).2, lockFn_iff]

/-! ## The fields of the objects -/

def wireOuts (outs : List TxOut) : List WireOut := outs.map fun o => ⟨o.value, o.outputScript⟩

/-- The fields of a version 3 transaction. -/
def overFields (t : OverwinterTx) : ZTx :=
  ⟨3, t.txIns.map wireOf, wireOuts t.txOuts, t.lockTime, t.expiryHeight, [], [], [], t.txJoinsplits.map (·.bytes), t.joinsplitPubkey.getD [],
    t.joinsplitSig.getD [], []⟩

/-- The fields of a version 4 transaction. -/
def sapFields (t : SaplingTx) : ZTx :=
  ⟨4, t.txIns.map wireOf, wireOuts t.txOuts, t.lockTime, t.expiryHeight, t.valueBalance,
    t.txShieldedSpends.map fun s => (s.cv ++ s.anchor ++ s.nullifier ++ s.rk ++ s.zkproof.bytes, s.spendAuthSig),
    t.txShieldedOutputs.map (·.bytes), t.txJoinsplits.map (·.bytes), t.joinsplitPubkey.getD [], t.joinsplitSig.getD [], t.bindingSig.getD []⟩

/-- The fields of a version 1 or 2 transaction. -/
def sproutFields (t : SproutTx) : ZTx :=
  ⟨if t.version = [1, 0, 0, 0] then 1 else 2, t.txIns.map wireOf, wireOuts t.txOuts, t.lockTime, [], [], [], [], t.txJoinsplits.map (·.bytes),
    t.joinsplitPubkey.getD [], t.joinsplitSig.getD [], []⟩

theorem ins_fields {ins : List TxIn} (h : ∀ i ∈ ins, i.Built) : (ins.map wireOf).map WireIn.bytes = ins.map (·.bytes) := by
  rw [ins_wire h, List.map_map]
  rfl

theorem outs_fields {outs : List TxOut} (h : ∀ o ∈ outs, o.Built) : (wireOuts outs).map WireOut.bytes = outs.map (·.bytes) := by
  rw [outs_wire' h, wireOuts, List.map_map]
  rfl

theorem ins_wf {ins : List TxIn} (h : ∀ i ∈ ins, i.Built) : ∀ i ∈ ins.map wireOf, i.WF := by
  simp only [List.mem_map]
  rintro _ ⟨i, hi, rfl⟩
  have e := (h i hi).eq
  exact ⟨e.1.eq.1, e.1.eq.2.1, e.2.1, by have := e.2.2.2.1; simp only [wireOf]; omega⟩

theorem outs_wf {outs : List TxOut} (h : ∀ i ∈ outs, i.Built) : ∀ i ∈ wireOuts outs, i.WF := by
  simp only [wireOuts, List.mem_map]
  rintro _ ⟨i, hi, rfl⟩
  have e := (h i hi).eq
  exact ⟨e.1, e.2.1⟩

theorem map_ne_nil {α β : Type} {f : α → β} {l : List α} (h : l.map f ≠ []) : l ≠ [] := by
  rintro rfl
  exact h rfl

theorem overFields_bytes {E : Env} {t : OverwinterTx} (f : t.Facts E) : (overFields t).bytes = t.bytes := by
  rw [f.bytes, ← ins_fields f.ins, ← outs_fields f.outs]
  rfl

theorem overFields_wf {E : Env} {t : OverwinterTx} (f : t.Facts E) : (overFields t).WF where
  version := ⟨by show 1 ≤ 3; omega, by show 3 ≤ 4; omega⟩
  lockTime := f.args.lt4
  ins := ⟨by simpa [overFields] using f.args.li, ins_wf f.ins⟩
  outs := ⟨by simpa [overFields, wireOuts] using f.args.lo, outs_wf f.outs⟩
  expiry := fun _ => f.args.ex4
  js := by
    have h5 := f.args.js5
    show (if (3 : Nat) = 1 then _ else _)
    rw [if_neg (by decide)]
    refine ⟨by simp only [overFields, List.length_map]; omega, ?_⟩
    simp only [overFields, List.mem_map]
    rintro _ ⟨j, hj, rfl⟩
    exact (f.js j hj).length
  jsKeys := fun h => by
    obtain ⟨⟨p, e1, e2⟩, s, e3, e4⟩ := f.args.keys (map_ne_nil h)
    simp only [overFields, e1, e3]
    exact ⟨e2, e4⟩
  balance := fun h => absurd h (by simp [overFields])
  spends := rfl
  outputs := rfl
  binding := fun h => by rcases h with h | h <;> exact absurd rfl h

theorem zsig_ins (ins : List TxIn) : (ins.map wireOf).map (fun i => (i.txId ++ i.index, i.sequence)) =
    ins.map fun i => (i.outpoint.txId ++ i.outpoint.index, i.sequence) := by
  rw [List.map_map]
  rfl

theorem zsig_outs (outs : List TxOut) : (wireOuts outs).map WireOut.bytes = outs.map fun o => wireOut o.value o.outputScript := by
  rw [wireOuts, List.map_map]
  rfl

theorem overFields_zsig (t : OverwinterTx) : (overFields t).zsig = t.zsig := by
  unfold ZTx.zsig OverwinterTx.zsig
  simp only [overFields, zsig_ins, zsig_outs]
  rfl

theorem sapFields_zsig (t : SaplingTx) : (sapFields t).zsig = t.zsig := by
  unfold ZTx.zsig SaplingTx.zsig
  simp only [sapFields, zsig_outs, List.map_map]
  rfl

theorem sapSpends {E : Env} {t : SaplingTx} (f : t.Facts E) :
    (t.txShieldedSpends.map fun s => (s.cv ++ s.anchor ++ s.nullifier ++ s.rk ++ s.zkproof.bytes, s.spendAuthSig)).map (fun s => s.1 ++ s.2) =
      t.txShieldedSpends.map (·.bytes) := by
  rw [List.map_map]
  apply List.map_congr_left
  intro j hj
  obtain ⟨_, _, _, _, _, _, _, e⟩ := f.ss j hj
  obtain ⟨_, _, _, _, _, _, rfl⟩ := SaplingShieldedSpend.make_iff.1 e
  rfl

theorem sapFields_bytes {E : Env} {t : SaplingTx} (f : t.Facts E) : (sapFields t).bytes = t.bytes := by
  rw [f.bytes, saplingBytes, ← ins_fields f.ins, ← outs_fields f.outs, ← sapSpends f]
  rfl

theorem sapFields_wf {E : Env} {t : SaplingTx} (f : t.Facts E) : (sapFields t).WF where
  version := ⟨by show 1 ≤ 4; omega, by show 4 ≤ 4; omega⟩
  lockTime := f.args.lt4
  ins := ⟨by simpa [sapFields] using f.args.li, ins_wf f.ins⟩
  outs := ⟨by simpa [sapFields, wireOuts] using f.args.lo, outs_wf f.outs⟩
  expiry := fun _ => f.args.ex4
  js := by
    have h5 := f.args.js5
    show (if (4 : Nat) = 1 then _ else _)
    rw [if_neg (by decide)]
    refine ⟨by simp only [sapFields, List.length_map]; omega, ?_⟩
    simp only [sapFields, List.mem_map]
    rintro _ ⟨j, hj, rfl⟩
    exact (f.js j hj).length
  jsKeys := fun h => by
    obtain ⟨⟨p, e1, e2⟩, s, e3, e4⟩ := f.args.keys (map_ne_nil h)
    simp only [sapFields, e1, e3]
    exact ⟨e2, e4⟩
  balance := fun _ => f.args.vb8
  spends := by
    show (if (4 : Nat) = 4 then _ else _)
    rw [if_pos rfl]
    refine ⟨by simpa [sapFields] using f.args.ls, ?_⟩
    simp only [sapFields, List.mem_map]
    rintro _ ⟨j, hj, rfl⟩
    obtain ⟨_, _, _, _, z, _, hz, e⟩ := f.ss j hj
    obtain ⟨_, h1, h2, h3, h4, h5, rfl⟩ := SaplingShieldedSpend.make_iff.1 e
    exact ⟨by simp [h1, h2, h3, h4, hz.length], h5⟩
  outputs := by
    show (if (4 : Nat) = 4 then _ else _)
    rw [if_pos rfl]
    refine ⟨by simpa [sapFields] using f.args.lso, ?_⟩
    simp only [sapFields, List.mem_map]
    rintro _ ⟨j, hj, rfl⟩
    exact (f.so j hj).length
  binding := fun h => by
    obtain ⟨s, e⟩ := f.args.binding (h.imp map_ne_nil map_ne_nil)
    simp only [sapFields, e]
    exact f.args.bs64 s e

/-! ## Signing -/

/-- Input `i` can be given the script sig `ss`, and then it spends the output exactly if `P`: whatever script sigs the other inputs are given, the
copy with the new inputs has the bytes of a well-formed transaction with these inputs and the same outputs, whose input is valid iff `P`; it is
refused exactly if it has more than 100000 bytes. -/
def ZSpends (E : Env) (verify : Bytes → Bytes → Bytes → Bool) (ins : List TxIn) (outs : List TxOut) (copy : List TxIn → Py Bytes) (i : Nat) (ss : Bytes)
    (prev : WireOut) (P : Prop) : Prop :=
  (∃ x y, ins[i]? = some x ∧ x.copy (stackScript := some ss) (redeemScript := some []) = .ok y ∧ y.scriptSig = ss) ∧
  ∀ signed y, List.Forall₂ Signs ins signed → signed[i]? = some y → y.scriptSig = ss →
    ∃ w : ZTx, copy signed = (if w.bytes.length ≤ 100000 then .ok w.bytes else .error .valueError) ∧
      w.ins.map WireIn.bytes = signed.map (·.bytes) ∧ w.outs.map WireOut.bytes = outs.map (·.bytes) ∧
      (w.bytes.length ≤ 100000 → w.WF ∧ (w.validInput (zrules E verify) i prev = true ↔ P))

theorem zcash_flags {net : Network} (hs : net.Supported) (hz : net.isZcash = true) : net.segwit = false ∧ net.isDecred = false := by
  have key : ∀ n : Network, n.Supported → n.isZcash = true → n.segwit = false ∧ n.isDecred = false := by
    unfold Network.Supported; decide +kernel
  exact key _ hs hz

theorem zcheckSig_append (R : ZRules) (w : ZTx) (i : Nat) (inp : WireIn) (amount code sig key : Bytes) (ty : UInt8) (d : Bytes)
    (h : R.digest w i inp amount code ty.toNat = some d) : R.checkSig w i inp amount code (sig ++ [ty]) key = R.verify key d sig := by
  unfold ZRules.checkSig
  simp [h]

/-- The common part: `w` are the fields of the transaction with the new script sigs. -/
theorem zspends_core {E : Env} (hs : E.net.Supported) (hz : E.net.isZcash = true) (verify : Bytes → Bytes → Bytes → Bool) {ins : List TxIn}
    (hb : ∀ x ∈ ins, x.Built) {i : Nat} {x : TxIn} (hx : ins[i]? = some x) {outs : List TxOut} (ho : ∀ o ∈ outs, o.Built) {copy : List TxIn → Py Bytes}
    {lt code value d : Bytes} {ty : UInt8}
    (hcopy : ∀ signed, List.Forall₂ Signs ins signed → ∃ w : ZTx, copy signed = (if w.bytes.length ≤ 100000 then .ok w.bytes else .error .valueError) ∧
      w.ins = signed.map wireOf ∧ w.outs = wireOuts outs ∧ w.lockTime = lt ∧
      (w.bytes.length ≤ 100000 → w.WF ∧ ∀ y, signed[i]? = some y → (zrules E verify).digest w i (wireOf y) value code ty.toNat = some d))
    (ss s : Bytes) (P : Prop) (hl : ss.length ≤ 1650)
    (hP : ∀ check, (∀ sig key, check false code (sig ++ [ty]) key = verify key d sig) →
      (spends (world E check (lockFn lt x.sequence)) ss [] s = true ↔ P)) :
    ZSpends E verify ins outs copy i ss ⟨value, s⟩ P := by
  refine ⟨?_, fun signed y hsg hy hys => ?_⟩
  · have e := (hb x (List.mem_of_getElem? hx)).eq
    exact ⟨x, _, hx, TxIn.make_iff.2 ⟨e.1.length, e.2.1, by simpa using hl, rfl⟩, by simp⟩
  · obtain ⟨w, c1, c2, c3, c4, c5⟩ := hcopy signed hsg
    have hsb := (signs_maps hb hsg).1
    refine ⟨w, c1, by rw [c2, ins_fields hsb], by rw [c3, outs_fields ho], fun hsz => ⟨(c5 hsz).1, ?_⟩⟩
    have hdig := (c5 hsz).2 y hy
    obtain ⟨x', hx', st, rd, hxy⟩ := forall₂_get hsg hy
    rw [hx] at hx'
    cases hx'
    have hseq : y.sequence = x.sequence := by
      obtain ⟨-, -, -, rfl⟩ := TxIn.make_iff.1 hxy
      rfl
    have e : w.ins[i]? = some (wireOf y) := by rw [c2]; simp [hy]
    have hlock : w.lockOK (wireOf y) = lockFn lt x.sequence := by
      funext b
      unfold ZTx.lockOK lockFn
      rw [c4, ← hseq]
      rfl
    unfold ZTx.validInput
    rw [e]
    simp only
    rw [hlock, show (wireOf y).script = ss from hys]
    have hw := hP (fun _ => (zrules E verify).checkSig w i (wireOf y) value) fun sig key => zcheckSig_append _ _ _ _ _ _ _ _ _ _ hdig
    unfold world at hw
    rw [(zcash_flags hs hz).1] at hw
    exact hw

theorem signs_core {l l' : List TxIn} (hl : ∀ x ∈ l, x.Built) (h : List.Forall₂ Signs l l') :
    (l'.map fun i => (i.outpoint.txId ++ i.outpoint.index, i.sequence)) = l.map fun i => (i.outpoint.txId ++ i.outpoint.index, i.sequence) := by
  obtain ⟨-, h1, h2⟩ := signs_maps hl h
  have z := zip_core h1 h2
  clear h1 h2 h
  induction z with
  | nil => rfl
  | cons h _ ih =>
    simp only [List.map_cons, List.cons.injEq, Prod.mk.injEq]
    exact ⟨⟨by rw [h.1], h.2.symm⟩, ih fun x hx => hl x (List.mem_cons_of_mem _ hx)⟩

theorem signs_ne {l l' : List TxIn} (h : List.Forall₂ Signs l l') : l = [] ↔ l' = [] := by
  cases h <;> simp

theorem signs_length {l l' : List TxIn} (h : List.Forall₂ Signs l l') : l.length = l'.length := by
  induction h with
  | nil => rfl
  | cons _ _ ih => simp [ih]

theorem signs_get {l l' : List TxIn} (hl : ∀ x ∈ l, x.Built) (h : List.Forall₂ Signs l l') {i : Nat} {x y : TxIn} (hx : l[i]? = some x)
    (hy : l'[i]? = some y) : x.outpoint = y.outpoint ∧ x.sequence = y.sequence := by
  obtain ⟨x', hx', hs⟩ := forall₂_get h hy
  rw [hx] at hx'
  cases hx'
  exact (hs.facts (hl x (List.mem_of_getElem? hx))).2

theorem sigType_byte (single acp : Bool) : (UInt8.ofNat (sigType single acp)).toNat = sigType single acp := by
  cases single <;> cases acp <;> decide

/-- C105, Overwinter: every hash type that `sighash` can make. For SINGLE the input must have its output. -/
theorem C105_overwinter (E : Env) (hs : E.net.Supported) (hH : E.H.LengthOK) (verify : Bytes → Bytes → Bytes → Bool) (t : OverwinterTx) (h : t.Built E)
    (i : Nat) (x : TxIn) (hx : t.txIns[i]? = some x) (value : Bytes) (single acp : Bool) (ho : single = true → i < t.txOuts.length) :
    Signable E verify (fun code => t.sighash E (if single then 3 else 1) value code i false acp) (UInt8.ofNat (sigType single acp)) value t.lockTime
      x.sequence (ZSpends E verify t.txIns t.txOuts (fun signed => (t.copy E (txIns := some signed)).map (·.bytes)) i) := by
  have f := h.facts
  obtain ⟨hl, hxe⟩ := List.getElem?_eq_some_iff.1 hx
  refine signable_of E hs hH (zcash_flags hs f.args.zc).2 verify _ _ _ _ _ _ fun code hc =>
    ⟨_, C60_overwinter E t h i i (.inl rfl) hl single acp (fun e => ⟨rfl, ho e⟩) (varBytes code) value,
      zspends_core hs f.args.zc verify f.ins hx f.outs fun signed hsg => ?_⟩
  have hsb := (signs_maps f.ins hsg).1
  let t' := overObj E signed t.txOuts t.lockTime t.expiryHeight t.txJoinsplits t.joinsplitPubkey t.joinsplitSig
  have e6 : t'.joinsplitPubkey = t.joinsplitPubkey := (congrArg OverwinterTx.joinsplitPubkey f.obj).symm
  have e7 : t'.joinsplitSig = t.joinsplitSig := (congrArg OverwinterTx.joinsplitSig f.obj).symm
  have hbytes : (overFields t').bytes = t'.bytes := by
    have h1 : (overFields t').bytes = wireOverwinter (signed.map (·.bytes)) (t.txOuts.map (·.bytes)) t.lockTime t.expiryHeight
        (t.txJoinsplits.map (·.bytes)) (t'.joinsplitPubkey.getD []) (t'.joinsplitSig.getD []) := by
      rw [← ins_fields hsb, ← outs_fields f.outs]
      rfl
    rw [h1, e6, e7]
    rfl
  have args : t'.bytes.length ≤ 100000 → OverArgs E signed t.txOuts t.lockTime t.expiryHeight t.txJoinsplits t.joinsplitPubkey t.joinsplitSig := fun hsz =>
    ⟨f.args.zc, f.args.ow, f.args.lt4, f.args.ex4, f.args.expiry, f.args.js5, f.args.keys, fun c => f.args.some ⟨c.1, (signs_ne hsg).2 c.2⟩,
      by rw [← signs_length hsg]; exact f.args.li, f.args.lo, hsz⟩
  refine ⟨overFields t', ?_, rfl, rfl, rfl, fun hsz => ?_⟩
  · rw [hbytes]
    show (OverwinterTx.make E signed t.txOuts t.lockTime t.expiryHeight t.txJoinsplits (Option.orElse none fun _ => t.joinsplitPubkey)
      (Option.orElse none fun _ => t.joinsplitSig)).map (·.bytes) = _
    simp only [Option.orElse_none]
    split
    · next hsz => rw [OverwinterTx.make_iff.2 ⟨args hsz, rfl⟩]; rfl
    · next hsz =>
      rcases ve_cases (OverwinterTx.make_ve E signed t.txOuts t.lockTime t.expiryHeight t.txJoinsplits t.joinsplitPubkey t.joinsplitSig) with e | ⟨u, e⟩
      · rw [e]; rfl
      · exact absurd (OverwinterTx.make_iff.1 e).1.size hsz
  · rw [hbytes] at hsz
    have f' : t'.Facts E := OverwinterTx.Built.facts ⟨_, _, _, _, _, _, _, hsb, f.outs, f.js, OverwinterTx.make_iff.2 ⟨args hsz, rfl⟩⟩
    refine ⟨overFields_wf f', fun y hy => ?_⟩
    have hz : (overFields t').zsig = t.zsig := by
      rw [overFields_zsig]
      unfold OverwinterTx.zsig
      rw [e6, show t'.txIns = signed from rfl, signs_core f.ins hsg]
      rfl
    obtain ⟨g1, g2⟩ := signs_get f.ins hsg hx hy
    unfold ZRules.digest
    rw [if_pos (show (overFields t').version = 3 from rfl), hz, sigType_byte, hxe]
    simp only [wireOf, ← g1, ← g2]
    rfl

/-- C105, Sapling: every hash type that `sighash` can make. For SINGLE the input must have its output. -/
theorem C105_sapling (E : Env) (hs : E.net.Supported) (hH : E.H.LengthOK) (verify : Bytes → Bytes → Bytes → Bool) (t : SaplingTx) (h : t.Built E)
    (i : Nat) (x : TxIn) (hx : t.txIns[i]? = some x) (value : Bytes) (single acp : Bool) (ho : single = true → i < t.txOuts.length) :
    Signable E verify (fun code => t.sighash E (if single then 3 else 1) value i false (some code) acp) (UInt8.ofNat (sigType single acp)) value t.lockTime
      x.sequence (ZSpends E verify t.txIns t.txOuts (fun signed => (t.copy E (txIns := some signed)).map (·.bytes)) i) := by
  have f := h.facts
  obtain ⟨hl, hxe⟩ := List.getElem?_eq_some_iff.1 hx
  refine signable_of E hs hH (zcash_flags hs f.args.zc).2 verify _ _ _ _ _ _ fun code hc =>
    ⟨_, C60_sapling E t h i i (.inl rfl) hl single acp (fun e => ⟨rfl, ho e⟩) (varBytes code) value,
      zspends_core hs f.args.zc verify f.ins hx f.outs fun signed hsg => ?_⟩
  have hsb := (signs_maps f.ins hsg).1
  let t' := saplingObj E signed t.txOuts t.lockTime t.expiryHeight t.valueBalance t.txShieldedSpends t.txShieldedOutputs t.txJoinsplits t.joinsplitPubkey
    t.joinsplitSig t.bindingSig
  have e6 : t'.joinsplitPubkey = t.joinsplitPubkey := (congrArg SaplingTx.joinsplitPubkey f.obj).symm
  have e7 : t'.joinsplitSig = t.joinsplitSig := (congrArg SaplingTx.joinsplitSig f.obj).symm
  have e8 : t'.bindingSig = t.bindingSig := (congrArg SaplingTx.bindingSig f.obj).symm
  have hbytes : (sapFields t').bytes = t'.bytes := by
    have h1 : (sapFields t').bytes = wireSapling (signed.map (·.bytes)) (t.txOuts.map (·.bytes)) t.lockTime t.expiryHeight t.valueBalance
        (t.txShieldedSpends.map (·.bytes)) (t.txShieldedOutputs.map (·.bytes))
        (t.txJoinsplits.map (·.bytes)) (t'.joinsplitPubkey.getD []) (t'.joinsplitSig.getD []) (t'.bindingSig.getD []) := by
      rw [← ins_fields hsb, ← outs_fields f.outs, ← sapSpends f]
      rfl
    rw [h1, e6, e7, e8]
    rfl
  have args : t'.bytes.length ≤ 100000 → SaplingArgs E signed t.txOuts t.lockTime t.expiryHeight t.valueBalance t.txShieldedSpends t.txShieldedOutputs
      t.txJoinsplits t.joinsplitPubkey t.joinsplitSig t.bindingSig := fun hsz =>
    { f.args with
      some := fun c => f.args.some ⟨c.1, (signs_ne hsg).2 c.2.1, c.2.2⟩
      li := by rw [← signs_length hsg]; exact f.args.li
      size := hsz }
  refine ⟨sapFields t', ?_, rfl, rfl, rfl, fun hsz => ?_⟩
  · rw [hbytes]
    show (SaplingTx.make E signed t.txOuts t.lockTime t.expiryHeight t.valueBalance t.txShieldedSpends t.txShieldedOutputs t.txJoinsplits
      (Option.orElse none fun _ => t.joinsplitPubkey) (Option.orElse none fun _ => t.joinsplitSig)
      (Option.orElse none fun _ => t.bindingSig)).map (·.bytes) = _
    simp only [Option.orElse_none]
    split
    · next hsz => rw [SaplingTx.make_iff.2 ⟨args hsz, rfl⟩]; rfl
    · next hsz =>
      rcases ve_cases (SaplingTx.make_ve E signed t.txOuts t.lockTime t.expiryHeight t.valueBalance t.txShieldedSpends t.txShieldedOutputs t.txJoinsplits
        t.joinsplitPubkey t.joinsplitSig t.bindingSig f.args.binding) with e | ⟨u, e⟩
      · rw [e]; rfl
      · exact absurd (SaplingTx.make_iff.1 e).1.size hsz
  · rw [hbytes] at hsz
    have f' : t'.Facts E := SaplingTx.Built.facts ⟨_, _, _, _, _, _, _, _, _, _, _, hsb, f.outs, f.ss, f.so, f.js, SaplingTx.make_iff.2 ⟨args hsz, rfl⟩⟩
    refine ⟨sapFields_wf f', fun y hy => ?_⟩
    have hz : (sapFields t').zsig = t.zsig := by
      rw [sapFields_zsig]
      unfold SaplingTx.zsig
      rw [e6, show t'.txIns = signed from rfl, signs_core f.ins hsg]
      rfl
    obtain ⟨g1, g2⟩ := signs_get f.ins hsg hx hy
    unfold ZRules.digest
    rw [if_neg (show ¬ (sapFields t').version = 3 by show ¬ (4 : Nat) = 3; decide), if_pos (show (sapFields t').version = 4 from rfl), hz, sigType_byte, hxe]
    simp only [wireOf, ← g1, ← g2]
    rfl

/-! ### Sprout -/

theorem compactSize_length (n : Nat) : 1 ≤ (compactSize n).length ∧ (compactSize n).length ≤ 9 := by
  unfold compactSize
  split
  · rw [leBytes_length]
    omega
  · split
    · simp [leBytes_length]
    · split <;> simp [leBytes_length]

theorem legacyIns_length {ins : List TxIn} (h : ∀ x ∈ ins, x.Built) (i : Nat) (script : Bytes) : ∀ k,
    (((ins.map fun x => (x.outpoint.txId ++ x.outpoint.index, x.sequence)).mapIdx fun j => legacyIn i 1 script (j + k)).flatten).length ≤
      ((ins.map (·.bytes)).flatten).length + if k ≤ i then script.length + 9 else 0 := by
  induction ins with
  | nil => intro k; simp
  | cons x l ih =>
    intro k
    have e := (h x List.mem_cons_self).eq
    have e36 : (x.outpoint.txId ++ x.outpoint.index).length = 36 := e.1.len36
    have hb : x.bytes = wireIn x.outpoint.txId x.outpoint.index x.scriptSig x.sequence := by
      have := ins_wire (ins := [x]) (by simpa using h x List.mem_cons_self)
      simpa using this
    have hxl : 41 ≤ x.bytes.length := by
      have c := (compactSize_length x.scriptSig.length).1
      rw [hb]
      simp only [wireIn, varBytes, List.length_append] at *
      have := e.2.1
      omega
    have i1 := ih (fun y hy => h y (List.mem_cons_of_mem _ hy)) (k + 1)
    simp only [List.map_cons, List.mapIdx_cons, List.flatten_cons, List.length_append]
    have e1 : (fun j => legacyIn i 1 script (j + 1 + k)) = fun j => legacyIn i 1 script (j + (k + 1)) := by
      funext j
      rw [Nat.add_assoc, Nat.add_comm 1 k]
    have e2 : (legacyIn i 1 script (0 + k) (x.outpoint.txId ++ x.outpoint.index, x.sequence)).length ≤
        41 + if k = i then script.length + 8 else 0 := by
      have c := (compactSize_length script.length).2
      unfold legacyIn
      have hbt : ¬ (0 + k ≠ i ∧ (baseType 1 = 2 ∨ baseType 1 = 3)) := by
        rintro ⟨-, c⟩
        revert c
        decide
      rw [if_neg hbt, Nat.zero_add]
      have := e.2.1
      split
      · simp only [varBytes, List.length_append] at *
        omega
      · simp only [List.length_append, List.length_cons, List.length_nil] at *
        omega
    rw [e1]
    by_cases hk : k = i
    · subst hk
      rw [if_pos rfl] at e2
      rw [if_neg (by omega)] at i1
      rw [if_pos (Nat.le_refl _)]
      omega
    · rw [if_neg hk] at e2
      by_cases hk2 : k ≤ i
      · rw [if_pos (by omega)] at i1
        rw [if_pos hk2]
        omega
      · rw [if_neg (by omega)] at i1
        rw [if_neg hk2]
        omega

theorem sproutPreimage_length {E : Env} {t : SproutTx} (f : t.Facts E) (hv : t.version = [1, 0, 0, 0]) (i : Nat) (script : Bytes) :
    (sproutPreimage t i script).length ≤ t.bytes.length + script.length + 9 := by
  have hL := legacyIns_length f.ins i script 0
  rw [if_pos (Nat.zero_le _)] at hL
  simp only [Nat.add_zero] at hL
  change (List.mapIdx (legacyIn i 1 script) _).flatten.length ≤ _ at hL
  rw [f.bytes, sproutBytes_v1 hv]
  unfold sproutPreimage
  rw [if_neg (by rw [hv]; decide), List.append_nil, ← outs_wire' f.outs]
  simp only [wireLegacy, vector, List.length_append, List.length_mapIdx, List.length_map] at *
  omega

/-- In version 1 the only exception of the constructor is ValueError, whatever the joinsplit signature. -/
theorem sprout1_ve (E : Env) (ins : List TxIn) (outs : List TxOut) (lt : Bytes) (js : List SproutJoinsplit) (pk sig : Option Bytes) :
    OnlyVE (SproutTx.make E [1, 0, 0, 0] ins outs lt (some js) pk sig) := by
  unfold SproutTx.make
  refine (OnlyVE.gate _).bind fun _ => (OnlyVE.check _).bind fun _ => (OnlyVE.validate _ _).bind fun _ =>
    (OnlyVE.validate _ _).bind fun _ => OnlyVE.bind ?_ fun _ => OnlyVE.bind ?_ fun _ => ?_
  · unfold SproutTx.checkV1
    split
    · only_ve
    · exact OnlyVE.ok _
  · unfold SproutTx.checkV2
    rw [if_neg (by decide)]
    exact OnlyVE.ok _
  refine (OnlyVE.check _).bind fun _ => (OnlyVE.varint _).bind fun _ => (OnlyVE.varint _).bind fun _ => OnlyVE.bind ?_ fun _ => ?_
  · unfold SproutTx.jsPart
    rw [i2lePadded2, ok_bind, if_neg (by decide)]
    exact OnlyVE.ok _
  · rw [i2lePadded2]
    simp only [SproutTx.jsTuple, ok_bind]
    exact (OnlyVE.check _).bind fun _ => OnlyVE.ok _

theorem sproutFields_bytes {E : Env} {t : SproutTx} (f : t.Facts E) (hv : t.version = [1, 0, 0, 0]) : (sproutFields t).bytes = t.bytes := by
  rw [f.bytes, sproutBytes_v1 hv, ← ins_fields f.ins, ← outs_fields f.outs]
  unfold ZTx.bytes
  simp only [sproutFields, hv, if_true]
  unfold wireSprout
  rw [if_neg (by decide), if_neg (by decide), if_neg (by decide), List.append_nil]
  rfl

theorem sproutFields_wf {E : Env} {t : SproutTx} (f : t.Facts E) (hv : t.version = [1, 0, 0, 0]) : (sproutFields t).WF := by
  have hjs : t.txJoinsplits = [] := by
    rcases f.args.ver with ⟨-, e, -⟩ | ⟨e, -⟩
    · exact Option.some.inj e
    · rw [hv] at e; exact absurd e (by decide)
  have e1 : (sproutFields t).version = 1 := by simp [sproutFields, hv]
  have e2 : (sproutFields t).js = [] := by simp [sproutFields, hjs]
  refine ⟨by rw [e1]; omega, f.args.lt4, ⟨by simpa [sproutFields] using f.args.li, ins_wf f.ins⟩, ⟨by simpa [sproutFields, wireOuts] using f.args.lo, outs_wf f.outs⟩,
    by rw [e1]; omega, by rw [e1, if_pos rfl]; exact e2, fun h => absurd e2 h, by rw [e1]; omega, by rw [e1, if_neg (by omega)]; rfl,
    by rw [e1, if_neg (by omega)]; rfl, fun h => by rcases h with h | h <;> exact absurd rfl h⟩

/-- C105, Sprout, version 1: type ALL (the others are refused, `C56_false`). -/
theorem C105_sprout_partial (E : Env) (hs : E.net.Supported) (hH : E.H.LengthOK) (verify : Bytes → Bytes → Bytes → Bool) (t : SproutTx) (h : t.Built E)
    (hv : t.version = [1, 0, 0, 0]) (hb : t.bytes.length ≤ 99800) (i : Nat) (x : TxIn) (hx : t.txIns[i]? = some x) (value : Bytes) :
    Signable E verify (fun code => t.sighashAll E i code) 0x01 value t.lockTime x.sequence
      (ZSpends E verify t.txIns t.txOuts (fun signed => (t.copy E (txIns := some signed)).map (·.bytes)) i) := by
  have f := h.facts
  obtain ⟨hl, hxe⟩ := List.getElem?_eq_some_iff.1 hx
  refine signable_of E hs hH (zcash_flags hs f.args.zc).2 verify _ _ _ _ _ _ fun code hc => ?_
  have hp := sproutPreimage_length f hv i code
  have hd := C56_all E hs t h i i (.inl rfl) hl code (by omega)
  rw [if_pos (by omega)] at hd
  refine ⟨_, hd, zspends_core hs f.args.zc verify f.ins hx f.outs fun signed hsg => ?_⟩
  have hsb := (signs_maps f.ins hsg).1
  have hjs : t.txJoinsplits = [] := by
    rcases f.args.ver with ⟨-, e, -⟩ | ⟨e, -⟩
    · exact Option.some.inj e
    · rw [hv] at e; exact absurd e (by decide)
  let t' := sproutObj E t.version signed t.txOuts t.lockTime t.txJoinsplits t.joinsplitPubkey t.joinsplitSig
  have hv' : t'.version = [1, 0, 0, 0] := hv
  have hbytes : (sproutFields t').bytes = t'.bytes := by
    have h1 : (sproutFields t').bytes = wireLegacy t.version (signed.map (·.bytes)) (t.txOuts.map (·.bytes)) t.lockTime := by
      rw [← ins_fields hsb, ← outs_fields f.outs]
      unfold ZTx.bytes
      simp only [sproutFields, hv', if_true]
      unfold wireSprout
      rw [if_neg (by decide), if_neg (by decide), if_neg (by decide), List.append_nil, hv]
      rfl
    rw [h1, ← sproutBytes_v1 hv _ _ _ (t.txJoinsplits.map (·.bytes)) (t.joinsplitPubkey.getD []) (t.joinsplitSig.getD [])]
    rfl
  have args : t'.bytes.length ≤ 100000 → SproutArgs E t.version signed t.txOuts t.lockTime (some t.txJoinsplits) t.joinsplitPubkey t.joinsplitSig := fun hsz =>
    { f.args with
      ver := .inl ⟨hv, by rw [hjs], fun c => by rw [(signs_ne hsg).2 c] at hl; simp at hl⟩
      li := by rw [← signs_length hsg]; exact f.args.li
      size := hsz }
  refine ⟨sproutFields t', ?_, rfl, rfl, rfl, fun hsz => ?_⟩
  · rw [hbytes]
    show (SproutTx.make E t.version signed t.txOuts t.lockTime (some t.txJoinsplits) (Option.orElse none fun _ => t.joinsplitPubkey)
      (Option.orElse none fun _ => t.joinsplitSig)).map (·.bytes) = _
    simp only [Option.orElse_none]
    split
    · next hsz => rw [SproutTx.make_iff.2 ⟨args hsz, rfl⟩]; rfl
    · next hsz =>
      rcases ve_cases (hv ▸ sprout1_ve E signed t.txOuts t.lockTime t.txJoinsplits t.joinsplitPubkey t.joinsplitSig :
          OnlyVE (SproutTx.make E t.version signed t.txOuts t.lockTime (some t.txJoinsplits) t.joinsplitPubkey t.joinsplitSig)) with e | ⟨u, e⟩
      · rw [e]; rfl
      · exact absurd (SproutTx.make_iff.1 e).1.size hsz
  · rw [hbytes] at hsz
    have f' : t'.Facts E := SproutTx.Built.facts ⟨_, _, _, _, some t.txJoinsplits, _, _, hsb, f.outs, f.js, SproutTx.make_iff.2 ⟨args hsz, rfl⟩⟩
    refine ⟨sproutFields_wf f' hv', fun y hy => ?_⟩
    have e1 : (sproutFields t').version = 1 := by simp [sproutFields, hv']
    have hpre : (sproutFields t').sproutPreimage i code 1 = sproutPreimage t i code ++ leBytes 4 1 := by
      unfold ZTx.sproutPreimage sproutPreimage
      have hsi : (sproutFields t').sig.ins = t.txIns.map fun x => (x.outpoint.txId ++ x.outpoint.index, x.sequence) := by
        rw [← signs_core f.ins hsg, ← zsig_ins]
        rfl
      have hso : (sproutFields t').sig.outs = t.txOuts.map fun o => wireOut o.value o.outputScript := zsig_outs t.txOuts
      rw [e1, if_neg (by decide), if_neg (by rw [hv]; decide)]
      unfold legacyIns legacyOuts
      simp only [hsi, hso]
      rw [if_neg (by decide), if_neg (by decide), if_neg (by decide), hv]
      rfl
    unfold ZRules.digest
    rw [e1, if_neg (by decide), if_neg (by decide), if_neg (fun c => absurd c.1 (by decide)), show (0x01 : UInt8).toNat = 1 from rfl, hpre]
    rfl

/-- C105 does not hold for Sprout transactions of version 2: what `sighash_all` hashes never has the length of what the network hashes. The library
leaves the joinsplit signature out, the network puts zeros in its place; without joinsplits the library still hashes the public key. -/
theorem C105_sprout_false (E : Env) (hs : E.net.Supported) (verify : Bytes → Bytes → Bytes → Bool) (t : SproutTx) (h : t.Built E)
    (hv : t.version = [2, 0, 0, 0]) (i : Nat) (hl : i < t.txIns.length) (inp : WireIn) (value code d : Bytes) (hc : code.length ≤ 1650)
    (hd : t.sighashAll E i (varBytes code) = .ok d) :
    ∃ p q : Bytes, d = E.hash256 p ∧ (zrules E verify).digest (sproutFields t) i inp value code 1 = some (E.hash256 q) ∧
      q = (sproutFields t).sproutPreimage i code 1 ∧ if t.txJoinsplits = [] then p.length = q.length + 32 else p.length + 64 = q.length := by
  have f := h.facts
  rw [C56_all E hs t h i i (.inl rfl) hl code hc] at hd
  split at hd
  case isFalse => cases hd
  case isTrue =>
    cases hd
    have hpk : (t.joinsplitPubkey.getD []).length = 32 := by
      rcases f.args.ver with ⟨e, -⟩ | ⟨-, -, ⟨p, e, hp⟩, -⟩
      · rw [hv] at e; exact absurd e (by decide)
      · rw [e]; exact hp
    have e1 : (sproutFields t).version = 2 := by simp [sproutFields, hv]
    refine ⟨_, (sproutFields t).sproutPreimage i code 1, rfl, ?_, rfl, ?_⟩
    · unfold ZRules.digest
      rw [e1, if_neg (by decide), if_neg (by decide), if_neg (fun c => absurd c.1 (by decide))]
      rfl
    · have hsi : (sproutFields t).sig.ins = t.txIns.map fun x => (x.outpoint.txId ++ x.outpoint.index, x.sequence) := zsig_ins t.txIns
      have hso : (sproutFields t).sig.outs = t.txOuts.map fun o => wireOut o.value o.outputScript := zsig_outs t.txOuts
      have hj : (sproutFields t).js = t.txJoinsplits.map (·.bytes) := rfl
      have hk : (sproutFields t).jsPubkey = t.joinsplitPubkey.getD [] := rfl
      have hlt : (sproutFields t).lockTime = t.lockTime := rfl
      unfold ZTx.sproutPreimage sproutPreimage
      rw [e1, if_pos rfl, if_pos hv]
      unfold legacyIns legacyOuts
      simp only [hsi, hso, hj, hk, hlt]
      rw [if_neg (show ¬ acpBit 1 = true by decide), if_neg (show ¬ baseType 1 = 2 by decide), if_neg (show ¬ baseType 1 = 3 by decide), hv]
      unfold wireJoinsplits
      by_cases hjs : t.txJoinsplits = []
      · rw [if_pos hjs, hjs]
        simp only [List.map_nil, if_true, List.append_nil, List.length_append, leBytes_length, wireLegacy, hpk, List.length_cons, List.length_nil]
        omega
      · rw [if_neg hjs, if_neg (by simpa using hjs)]
        simp only [List.length_append, leBytes_length, wireLegacy, List.length_cons, List.length_nil, List.length_replicate]
        omega

example := C105_overwinter overEnv (by unfold Network.Supported; decide +kernel) toyHashes_ok (fun _ d sig => d == sig) (exOver 2) (exOver_built (by decide)) 0 exIn
  rfl (List.replicate 8 0) true true (fun _ => by decide)

example := C105_sapling sapEnv (by unfold Network.Supported; decide +kernel) toyHashes_ok (fun _ d sig => d == sig) (exSap 2) (exSap_built (by decide)) 0 exIn
  rfl (List.replicate 8 0) true true (fun _ => by decide)

example := C105_sprout_partial sproutEnv (by unfold Network.Supported; decide +kernel) toyHashes_ok (fun _ d sig => d == sig) exSprout1 exSprout1_built rfl
  (by rw [exSprout1_built.facts.bytes]; decide) 0 exIn rfl (List.replicate 8 0)

/-- The digests of both kinds of version 2 transactions exist. -/
example : ∃ d e, exSprout2.sighashAll sproutEnv (0 : Int) (varBytes [1]) = .ok d ∧ exSprout0.sighashAll sproutEnv (0 : Int) (varBytes [1]) = .ok e ∧
    exSprout2.txJoinsplits ≠ [] ∧ exSprout0.txJoinsplits = [] := by
  have hn : sproutEnv.net.Supported := by unfold Network.Supported; decide +kernel
  rw [C56_all sproutEnv hn _ exSprout2_built 0 0 (.inl rfl) (by decide) [1] (by decide),
    C56_all sproutEnv hn _ exSprout0_built 0 0 (.inl rfl) (by decide) [1] (by decide), if_pos (by decide +kernel), if_pos (by decide +kernel)]
  exact ⟨_, _, rfl, rfl, by decide, rfl⟩

/-- Some script sig can be given. -/
example : ∃ y, exIn.copy (stackScript := some [1, 8]) (redeemScript := some []) = .ok y ∧ List.Forall₂ Signs (exSap 2).txIns [y] :=
  ⟨_, rfl, .cons ⟨[1, 8], [], rfl⟩ .nil⟩

end Verif.Props
