import Verif.Lemmas.Sighash2

namespace Verif
open Spec Props

attribute [local irreducible] Env.hash256

/-- The type word the code hashes: with the fork id on networks that have one. -/
def typeWord (net : Network) (single acp : Bool) : Nat :=
  match net.forkid with
  | none => sigType single acp
  | some k => forkidType k (sigType single acp)

/-- The request is answered by BIP143: a witness transaction or a fork-id network. -/
def BipPath (E : Env) (t : Tx) : Prop := E.net.forkid ≠ none ∨ t.flag ≠ none ∨ t.txWitnesses ≠ none

/-- `sighash_single` or `sighash_all`. -/
def Tx.digest (E : Env) (t : Tx) (single acp : Bool) (i : Nat) (script : Bytes) (value : Option Bytes) : Py Bytes :=
  if single then t.sighashSingle E i script value acp else t.sighashAll E i script value acp

theorem typeWord_facts {net : Network} (hn : net.Supported) (single acp : Bool) :
    acpBit (typeWord net single acp) = acp ∧ baseType (typeWord net single acp) = (if single then 3 else 1) ∧
    typeWord net single acp < 2 ^ 32 := by
  unfold typeWord
  cases hf : net.forkid with
  | none => exact ⟨(sigType_facts single acp).1, (sigType_facts single acp).2.1, (sigType_facts single acp).2.2.1⟩
  | some k =>
    have := forkidType_facts k (forkid_facts hn hf) single acp
    exact ⟨this.1, this.2.1, this.2.2.1⟩

theorem typeWord_inj {net : Network} (hn : net.Supported) {single acp single' acp' : Bool}
    (h : typeWord net single acp = typeWord net single' acp') : single = single' ∧ acp = acp' := by
  obtain ⟨h1, h2, _⟩ := typeWord_facts hn single acp
  obtain ⟨h3, h4, _⟩ := typeWord_facts hn single' acp'
  rw [h] at h1 h2
  refine ⟨?_, h1.symm.trans h3⟩
  have := h2.symm.trans h4
  cases single <;> cases single' <;> simp_all

theorem Tx.digest_bip143 {E : Env} (hn : E.net.Supported) {t : Tx} (h : t.Built E) (hb : BipPath E t) (single acp : Bool) {i : Nat}
    (hi : i < t.txIns.length) (ho : single = true → i < t.txOuts.length) (script value : Bytes) (hv : value.length = 8) :
    t.digest E single acp i script (some value) = .ok (E.hash256 (bip143 E.hash256 t.sig i
      (t.txIns[i].outpoint.txId ++ t.txIns[i].outpoint.index) t.txIns[i].sequence script value (typeWord E.net single acp))) := by
  unfold Tx.digest typeWord
  cases hf : E.net.forkid with
  | none =>
    have hw : t.isWitness = true := by
      unfold Tx.isWitness
      rcases hb with h | h | h
      · exact absurd hf h
      · cases hh : t.flag <;> simp_all
      · cases hh : t.txWitnesses <;> simp_all
    have := Tx.segwitSighash_eq h (pyIndex_nat hi) single acp (fun hh => ⟨rfl, ho hh⟩) script value
    cases single with
    | false =>
      unfold Tx.sighashAll
      rw [hf]
      simp only [hw, if_true, Bool.false_eq_true, if_false] at this ⊢
      exact this
    | true =>
      unfold Tx.sighashSingle
      have := ho rfl
      rw [hf]
      simp only [hw, if_true] at this ⊢
      rw [if_neg (by omega)]
      assumption
  | some k =>
    have := Tx.sighashForkid_eq h (forkid_facts hn hf) (pyIndex_nat hi) single acp (fun hh => ⟨rfl, ho hh⟩) script value hv
    cases single with
    | false =>
      unfold Tx.sighashAll
      rw [hf]
      simp only [if_true, Bool.false_eq_true, if_false] at this ⊢
      exact this
    | true =>
      unfold Tx.sighashSingle
      have := ho rfl
      rw [hf]
      simp only [if_true] at this ⊢
      rw [if_neg (by omega)]
      assumption

/-- Lists of nonempty self-delimiting pieces are determined by their concatenation. -/
theorem flatten_inj' {S : Bytes → Prop} (hS : SelfDelim S) (hp : ∀ x, S x → x ≠ []) : ∀ {xs ys : List Bytes},
    (∀ x ∈ xs, S x) → (∀ y ∈ ys, S y) → xs.flatten = ys.flatten → xs = ys
  | [], [], _, _, _ => rfl
  | [], y :: ys, _, hy, h => by
    have := hp y (hy y (by simp))
    simp at h; exact absurd h.1 this
  | x :: xs, [], hx, _, h => by
    have := hp x (hx x (by simp))
    simp at h; exact absurd h.1 this
  | x :: xs, y :: ys, hx, hy, h => by
    simp only [List.flatten_cons] at h
    obtain ⟨h1, h2⟩ := hS x y _ _ (hx x (by simp)) (hy y (by simp)) h
    rw [h1, flatten_inj' hS hp (fun x hh => hx x (by simp [hh])) (fun y hh => hy y (by simp [hh])) h2]

theorem fixed_selfDelim (n : Nat) : SelfDelim (fun b => b.length = n) := by
  intro x y r s hx hy h
  exact List.append_inj h (by rw [hx, hy])

theorem Outpoint.Built.inj {x y : Outpoint} (hx : x.Built) (hy : y.Built) (h : x.txId ++ x.index = y.txId ++ y.index) : x = y := by
  obtain ⟨a1, a2, a3⟩ := hx.eq
  obtain ⟨b1, b2, b3⟩ := hy.eq
  obtain ⟨h1, h2⟩ := List.append_inj h (by rw [a1, b1])
  cases x; cases y
  simp only at *
  subst h1 h2 a3 b3; rfl

theorem Outpoint.Built.len36 {x : Outpoint} (h : x.Built) : (x.txId ++ x.index).length = 36 := by
  rw [List.length_append, h.eq.1, h.eq.2.1]

theorem leBytes_length (k n : Nat) : (leBytes k n).length = k := by
  rw [leBytes_eq]; exact natToLE_length ..

theorem leBytes4_inj {a b : Nat} (ha : a < 2 ^ 32) (hb : b < 2 ^ 32) (h : leBytes 4 a = leBytes 4 b) : a = b := by
  rw [leBytes_eq, leBytes_eq] at h
  have := congrArg leToNat h
  rwa [leToNat_natToLE_of_lt (by simpa using ha), leToNat_natToLE_of_lt (by simpa using hb)] at this

theorem sig_prevouts_inj {E E' : Env} {t t' : Tx} (h : t.Built E) (h' : t'.Built E')
    (e : (t.sig.ins.map (·.1)).flatten = (t'.sig.ins.map (·.1)).flatten) : t.txIns.map (·.outpoint) = t'.txIns.map (·.outpoint) := by
  have hb : ∀ {E : Env} {t : Tx}, t.Built E → ∀ x ∈ t.sig.ins.map (·.1), x.length = 36 := by
    intro E t h x hx
    simp only [Tx.sig, List.map_map, List.mem_map, Function.comp] at hx
    obtain ⟨i, hi, rfl⟩ := hx
    have := (h.facts.ins i hi).eq.1.eq
    rw [List.length_append, this.1, this.2.1]
  have e2 := flatten_inj' (fixed_selfDelim 36) (by rintro x hx rfl; simp at hx) (hb h) (hb h') e
  have e3 : (t.txIns.map (·.outpoint)).map (fun o => o.txId ++ o.index) = (t'.txIns.map (·.outpoint)).map (fun o => o.txId ++ o.index) := by
    simpa only [Tx.sig, List.map_map, Function.comp_def] using e2
  refine map_bytes_inj (P := Outpoint.Built) (fun x y hx hy => hx.inj hy) ?_ ?_ e3
  · intro x hx
    obtain ⟨i, hi, rfl⟩ := List.mem_map.1 hx
    exact (h.facts.ins i hi).eq.1
  · intro x hx
    obtain ⟨i, hi, rfl⟩ := List.mem_map.1 hx
    exact (h'.facts.ins i hi).eq.1

theorem sig_sequences_inj {E E' : Env} {t t' : Tx} (h : t.Built E) (h' : t'.Built E')
    (e : (t.sig.ins.map (·.2)).flatten = (t'.sig.ins.map (·.2)).flatten) : t.txIns.map (·.sequence) = t'.txIns.map (·.sequence) := by
  have hb : ∀ {E : Env} {t : Tx}, t.Built E → ∀ x ∈ t.sig.ins.map (·.2), x.length = 4 := by
    intro E t h x hx
    simp only [Tx.sig, List.map_map, List.mem_map, Function.comp] at hx
    obtain ⟨i, hi, rfl⟩ := hx
    exact (h.facts.ins i hi).eq.2.1
  have e2 := flatten_inj' (fixed_selfDelim 4) (by rintro x hx rfl; simp at hx) (hb h) (hb h') e
  simpa only [Tx.sig, List.map_map, Function.comp_def] using e2

theorem sig_outs_inj {E E' : Env} {t t' : Tx} (h : t.Built E) (h' : t'.Built E')
    (e : t.sig.outs.flatten = t'.sig.outs.flatten) : t.txOuts = t'.txOuts := by
  simp only [Tx.sig] at e
  rw [← outs_map h, ← outs_map h'] at e
  have e2 := flatten_inj' TxOut.selfDelim (by
    rintro x ⟨o, ho, rfl⟩ hh
    have := ho.eq
    rw [this.2.2] at hh
    unfold wireOut at hh
    have := congrArg List.length hh
    simp at this
    have := ho.eq.1
    simp_all)
    (fun x hx => by obtain ⟨o, ho, rfl⟩ := List.mem_map.1 hx; exact ⟨o, h.facts.outs o ho, rfl⟩)
    (fun x hx => by obtain ⟨o, ho, rfl⟩ := List.mem_map.1 hx; exact ⟨o, h'.facts.outs o ho, rfl⟩) e
  exact map_bytes_inj (P := TxOut.Built) (fun x y hx hy e => (hx.inj hy (r := []) (s := []) (by rw [e])).1) h.facts.outs h'.facts.outs e2

theorem hash_lengths {hash : Bytes → Bytes} (hh : ∀ b, (hash b).length = 32) (t : SigTx) (i T : Nat) :
    (hashPrevouts hash t T).length = 32 ∧ (hashSequence hash t T).length = 32 ∧ (Spec.hashOutputs hash t i T).length = 32 := by
  refine ⟨?_, ?_, ?_⟩
  · unfold hashPrevouts; split; · rfl
    exact hh _
  · unfold hashSequence; split; · rfl
    exact hh _
  · unfold Spec.hashOutputs
    split; · exact hh _
    split
    · split; · exact hh _
      rfl
    · rfl

/-- The fields of equal BIP143 preimages. -/
theorem bip143_inj {hash : Bytes → Bytes} (hh : ∀ b, (hash b).length = 32) {t t' : SigTx} {i i' : Nat} {o o' s s' c c' a a' : Bytes} {T T' : Nat}
    (lv : t.version.length = 4) (lv' : t'.version.length = 4) (ll : t.lockTime.length = 4) (ll' : t'.lockTime.length = 4)
    (lo : o.length = 36) (lo' : o'.length = 36) (ls : s.length = 4) (ls' : s'.length = 4) (la : a.length = 8) (la' : a'.length = 8)
    (lT : T < 2 ^ 32) (lT' : T' < 2 ^ 32)
    (e : bip143 hash t i o s c a T = bip143 hash t' i' o' s' c' a' T') :
    t.version = t'.version ∧ hashPrevouts hash t T = hashPrevouts hash t' T' ∧ hashSequence hash t T = hashSequence hash t' T' ∧
    o = o' ∧ c = c' ∧ a = a' ∧ s = s' ∧ Spec.hashOutputs hash t i T = Spec.hashOutputs hash t' i' T' ∧ t.lockTime = t'.lockTime ∧ T = T' := by
  obtain ⟨p1, p2, p3⟩ := hash_lengths hh t i T
  obtain ⟨q1, q2, q3⟩ := hash_lengths hh t' i' T'
  have lc : c.length = c'.length := by
    have := congrArg List.length e
    unfold bip143 at this
    simp only [List.length_append, leBytes_length] at this
    omega
  unfold bip143 at e
  simp only [List.append_assoc] at e
  obtain ⟨e1, e⟩ := List.append_inj e (by rw [lv, lv'])
  obtain ⟨e2, e⟩ := List.append_inj e (by rw [p1, q1])
  obtain ⟨e3, e⟩ := List.append_inj e (by rw [p2, q2])
  obtain ⟨e4, e⟩ := List.append_inj e (by rw [lo, lo'])
  obtain ⟨e5, e⟩ := List.append_inj e lc
  obtain ⟨e6, e⟩ := List.append_inj e (by rw [la, la'])
  obtain ⟨e7, e⟩ := List.append_inj e (by rw [ls, ls'])
  obtain ⟨e8, e⟩ := List.append_inj e (by rw [p3, q3])
  obtain ⟨e9, e⟩ := List.append_inj e (by rw [ll, ll'])
  exact ⟨e1, e2, e3, e4, e5, e6, e7, e8, e9, leBytes4_inj lT lT' e⟩

end Verif
