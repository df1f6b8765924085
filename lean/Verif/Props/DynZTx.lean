import Verif.Props.DynZ
import Verif.Spec.Zcash
import Verif.Props.DynSafe

/-! Properties C116 and C117, continued: the transactions of Zcash and Decred on arguments of any type. -/

namespace Verif.Props
open Verif Spec

/-! ### sequences of objects of a class -/

/-- A list or tuple of objects of the class, or anything else that can be iterated over and is empty; with the objects and their bytes. -/
structure SeqOf (c : Cls) (v : Val) (l : List Val) (bs : List Bytes) : Prop where
  seq : IsSeq v l ∨ v.iter = .ok [] ∧ l = []
  cls : l.all (Val.isInstance c) = true
  bytes : Contents l bs

theorem SeqOf.iter {c : Cls} {v : Val} {l : List Val} {bs : List Bytes} (h : SeqOf c v l bs) : v.iter = .ok l ∧ v.len = .ok l.length := by
  have : v.iter = .ok l := by
    rcases h.seq with h' | ⟨h', e⟩
    · exact h'.iter.1
    · rw [e]; exact h'
  exact ⟨this, len_of_iter this⟩

theorem SeqOf.all {c : Cls} {v : Val} {l : List Val} {bs : List Bytes} (h : SeqOf c v l bs) : v.allInstances c = .ok () :=
  allInstances_ok.2 ⟨l, h.iter.1, h.cls⟩

theorem SeqOf.length {c : Cls} {v : Val} {l : List Val} {bs : List Bytes} (h : SeqOf c v l bs) : l.length = bs.length := h.bytes.length

theorem SeqOf.nil_iff {c : Cls} {v : Val} {l : List Val} {bs : List Bytes} (h : SeqOf c v l bs) : l = [] ↔ bs = [] := by
  have := h.length
  constructor
  · rintro rfl; exact List.length_eq_zero_iff.1 this.symm
  · rintro rfl; exact List.length_eq_zero_iff.1 this

theorem seqOf_of {c : Cls} {v : Val} {l : List Val} (h1 : v.iter = .ok l) (h2 : l.all (Val.isInstance c) = true) : ∃ bs, SeqOf c v l bs := by
  obtain ⟨bs, hb⟩ := instances_content h2
  refine ⟨bs, ?_, h2, hb⟩
  by_cases e : l = []
  · exact .inr ⟨by rw [h1, e], e⟩
  · exact .inl (isSeq_of_instances h1 e h2)

theorem allInstances_cases (c : Cls) (v : Val) :
    (∃ l bs, SeqOf c v l bs ∧ v.allInstances c = .ok ()) ∨ (¬ ∃ l bs, SeqOf c v l bs) ∧ (v.allInstances c = .error .valueError ∨ v.allInstances c = .error .typeError ∧ v.len = .error .typeError) := by
  cases h : v.allInstances c with
  | ok u =>
    obtain ⟨l, h1, h2⟩ := allInstances_ok.1 h
    obtain ⟨bs, hs⟩ := seqOf_of h1 h2
    exact .inl ⟨l, bs, hs, rfl⟩
  | error e =>
    refine .inr ⟨?_, ?_⟩
    · rintro ⟨l, bs, hs⟩; rw [hs.all] at h; cases h
    · unfold Val.allInstances at h
      cases hi : v.iter with
      | ok l =>
        rw [hi, ok_bind] at h
        unfold check at h
        split at h
        · cases h
        · cases h; exact .inl rfl
      | error e' =>
        rw [hi] at h; cases h
        have : e = .typeError ∧ v.len = .error .typeError := by cases v <;> simp [Val.iter, Val.len] at hi ⊢ <;> exact hi.symm
        rw [this.1]; exact .inr ⟨rfl, this.2⟩

theorem addVector_ok {c : Cls} {v : Val} {l : List Val} {bs : List Bytes} (h : SeqOf c v l bs) (hl : l.length < 2 ^ 64) (self : Bytes) :
    Dyn.addVector self v = .ok (self ++ vector bs) := by
  unfold Dyn.addVector
  rw [h.iter.1, h.iter.2]
  simp only [ok_bind]
  rw [VarInt.make_len hl]
  simp only [ok_bind]
  rw [iaddAll_ok h.bytes, vector, h.length, List.append_assoc]

theorem addVector_error {c : Cls} {v : Val} {l : List Val} {bs : List Bytes} (h : SeqOf c v l bs) (hl : ¬ l.length < 2 ^ 64) (self : Bytes) :
    Dyn.addVector self v = .error .valueError := by
  unfold Dyn.addVector
  rw [h.iter.2]
  simp only [ok_bind]
  rw [VarInt.make_len_error hl]; rfl

/-! ### joinsplits in transactions -/

/-- The object was made by the constructor of the class `cls` of joinsplits, with proofs of class `proof`. -/
def JsMade (cls proof : Cls) (v : Val) : Prop :=
  ∃ net vo vn an nu cm ek rs vm zk en, Dyn.joinsplit cls proof net vo vn an nu cm ek rs vm zk en = .ok v

/-- `h_Sig` of a joinsplit on the wire (protocol specification, section 4.1.7): the seed, at offset 208, and the nullifiers, at offset 48, with the public key. -/
def hsigOf (E : Env) (pubkey j : Bytes) : Bytes := E.H.blake2b persHsig (slice j 208 240 ++ slice j 48 112 ++ pubkey)

/-- The primary input for the proof of a joinsplit on the wire: anchor, nullifiers, commitments, public values, `h_Sig` and the message authentication codes. -/
def primaryOf (E : Env) (pubkey j : Bytes) : Bytes :=
  slice j 16 48 ++ slice j 48 112 ++ slice j 112 176 ++ slice j 0 8 ++ slice j 8 16 ++ hsigOf E pubkey j ++ slice j 240 304

theorem slice_mid (a b c : Bytes) : slice (a ++ (b ++ c)) a.length (a.length + b.length) = b := by
  unfold slice
  rw [← List.append_assoc, List.take_left' (by simp), List.drop_left' rfl]

/-- The bytes of the fields of a joinsplit in its bytes. -/
theorem js_slices {b1 b2 b3 b4 b5 b6 b7 b8 z b9 j : Bytes} (hj : j = b1 ++ b2 ++ b3 ++ b4 ++ b5 ++ b6 ++ b7 ++ b8 ++ z ++ b9) (l1 : b1.length = 8) (l2 : b2.length = 8)
    (l3 : b3.length = 32) (l4 : b4.length = 64) (l5 : b5.length = 64) (l6 : b6.length = 32) (l7 : b7.length = 32) (l8 : b8.length = 64) :
    slice j 0 8 = b1 ∧ slice j 8 16 = b2 ∧ slice j 16 48 = b3 ∧ slice j 48 112 = b4 ∧ slice j 112 176 = b5 ∧ slice j 208 240 = b7 ∧ slice j 240 304 = b8 := by
  refine ⟨?_, ?_, ?_, ?_, ?_, ?_, ?_⟩
  · have := slice_mid [] b1 (b2 ++ b3 ++ b4 ++ b5 ++ b6 ++ b7 ++ b8 ++ z ++ b9)
    rw [hj]; simpa [l1] using this
  · have := slice_mid b1 b2 (b3 ++ b4 ++ b5 ++ b6 ++ b7 ++ b8 ++ z ++ b9)
    rw [hj]; simpa [l1, l2] using this
  · have := slice_mid (b1 ++ b2) b3 (b4 ++ b5 ++ b6 ++ b7 ++ b8 ++ z ++ b9)
    rw [hj]; simpa [l1, l2, l3] using this
  · have := slice_mid (b1 ++ b2 ++ b3) b4 (b5 ++ b6 ++ b7 ++ b8 ++ z ++ b9)
    rw [hj]; simpa [l1, l2, l3, l4] using this
  · have := slice_mid (b1 ++ b2 ++ b3 ++ b4) b5 (b6 ++ b7 ++ b8 ++ z ++ b9)
    rw [hj]; simpa [l1, l2, l3, l4, l5] using this
  · have := slice_mid (b1 ++ b2 ++ b3 ++ b4 ++ b5 ++ b6) b7 (b8 ++ z ++ b9)
    rw [hj]; simpa [l1, l2, l3, l4, l5, l6, l7] using this
  · have := slice_mid (b1 ++ b2 ++ b3 ++ b4 ++ b5 ++ b6 ++ b7) b8 (z ++ b9)
    rw [hj]; simpa [l1, l2, l3, l4, l5, l6, l7, l8] using this

theorem persHsig_eq : ascii (pystr "ZcashComputehSig") = persHsig := by decide +kernel

theorem hsig_made {E : Env} {cls proof : Cls} {pk v : Val} {k j : Bytes} (hv : JsMade cls proof v) (hj : v.content = some j) (hk : pk.content = some k) :
    Dyn.hsig E pk v = .ok (hsigOf E k j) ∧ ∀ h, Dyn.primaryInput v h =
      .ok (slice j 16 48 ++ slice j 48 112 ++ slice j 112 176 ++ slice j 0 8 ++ slice j 8 16 ++ h ++ slice j 240 304) := by
  obtain ⟨net, vo, vn, an, nu, cm, ek, rs, vm, zk, en, h⟩ := hv
  obtain ⟨-, -, b1, b2, b3, b4, b5, b6, b7, b8, b9, z, hf, -, -, rfl⟩ := ((C116_joinsplit _ _ _ _ _ _ _ _ _ _ _ _ _).1 v).1 h
  simp only [jsFields, Fields.cons, Fields.nil, List.cons.injEq] at hf
  obtain ⟨_, _, ⟨rfl, rfl⟩, c1, l1, _, _, ⟨rfl, rfl⟩, c2, l2, _, _, ⟨rfl, rfl⟩, c3, l3, _, _, ⟨rfl, rfl⟩, c4, l4, _, _, ⟨rfl, rfl⟩, c5, l5, _, _, ⟨rfl, rfl⟩, c6, l6,
    _, _, ⟨rfl, rfl⟩, c7, l7, _, _, ⟨rfl, rfl⟩, c8, l8, -⟩ := hf
  cases hj
  obtain ⟨s1, s2, s3, s4, s5, s7, s8⟩ := js_slices (z := z) (b9 := b9) rfl l1 l2 l3 l4 l5 l6 l7 l8
  constructor
  · unfold Dyn.hsig hsigOf
    rw [s7, s4, persHsig_eq]
    simp only [Val.attr, List.getElem?_cons_succ, List.getElem?_cons_zero, ok_bind]
    rw [iadd_ok.2 ⟨b7, c7, rfl⟩, ok_bind, iadd_ok.2 ⟨b4, c4, rfl⟩, ok_bind, iadd_ok.2 ⟨k, hk, rfl⟩, ok_bind]
    rfl
  · intro h
    unfold Dyn.primaryInput
    rw [s1, s2, s3, s4, s5, s8]
    simp only [Val.attr, List.getElem?_cons_succ, List.getElem?_cons_zero, ok_bind]
    rw [iadd_ok.2 ⟨b3, c3, rfl⟩, ok_bind, iadd_ok.2 ⟨b4, c4, rfl⟩, ok_bind, iadd_ok.2 ⟨b5, c5, rfl⟩, ok_bind, iadd_ok.2 ⟨b1, c1, rfl⟩, ok_bind, iadd_ok.2 ⟨b2, c2, rfl⟩,
      ok_bind, iadd_ok.2 ⟨b8, c8, rfl⟩]
    simp

theorem hsigs_made {E : Env} {cls proof : Cls} {pk : Val} {k : Bytes} {l : List Val} {bs : List Bytes} (hv : ∀ v ∈ l, JsMade cls proof v) (hb : Contents l bs)
    (hk : l ≠ [] → pk.content = some k) : Dyn.hsigs E pk l = .ok (bs.map (hsigOf E k), bs.map (primaryOf E k)) := by
  have key : mapPy (Dyn.hsig E pk) l = .ok (bs.map (hsigOf E k)) ∧
      mapPy (fun p => Dyn.primaryInput p.1 p.2) (l.zip (bs.map (hsigOf E k))) = .ok (bs.map (primaryOf E k)) := by
    induction l generalizing bs with
    | nil =>
      cases bs with
      | nil => exact ⟨rfl, rfl⟩
      | cons _ _ => simp [Contents] at hb
    | cons v l ih =>
      cases bs with
      | nil => simp [Contents] at hb
      | cons b bs =>
        simp only [Contents, List.map_cons, List.cons.injEq] at hb
        obtain ⟨h1, h2⟩ := ih (fun v h => hv v (List.mem_cons_of_mem _ h)) hb.2 (fun _ => hk (by simp))
        obtain ⟨k1, k2⟩ := hsig_made (hv v (List.mem_cons_self ..)) hb.1 (hk (by simp))
        constructor
        · unfold mapPy
          rw [k1, h1]; rfl
        · simp only [List.map_cons, List.zip_cons_cons]
          unfold mapPy
          simp only [k2, h2]; rfl
  unfold Dyn.hsigs
  rw [key.1, ok_bind, key.2]; rfl

theorem checkJsSig_cases (n : Nat) (pk sig : Val) :
    (∃ k s, (n ≠ 0 → Byteslike pk k ∧ k.length = 32 ∧ Byteslike sig s ∧ s.length = 64) ∧ Dyn.checkJsSig n pk sig = .ok ()) ∨
    (¬ ∃ k s, n ≠ 0 → Byteslike pk k ∧ k.length = 32 ∧ Byteslike sig s ∧ s.length = 64) ∧ Dyn.checkJsSig n pk sig = .error .valueError := by
  unfold Dyn.checkJsSig
  by_cases hn : n ≠ 0
  · rw [if_pos hn]
    rcases validate_cases pk (some 32) with ⟨k, hk, lk, e⟩ | ⟨hk, e⟩
    · rcases validate_cases sig (some 64) with ⟨s, hs, ls, e'⟩ | ⟨hs, e'⟩
      · exact .inl ⟨k, s, fun _ => ⟨hk, lk _ rfl, hs, ls _ rfl⟩, by rw [e, ok_bind, e']⟩
      · refine .inr ⟨?_, by rw [e, ok_bind, e']⟩
        rintro ⟨k, s, h⟩
        exact hs ⟨s, (h hn).2.2.1, fun k e => by cases e; exact (h hn).2.2.2⟩
    · refine .inr ⟨?_, by rw [e]; rfl⟩
      rintro ⟨k, s, h⟩
      exact hk ⟨k, (h hn).1, fun k e => by cases e; exact (h hn).2.1⟩
  · rw [if_neg hn]
    exact .inl ⟨[], [], fun h => absurd h hn, rfl⟩

/-- Joinsplits with public key and signature, as Overwinter and Sapling transactions take them. -/
structure JsArgs (c : Cls) (txJoinsplits pubkey sig : Val) (js : List Val) (bj : List Bytes) (k s : Bytes) : Prop where
  seq : SeqOf c txJoinsplits js bj
  five : js.length ≤ 5
  keys : js.length ≠ 0 → Byteslike pubkey k ∧ k.length = 32 ∧ Byteslike sig s ∧ s.length = 64

theorem addJs_ok {c : Cls} {js pk sig : Val} {l : List Val} {bj : List Bytes} {k s : Bytes} (h : JsArgs c js pk sig l bj k s) (self : Bytes) :
    Dyn.addJs self js pk sig = .ok (self ++ wireJoinsplits bj k s) := by
  unfold Dyn.addJs
  rw [h.seq.iter.1, h.seq.iter.2]
  have h5 := h.five
  have hl := h.seq.length
  simp only [ok_bind]
  rw [VarInt.make_len (by omega)]
  simp only [ok_bind]
  by_cases hn : l.length ≠ 0
  · rw [if_pos hn, iaddAll_ok h.seq.bytes]
    obtain ⟨h1, -, h3, -⟩ := h.keys hn
    simp only [ok_bind]
    rw [iadd_ok.2 ⟨k, h1, rfl⟩, ok_bind, iadd_ok.2 ⟨s, h3, rfl⟩, wireJoinsplits, if_neg (fun e => hn (by rw [hl, e]; rfl)), vector, hl]
    simp
  · have h0 : l.length = 0 := by omega
    have hb : bj = [] := List.length_eq_zero_iff.1 (by omega)
    rw [if_neg hn, hb, wireJoinsplits, if_pos rfl, h0]
    simp [vector]

/-- The attributes of a transaction about its joinsplits: the joinsplits, public key, signature, and the `h_Sig` and primary input of each. -/
def jsObjs (E : Env) (pubkey sig : Val) (js : List Val) (bj : List Bytes) (k : Bytes) : List Val :=
  if js = [] then [.tuple [], .none, .none, .tuple [], .tuple []]
  else [.tuple js, pubkey, sig, .tuple (bj.map fun j => .bytes (hsigOf E k j)), .tuple (bj.map fun j => .bytes (primaryOf E k j))]

theorem jsAttrs_ok {E : Env} {c proof : Cls} {js pk sig : Val} {l : List Val} {bj : List Bytes} {k s : Bytes} (h : JsArgs c js pk sig l bj k s)
    (hm : ∀ v ∈ l, JsMade c proof v) : Dyn.jsAttrs E js pk sig = .ok (jsObjs E pk sig l bj k) := by
  unfold Dyn.jsAttrs jsObjs
  rw [h.seq.iter.1, h.seq.iter.2]
  simp only [ok_bind]
  by_cases hn : l.length ≠ 0
  · have hl : l ≠ [] := fun e => hn (by rw [e]; rfl)
    rw [if_pos hn, if_neg hl, hsigs_made hm h.seq.bytes (fun _ => (h.keys hn).1)]
    simp only [ok_bind, List.map_map]
    rfl
  · have hl : l = [] := List.length_eq_zero_iff.1 (by omega)
    rw [if_neg hn, if_pos hl]

/-! ### Overwinter -/

/-- The arguments that `OverwinterTx(…)` accepts, apart from the limit of size. -/
structure OverArgs (net : Network) (txIns txOuts lockTime expiry txJoinsplits pubkey sig : Val) (bl be : Bytes) (ins outs js : List Val) (bi bo bj : List Bytes) (k s : Bytes) :
    Prop where
  zcash : net.isZcash = true
  over : net.isOverwinter = true
  lock : Byteslike lockTime bl
  lock_len : bl.length = 4
  exp : Byteslike expiry be
  exp_len : be.length = 4
  exp_le : leValue be ≤ 499999999
  ins_ok : SeqOf .txIn txIns ins bi
  ins_lt : ins.length < 2 ^ 64
  outs_ok : SeqOf .txOut txOuts outs bo
  outs_lt : outs.length < 2 ^ 64
  js_ok : JsArgs .sproutJs txJoinsplits pubkey sig js bj k s
  some : ins ≠ [] ∨ js ≠ []

/-- The object that `OverwinterTx(…)` makes. -/
def overObj (E : Env) (lockTime expiry pubkey sig : Val) (ins outs js : List Val) (bj : List Bytes) (k b : Bytes) : Val :=
  .obj .overwinterTx ([.tuple ins, .tuple outs, lockTime, expiry] ++ jsObjs E pubkey sig js bj k ++ [.bytes (E.hash256 b), .bytes (E.hash256 b).reverse]) b

/-- The constructor on arguments that meet the tests; the attributes about the joinsplits are read from the joinsplits. -/
theorem over_eq_of {E : Env} {txIns txOuts lockTime expiry txJoinsplits pubkey sig : Val} {bl be : Bytes} {ins outs js : List Val} {bi bo bj : List Bytes} {k s : Bytes}
    (h : OverArgs E.net txIns txOuts lockTime expiry txJoinsplits pubkey sig bl be ins outs js bi bo bj k s) :
    Dyn.overwinterTx E txIns txOuts lockTime expiry txJoinsplits pubkey sig =
      (do let q ← Dyn.jsAttrs E txJoinsplits pubkey sig
          check (¬ (wireOverwinter bi bo bl be bj k s).length > 100000) .valueError
          .ok (.obj .overwinterTx ([.tuple ins, .tuple outs, lockTime, expiry] ++ q ++
            [.bytes (E.hash256 (wireOverwinter bi bo bl be bj k s)), .bytes (E.hash256 (wireOverwinter bi bo bl be bj k s)).reverse]) (wireOverwinter bi bo bl be bj k s))) := by
  have h5 := h.js_ok.five
  have hsig : Dyn.checkJsSig js.length pubkey sig = .ok () := by
    rcases checkJsSig_cases js.length pubkey sig with ⟨_, _, _, e⟩ | ⟨e, _⟩
    · exact e
    · exact absurd ⟨k, s, h.js_ok.keys⟩ e
  have hso : ¬ (js.length = 0 ∧ ins.length = 0) := by
    rintro ⟨e1, e2⟩
    rcases h.some with e | e
    · exact e (List.length_eq_zero_iff.1 e2)
    · exact e (List.length_eq_zero_iff.1 e1)
  have hw : ([0x03, 0x00, 0x00, 0x80] ++ [0x70, 0x82, 0xc4, 0x03] ++ vector bi ++ vector bo ++ bl ++ be ++ wireJoinsplits bj k s : Bytes) = wireOverwinter bi bo bl be bj k s := rfl
  unfold Dyn.overwinterTx zcashGate
  rw [check_bind, if_pos h.zcash, check_bind, if_pos h.over, (validate_ok (u := ())).2 ⟨bl, h.lock, fun k e => by cases e; exact h.lock_len⟩, ok_bind,
    (validate_ok (u := ())).2 ⟨be, h.exp, fun k e => by cases e; exact h.exp_len⟩, ok_bind, le2i_content h.exp, ok_bind, check_bind, if_pos (by have := h.exp_le; omega),
    h.ins_ok.all, ok_bind, h.outs_ok.all, ok_bind, h.js_ok.seq.iter.2, ok_bind, check_bind, if_pos (by omega), h.js_ok.seq.all, ok_bind, hsig, ok_bind, h.ins_ok.iter.2, ok_bind,
    check_bind, if_pos hso, addVector_ok h.ins_ok h.ins_lt, ok_bind, addVector_ok h.outs_ok h.outs_lt, ok_bind, iadd_ok.2 ⟨bl, h.lock, rfl⟩, ok_bind,
    iadd_ok.2 ⟨be, h.exp, rfl⟩, ok_bind, addJs_ok h.js_ok, ok_bind, h.ins_ok.iter.1, ok_bind, h.outs_ok.iter.1, ok_bind, hw]

theorem over_ok_of {E : Env} {txIns txOuts lockTime expiry txJoinsplits pubkey sig : Val} {bl be : Bytes} {ins outs js : List Val} {bi bo bj : List Bytes} {k s : Bytes}
    (h : OverArgs E.net txIns txOuts lockTime expiry txJoinsplits pubkey sig bl be ins outs js bi bo bj k s) (hm : ∀ v ∈ js, JsMade .sproutJs .sproutProof v) :
    Dyn.overwinterTx E txIns txOuts lockTime expiry txJoinsplits pubkey sig =
      (do check (¬ (wireOverwinter bi bo bl be bj k s).length > 100000) .valueError
          .ok (overObj E lockTime expiry pubkey sig ins outs js bj k (wireOverwinter bi bo bl be bj k s))) := by
  rw [over_eq_of h, jsAttrs_ok h.js_ok hm, ok_bind]
  rfl

/-- What the tests of the constructor establish; and the exceptions of the tests. -/
theorem over_tests (E : Env) (txIns txOuts lockTime expiry txJoinsplits pubkey sig : Val) :
    (∃ bl be ins outs js bi bo bj k s, OverArgs E.net txIns txOuts lockTime expiry txJoinsplits pubkey sig bl be ins outs js bi bo bj k s) ∨
    (Dyn.overwinterTx E txIns txOuts lockTime expiry txJoinsplits pubkey sig = .error .valueError ∨
      Dyn.overwinterTx E txIns txOuts lockTime expiry txJoinsplits pubkey sig = .error .typeError ∧
        (txIns.len = .error .typeError ∨ txOuts.len = .error .typeError ∨ txJoinsplits.len = .error .typeError)) := by
  unfold Dyn.overwinterTx zcashGate
  rw [check_bind]
  by_cases hz : E.net.isZcash = true
  case neg => rw [if_neg hz]; exact .inr (.inl rfl)
  rw [if_pos hz, check_bind]
  by_cases ho : E.net.isOverwinter = true
  case neg => rw [if_neg ho]; exact .inr (.inl rfl)
  rw [if_pos ho]
  rcases validate_cases lockTime (some 4) with ⟨bl, hl, ll, e⟩ | ⟨-, e⟩ <;> rw [e]
  case inr => exact .inr (.inl rfl)
  rw [ok_bind]
  rcases validate_cases expiry (some 4) with ⟨be, he, le, e⟩ | ⟨-, e⟩ <;> rw [e]
  case inr => exact .inr (.inl rfl)
  rw [ok_bind, le2i_content he, ok_bind, check_bind]
  by_cases hx : ¬ leValue be > 499999999
  case neg => rw [if_neg hx]; exact .inr (.inl rfl)
  rw [if_pos hx]
  rcases allInstances_cases .txIn txIns with ⟨ins, bi, hi, e⟩ | ⟨-, e | ⟨e, h⟩⟩ <;> rw [e]
  case inr.inl => exact .inr (.inl rfl)
  case inr.inr => exact .inr (.inr ⟨rfl, .inl h⟩)
  rw [ok_bind]
  rcases allInstances_cases .txOut txOuts with ⟨outs, bo, hout, e⟩ | ⟨-, e | ⟨e, h⟩⟩ <;> rw [e]
  case inr.inl => exact .inr (.inl rfl)
  case inr.inr => exact .inr (.inr ⟨rfl, .inr (.inl h)⟩)
  rw [ok_bind]
  cases hnj : txJoinsplits.len with
  | error e => have := len_error hnj; subst this; exact .inr (.inr ⟨rfl, .inr (.inr rfl)⟩)
  | ok nj =>
  rw [ok_bind, check_bind]
  by_cases h5 : ¬ nj > 5
  case neg => rw [if_neg h5]; exact .inr (.inl rfl)
  rw [if_pos h5]
  rcases allInstances_cases .sproutJs txJoinsplits with ⟨js, bj, hj, e⟩ | ⟨-, e | ⟨e, h⟩⟩ <;> rw [e]
  case inr.inl => exact .inr (.inl rfl)
  case inr.inr => rw [hnj] at h; cases h
  rw [hj.iter.2] at hnj
  cases hnj
  rw [ok_bind]
  rcases checkJsSig_cases js.length pubkey sig with ⟨k, s, hk, e⟩ | ⟨-, e⟩ <;> rw [e]
  case inr => exact .inr (.inl rfl)
  rw [ok_bind, hi.iter.2, ok_bind, check_bind]
  by_cases hs : ¬ (js.length = 0 ∧ ins.length = 0)
  case neg => rw [if_neg hs]; exact .inr (.inl rfl)
  rw [if_pos hs]
  by_cases li : ins.length < 2 ^ 64
  case neg => rw [addVector_error hi li]; exact .inr (.inl rfl)
  rw [addVector_ok hi li, ok_bind]
  by_cases lo : outs.length < 2 ^ 64
  case neg => rw [addVector_error hout lo]; exact .inr (.inl rfl)
  refine .inl ⟨bl, be, ins, outs, js, bi, bo, bj, k, s, ⟨hz, ho, hl, ll _ rfl, he, le _ rfl, by omega, hi, li, hout, lo, ⟨hj, by omega, hk⟩, ?_⟩⟩
  by_cases e0 : ins = []
  · right; rintro rfl; exact hs ⟨rfl, by rw [e0]; rfl⟩
  · exact .inl e0

/-- C116: `OverwinterTx(…)` with whatever arguments makes an object exactly when: the network is an Overwinter one; lock time and expiry height are bytes-like of 4 bytes, the height
at most 499999999; inputs, outputs and joinsplits are lists or tuples (or anything iterable and empty) of objects of the classes, at most 5 joinsplits, and not no inputs and no
joinsplits; if there are joinsplits, public key and signature are bytes-like of 32 and 64 bytes; and the transaction has at most 100000 bytes. Its bytes are then those of the
transaction on the wire, its id their hash, and the `h_Sig` and primary inputs those of the joinsplits on the wire. Otherwise it raises ValueError, or TypeError if an argument that
should be a sequence has no length. (Joinsplits are objects that the constructor of their class has made.) -/
theorem C116_overwinter (E : Env) (txIns txOuts lockTime expiry txJoinsplits pubkey sig : Val)
    (hm : ∀ l, IsSeq txJoinsplits l → ∀ v ∈ l, v.isInstance .sproutJs = true → JsMade .sproutJs .sproutProof v) :
    (∀ v, Dyn.overwinterTx E txIns txOuts lockTime expiry txJoinsplits pubkey sig = .ok v ↔
      ∃ bl be ins outs js bi bo bj k s, OverArgs E.net txIns txOuts lockTime expiry txJoinsplits pubkey sig bl be ins outs js bi bo bj k s ∧
        (wireOverwinter bi bo bl be bj k s).length ≤ 100000 ∧ v = overObj E lockTime expiry pubkey sig ins outs js bj k (wireOverwinter bi bo bl be bj k s)) ∧
    ∀ e, Dyn.overwinterTx E txIns txOuts lockTime expiry txJoinsplits pubkey sig = .error e → e = .valueError ∨
      e = .typeError ∧ (txIns.len = .error .typeError ∨ txOuts.len = .error .typeError ∨ txJoinsplits.len = .error .typeError) := by
  have key : ∀ {bl be ins outs js bi bo bj k s}, OverArgs E.net txIns txOuts lockTime expiry txJoinsplits pubkey sig bl be ins outs js bi bo bj k s →
      Dyn.overwinterTx E txIns txOuts lockTime expiry txJoinsplits pubkey sig =
        (do check (¬ (wireOverwinter bi bo bl be bj k s).length > 100000) .valueError
            .ok (overObj E lockTime expiry pubkey sig ins outs js bj k (wireOverwinter bi bo bl be bj k s))) := by
    intro bl be ins outs js bi bo bj k s h
    refine over_ok_of h fun v hv => ?_
    rcases h.js_ok.seq.seq with hs | ⟨-, rfl⟩
    · exact hm js hs v hv (List.all_eq_true.1 h.js_ok.seq.cls v hv)
    · nomatch hv
  constructor
  · intro v
    constructor
    · intro h
      rcases over_tests E txIns txOuts lockTime expiry txJoinsplits pubkey sig with ⟨bl, be, ins, outs, js, bi, bo, bj, k, s, ha⟩ | e | ⟨e, -⟩
      · rw [key ha, check_bind] at h
        split at h
        · cases h; exact ⟨bl, be, ins, outs, js, bi, bo, bj, k, s, ha, by omega, rfl⟩
        · cases h
      · rw [e] at h; cases h
      · rw [e] at h; cases h
    · rintro ⟨bl, be, ins, outs, js, bi, bo, bj, k, s, ha, hs, rfl⟩
      rw [key ha, check_bind, if_pos (by omega)]
  · intro e h
    rcases over_tests E txIns txOuts lockTime expiry txJoinsplits pubkey sig with ⟨bl, be, ins, outs, js, bi, bo, bj, k, s, ha⟩ | e' | ⟨e', ht⟩
    · rw [key ha, check_bind] at h
      split at h
      · cases h
      · cases h; exact .inl rfl
    · rw [e'] at h; cases h; exact .inl rfl
    · rw [e'] at h; cases h; exact .inr ⟨rfl, ht⟩

end Verif.Props
