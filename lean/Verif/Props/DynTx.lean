import Verif.Props.Dyn
import Verif.Lemmas.TxParse3

/-! Property C114, continued: `InputWitness` and `Tx` on arguments of any type. -/

namespace Verif.Props
open Verif Spec

/-- The elements are bytes-like, with these bytes. -/
def Contents (l : List Val) (bs : List Bytes) : Prop := l.map Val.content = bs.map some

theorem Contents.unique {l : List Val} {a b : List Bytes} (ha : Contents l a) (hb : Contents l b) : a = b := by
  unfold Contents at ha hb
  rw [ha] at hb
  exact List.map_injective_iff.2 (fun _ _ h => Option.some.inj h) hb

theorem Contents.length {l : List Val} {a : List Bytes} (h : Contents l a) : l.length = a.length := by
  have := congrArg List.length h
  simpa using this

theorem check_ok {p : Prop} [Decidable p] {e : PyErr} {u : Unit} : check p e = .ok u ↔ p := by
  unfold check
  by_cases h : p <;> simp [h]

theorem allInstances_ok {c : Cls} {v : Val} {u : Unit} : v.allInstances c = .ok u ↔ ∃ l, v.iter = .ok l ∧ l.all (Val.isInstance c) = true := by
  unfold Val.allInstances
  simp only [bind_ok_iff, check_ok]

/-- C114: `InputWitness(stack)` accepts exactly the iterables whose elements are all `WitnessStackItem` objects: lists and tuples of them, and anything iterable and empty,
such as `b''` or `''`. -/
theorem C114_witness (s : Val) :
    (∀ v, Dyn.witness s = .ok v ↔ ∃ l bs, (IsSeq s l ∨ s.iter = .ok [] ∧ l = []) ∧ l.all (Val.isInstance .item) = true ∧ l.length < 2 ^ 64 ∧ Contents l bs ∧
      v = .obj .witness [.tuple l] (vector bs)) ∧
    ∀ e, Dyn.witness s = .error e → e = .valueError ∨ e = .typeError ∧ s.iter = .error .typeError := by
  constructor
  · intro v
    unfold Dyn.witness
    simp only [bind_ok_iff, allInstances_ok, VarInt.make_len_iff]
    constructor
    · rintro ⟨-, ⟨l, hl, hi⟩, n, hn, vi, ⟨hn2, rfl⟩, l', hl', self, hself, hv⟩
      rw [hl] at hl'; cases hl'
      rw [len_of_iter hl] at hn; cases hn
      obtain ⟨bs, hb⟩ := instances_content hi
      rw [iaddAll_ok hb] at hself
      cases hself
      refine ⟨l, bs, ?_, hi, hn2, hb, ?_⟩
      · by_cases e : l = []
        · exact .inr ⟨by rw [hl, e], e⟩
        · exact .inl (isSeq_of_instances hl e hi)
      · cases hv
        rw [vector, Contents.length hb]
    · rintro ⟨l, bs, hs, hi, hn, hb, rfl⟩
      have hl : s.iter = .ok l := by
        rcases hs with h | ⟨h, rfl⟩
        · exact h.iter.1
        · exact h
      exact ⟨(), ⟨l, hl, hi⟩, _, len_of_iter hl, _, ⟨hn, rfl⟩, l, hl, _, iaddAll_ok hb _, by rw [vector, Contents.length hb]⟩
  · intro e h
    unfold Dyn.witness Val.allInstances at h
    cases hl : s.iter with
    | error e' =>
      have he' : e' = .typeError := by cases s <;> simp [Val.iter] at hl <;> exact hl.symm
      rw [hl, he'] at h
      cases h
      exact .inr ⟨rfl, by rw [he']⟩
    | ok l =>
      rw [hl, len_of_iter hl] at h
      simp only [ok_bind] at h
      by_cases hi : l.all (Val.isInstance .item) = true
      · obtain ⟨bs, hb⟩ := instances_content hi
        rw [check, if_pos hi] at h
        simp only [ok_bind] at h
        by_cases hn : l.length < 2 ^ 64
        · rw [VarInt.make_len hn] at h
          simp only [ok_bind] at h
          rw [iaddAll_ok hb] at h
          cases h
        · rw [VarInt.make_len_error hn] at h
          cases h; exact .inl rfl
      · rw [check, if_neg hi] at h
        cases h; exact .inl rfl

/-! ### `Tx` -/

theorem checkFlag_ok {E : Env} {f : Val} {u : Unit} : Dyn.checkFlag E f = .ok u ↔ f = .none ∨ f.content = some E.net.segwitTxFlag := by
  have key : ∀ f : Val, (if f.neBytes E.net.segwitTxFlag then (do f.hexAttr; .error .valueError : Py Unit) else .ok ()) = .ok u ↔ f.content = some E.net.segwitTxFlag := by
    intro f
    unfold Val.neBytes Val.hexAttr
    cases h : f.content with
    | none => simp
    | some b =>
      by_cases hb : b = E.net.segwitTxFlag
      · simp [hb]
      · simp [hb, ok_bind]
  unfold Dyn.checkFlag
  split
  · simp
  · rename_i hf
    rw [key]
    exact ⟨.inr, fun h => h.resolve_left hf⟩

/-- The errors of the test of the flag. -/
theorem checkFlag_error {E : Env} {f : Val} {e : PyErr} (h : Dyn.checkFlag E f = .error e) :
    e = .valueError ∨ e = .attributeError ∧ f ≠ .none ∧ f.content = none := by
  unfold Dyn.checkFlag at h
  split at h
  · cases h
  · rename_i hf
    split at h
    · unfold Val.hexAttr at h
      cases hc : f.content with
      | some b => rw [hc] at h; cases h; exact .inl rfl
      | none => rw [hc] at h; cases h; exact .inr ⟨rfl, hf, rfl⟩
    · cases h

/-- Witnesses as the constructor accepts them, the tuple that is stored, and their bytes. -/
def WitsOK (flag w : Val) (nIns : Nat) (stored : Val) (bw : List Bytes) : Prop :=
  w = .none ∧ stored = .none ∧ bw = [] ∨
  w.iter = .ok [] ∧ stored = .tuple [] ∧ bw = [] ∨
  ∃ l, flag ≠ .none ∧ IsSeq w l ∧ l.length = nIns ∧ l.all (Val.isInstance .witness) = true ∧ Contents l bw ∧ stored = .tuple l

theorem checkWitnesses_ok {flag ins w : Val} {n : Nat} {u : Unit} (hi : ins.len = .ok n) :
    Dyn.checkWitnesses flag ins w = .ok u ↔ w = .none ∨ w.iter = .ok [] ∨
      ∃ l, l ≠ [] ∧ flag ≠ .none ∧ IsSeq w l ∧ l.length = n ∧ l.all (Val.isInstance .witness) = true := by
  by_cases hw : w = .none
  · subst hw; simp [Dyn.checkWitnesses]
  · have e : Dyn.checkWitnesses flag ins w = (do
        let n ← w.len
        if n ≠ 0 then
          match flag with
          | .none => .error .valueError
          | _ => do
            let ni ← ins.len
            check (n = ni) .valueError
            w.allInstances .witness
        else .ok ()) := by
      cases w <;> first | rfl | exact absurd rfl hw
    rw [e]
    simp only [hw, false_or]
    constructor
    · intro h
      obtain ⟨m, hm, h⟩ := bind_ok_iff.1 h
      by_cases hm0 : m ≠ 0
      · rw [if_pos hm0] at h
        right
        split at h
        · cases h
        · rename_i hf
          rw [hi] at h
          simp only [ok_bind, bind_ok_iff, check_ok, allInstances_ok] at h
          obtain ⟨-, hmn, l, hl, hall⟩ := h
          rw [len_of_iter hl] at hm
          cases hm
          have hne : l ≠ [] := fun e => hm0 (by rw [e]; rfl)
          exact ⟨l, hne, hf, isSeq_of_instances hl hne hall, hmn, hall⟩
      · left
        have hm0 : m = 0 := by omega
        subst hm0
        cases w <;> simp [Val.len, Val.iter] at hm ⊢ <;> exact hm
    · rintro (h | ⟨l, hne, hf, hs, hl, hall⟩)
      · rw [len_of_iter h]; rfl
      · rw [hs.iter.2]
        simp only [ok_bind]
        rw [if_pos (fun e => hne (List.length_eq_zero_iff.1 e))]
        have h2 : (do let ni ← ins.len; check (l.length = ni) .valueError; w.allInstances .witness : Py Unit) = .ok u := by
          rw [hi]
          simp only [ok_bind, bind_ok_iff, check_ok, allInstances_ok]
          exact ⟨(), hl, l, hs.iter.1, hall⟩
        cases flag <;> first | exact absurd rfl hf | exact h2

theorem addWitnesses_ok {flag w : Val} {n : Nat} {stored : Val} {bw : List Bytes} (h : WitsOK flag w n stored bw) (self : Bytes) :
    Dyn.addWitnesses self w = .ok (self ++ bw.flatten, stored) := by
  rcases h with ⟨rfl, rfl, rfl⟩ | ⟨h, rfl, rfl⟩ | ⟨l, -, hs, -, -, hb, rfl⟩
  · simp [Dyn.addWitnesses]
  · have hw : w ≠ .none := by rintro rfl; cases h
    have e : Dyn.addWitnesses self w = (do let ws ← w.iter; let self ← Val.iaddAll self ws; .ok (self, .tuple ws)) := by
      cases w <;> first | rfl | exact absurd rfl hw
    rw [e, h]
    simp [ok_bind, Val.iaddAll]
  · have e : Dyn.addWitnesses self w = (do let ws ← w.iter; let self ← Val.iaddAll self ws; .ok (self, .tuple ws)) := by
      rcases hs with rfl | rfl <;> rfl
    rw [e, hs.iter.1]
    simp only [ok_bind]
    rw [iaddAll_ok hb]
    rfl

theorem addTo_raw {v : Val} {b self : Bytes} (hr : RawBytes v) (hb : v.content = some b) : Val.addTo self v = .ok (self ++ b) := by
  obtain ⟨x, rfl | rfl⟩ := hr <;> cases hb <;> rfl

theorem addTo_ok {v : Val} {self r : Bytes} (h : Val.addTo self v = .ok r) : RawBytes v := by
  unfold Val.addTo at h
  split at h
  · exact ⟨_, .inl rfl⟩
  · exact ⟨_, .inr rfl⟩
  · cases h

theorem addFlag_ok {self : Bytes} {f : Val} {b : Bytes} (h : f = .none ∧ b = [] ∨ f.content = some b) : Dyn.addFlag self f = .ok (self ++ b) := by
  rcases h with ⟨rfl, rfl⟩ | h
  · simp [Dyn.addFlag]
  · cases f <;> simp [Val.content] at h <;> subst h <;> rfl

/-- The arguments that `Tx(…)` accepts, apart from what depends on the flag: the fixed-width fields, and lists or tuples of inputs and outputs. -/
structure TxArgs (version txIns txOuts lockTime : Val) (bv bl : Bytes) (ins outs : List Val) (bi bo : List Bytes) : Prop where
  version : Byteslike version bv
  version_len : bv.length = 4
  lock : Byteslike lockTime bl
  lock_len : bl.length = 4
  ins_seq : IsSeq txIns ins
  ins_ne : ins ≠ []
  ins_lt : ins.length < 2 ^ 64
  ins_cls : ins.all (Val.isInstance .txIn) = true
  ins_bytes : Contents ins bi
  outs_seq : IsSeq txOuts outs
  outs_ne : outs ≠ []
  outs_lt : outs.length < 2 ^ 64
  outs_cls : outs.all (Val.isInstance .txOut) = true
  outs_bytes : Contents outs bo

theorem noWitness_ok {version txIns txOuts lockTime : Val} {bv bl : Bytes} {ins outs : List Val} {bi bo : List Bytes}
    (h : TxArgs version txIns txOuts lockTime bv bl ins outs bi bo) (hv : RawBytes version) (hl : RawBytes lockTime) :
    Dyn.noWitness version ins outs lockTime = .ok (wireLegacy bv bi bo bl) := by
  unfold Dyn.noWitness
  rw [addTo_raw hv h.version, VarInt.make_len h.ins_lt, VarInt.make_len h.outs_lt]
  simp only [ok_bind]
  rw [iaddAll_ok h.ins_bytes]
  simp only [ok_bind]
  rw [iaddAll_ok h.outs_bytes]
  simp only [ok_bind]
  rw [addTo_raw hl h.lock]
  simp only [wireLegacy, vector, h.ins_bytes.length, h.outs_bytes.length, List.append_assoc, List.nil_append]

theorem noWitness_raw {version lockTime : Val} {ins outs : List Val} {r : Bytes} (h : Dyn.noWitness version ins outs lockTime = .ok r) :
    RawBytes version ∧ RawBytes lockTime := by
  unfold Dyn.noWitness at h
  simp only [bind_ok_iff] at h
  obtain ⟨_, h1, _, _, _, _, _, _, _, _, h2⟩ := h
  exact ⟨addTo_ok h1, addTo_ok h2⟩

/-- The object that `Tx(…)` makes without and with a flag. -/
def legacyObj (E : Env) (version lockTime wits : Val) (ins outs : List Val) (b : Bytes) : Val :=
  .obj .tx [version, .none, .tuple ins, .tuple outs, wits, lockTime, .bytes (E.hash256 b), .none, .bytes (E.hash256 b).reverse, .none] b

def segwitObj (E : Env) (version flag lockTime wits : Val) (ins outs : List Val) (stripped b : Bytes) : Val :=
  .obj .tx [version, flag, .tuple ins, .tuple outs, wits, lockTime, .bytes (E.hash256 stripped), .bytes (E.hash256 b), .bytes (E.hash256 stripped).reverse,
    .bytes (E.hash256 b).reverse] b

/-- The last step of the constructor. -/
def finish (E : Env) (version flag lockTime stored : Val) (ins outs : List Val) (b : Bytes) : Py Val :=
  match flag with
  | .none => .ok (legacyObj E version lockTime stored ins outs b)
  | f => do
    let nw ← Dyn.noWitness version ins outs lockTime
    .ok (segwitObj E version f lockTime stored ins outs nw b)

theorem finish_flag {E : Env} {version flag lockTime stored : Val} {ins outs : List Val} {b : Bytes} (hf : flag ≠ .none) :
    finish E version flag lockTime stored ins outs b =
      (do let nw ← Dyn.noWitness version ins outs lockTime; .ok (segwitObj E version flag lockTime stored ins outs nw b)) := by
  cases flag <;> first | exact absurd rfl hf | rfl

/-- The part of the constructor after the tests, for accepted arguments. -/
theorem tx_ok_of {E : Env} {version flag txIns txOuts txWitnesses lockTime : Val} {bv bl : Bytes} {ins outs : List Val} {bi bo : List Bytes} {stored : Val} {bw : List Bytes}
    (h : TxArgs version txIns txOuts lockTime bv bl ins outs bi bo) (hw : WitsOK flag txWitnesses ins.length stored bw)
    (hf : flag = .none ∨ flag.content = some E.net.segwitTxFlag) {fb : Bytes} (hfb : flag = .none ∧ fb = [] ∨ flag.content = some fb) :
    Dyn.tx E version flag txIns txOuts txWitnesses lockTime =
      finish E version flag lockTime stored ins outs (bv ++ fb ++ vector bi ++ vector bo ++ bw.flatten ++ bl) := by
  have hw' : txWitnesses = .none ∨ txWitnesses.iter = .ok [] ∨
      ∃ l, l ≠ [] ∧ flag ≠ .none ∧ IsSeq txWitnesses l ∧ l.length = ins.length ∧ l.all (Val.isInstance .witness) = true := by
    rcases hw with ⟨h, -⟩ | ⟨h, -⟩ | ⟨l, h1, h2, h3, h4, -⟩
    · exact .inl h
    · exact .inr (.inl h)
    · exact .inr (.inr ⟨l, fun e => h.ins_ne (List.length_eq_zero_iff.1 (by rw [← h3, e]; rfl)), h1, h2, h3, h4⟩)
  unfold Dyn.tx
  rw [(validate_ok (u := ())).2 ⟨bv, h.version, fun k e => by cases e; exact h.version_len⟩, (validate_ok (u := ())).2 ⟨bl, h.lock, fun k e => by cases e; exact h.lock_len⟩,
  (checkFlag_ok (u := ())).2 hf, (checkWitnesses_ok (u := ()) h.ins_seq.iter.2).2 hw', h.ins_seq.iter.2, h.outs_seq.iter.2, (allInstances_ok (u := ())).2 ⟨ins, h.ins_seq.iter.1, h.ins_cls⟩,
  (allInstances_ok (u := ())).2 ⟨outs, h.outs_seq.iter.1, h.outs_cls⟩, iadd_ok.2 ⟨bv, h.version, rfl⟩, h.ins_seq.iter.1, h.outs_seq.iter.1]
  simp only [ok_bind]
  have h1 : ins.length ≠ 0 := fun e => h.ins_ne (List.length_eq_zero_iff.1 e)
  have h2 : outs.length ≠ 0 := fun e => h.outs_ne (List.length_eq_zero_iff.1 e)
  rw [check, if_pos (by omega), VarInt.make_len h.ins_lt, VarInt.make_len h.outs_lt, addFlag_ok hfb]
  simp only [ok_bind]
  rw [iaddAll_ok h.ins_bytes]
  simp only [ok_bind]
  rw [iaddAll_ok h.outs_bytes]
  simp only [ok_bind]
  rw [addWitnesses_ok hw]
  simp only [ok_bind]
  rw [iadd_ok.2 ⟨bl, h.lock, rfl⟩]
  simp only [ok_bind, vector, h.ins_bytes.length, h.outs_bytes.length, List.append_assoc, List.nil_append, changeEndianness, finish, legacyObj, segwitObj]
  cases flag <;> rfl

/-- What the tests of the constructor establish. -/
theorem tx_tests {E : Env} {version flag txIns txOuts txWitnesses lockTime v : Val} (h : Dyn.tx E version flag txIns txOuts txWitnesses lockTime = .ok v) :
    ∃ bv bl ins outs bi bo stored bw, TxArgs version txIns txOuts lockTime bv bl ins outs bi bo ∧ WitsOK flag txWitnesses ins.length stored bw ∧
      (flag = .none ∨ flag.content = some E.net.segwitTxFlag) := by
  unfold Dyn.tx at h
  simp only [bind_ok_iff, validate_ok, checkFlag_ok, allInstances_ok, VarInt.make_len_iff, check_ok] at h
  obtain ⟨-, ⟨bv, hv, lv⟩, -, ⟨bl, hl, ll⟩, -, hf, _, hw, ni, hni, no, hno, -, hmin, -, ⟨ins, hi, ci⟩, -, ⟨outs, ho, co⟩, _, _, _, _, vi, ⟨hvi, -⟩, _, _, _, _, vo,
    ⟨hvo, -⟩, -⟩ := h
  rw [len_of_iter hi] at hni; cases hni
  rw [len_of_iter ho] at hno; cases hno
  have hine : ins ≠ [] := by rintro rfl; simp at hmin
  have hone : outs ≠ [] := by rintro rfl; simp at hmin
  obtain ⟨bi, hbi⟩ := instances_content ci
  obtain ⟨bo, hbo⟩ := instances_content co
  have ha : TxArgs version txIns txOuts lockTime bv bl ins outs bi bo :=
    ⟨hv, lv 4 rfl, hl, ll 4 rfl, isSeq_of_instances hi hine ci, hine, hvi, ci, hbi, isSeq_of_instances ho hone co, hone, hvo, co, hbo⟩
  rcases (checkWitnesses_ok (len_of_iter hi)).1 hw with h | h | ⟨l, -, h1, h2, h3, h4⟩
  · exact ⟨bv, bl, ins, outs, bi, bo, .none, [], ha, .inl ⟨h, rfl, rfl⟩, hf⟩
  · exact ⟨bv, bl, ins, outs, bi, bo, .tuple [], [], ha, .inr (.inl ⟨h, rfl, rfl⟩), hf⟩
  · obtain ⟨bw, hbw⟩ := instances_content h4
    exact ⟨bv, bl, ins, outs, bi, bo, .tuple l, bw, ha, .inr (.inr ⟨l, h1, h2, h3, h4, hbw, rfl⟩), hf⟩

/-- C114: `Tx(…)` with whatever arguments makes an object exactly when: version and lock time are bytes-like of 4 bytes; inputs and outputs are non-empty lists or tuples of
`TxIn` and `TxOut` objects; the flag is None, or bytes-like and the network's marker and flag, and then version and lock time are `bytes` or `bytearray`; the witnesses are None,
or iterable and empty, or, if there is a flag, a list or tuple of as many `InputWitness` objects as inputs. The object's bytes are those of the transaction on the wire, its ids
the hashes. -/
theorem C114_tx (E : Env) (hn : E.net.Supported) (version flag txIns txOuts txWitnesses lockTime v : Val) :
    Dyn.tx E version flag txIns txOuts txWitnesses lockTime = .ok v ↔
      ∃ bv bl ins outs bi bo stored bw, TxArgs version txIns txOuts lockTime bv bl ins outs bi bo ∧ WitsOK flag txWitnesses ins.length stored bw ∧
        (flag = .none ∧ v = legacyObj E version lockTime stored ins outs (wireLegacy bv bi bo bl) ∨
          Byteslike flag [0x00, 0x01] ∧ RawBytes version ∧ RawBytes lockTime ∧
          v = segwitObj E version flag lockTime stored ins outs (wireLegacy bv bi bo bl) (wireSegwit bv bi bo bw bl)) := by
  have hflag := segwitFlag_eq hn
  have hno : ∀ {w : Val} {n stored bw}, WitsOK .none w n stored bw → bw = [] := by
    rintro w n stored bw (⟨-, -, h⟩ | ⟨-, -, h⟩ | ⟨l, h, -⟩)
    · exact h
    · exact h
    · exact absurd rfl h
  constructor
  · intro h
    obtain ⟨bv, bl, ins, outs, bi, bo, stored, bw, ha, hw, hf⟩ := tx_tests h
    refine ⟨bv, bl, ins, outs, bi, bo, stored, bw, ha, hw, ?_⟩
    by_cases hfn : flag = .none
    · subst hfn
      left
      rw [tx_ok_of ha hw hf (.inl ⟨rfl, rfl⟩), hno hw] at h
      refine ⟨rfl, ?_⟩
      rw [← Except.ok.inj h]
      simp [wireLegacy]
    · right
      have hc := hf.resolve_left hfn
      rw [tx_ok_of ha hw hf (.inr hc)] at h
      rw [finish_flag hfn] at h
      obtain ⟨nw, hnw, h⟩ := bind_ok_iff.1 h
      obtain ⟨r1, r2⟩ := noWitness_raw hnw
      rw [noWitness_ok ha r1 r2] at hnw
      cases hnw
      rw [hflag] at hc h
      exact ⟨hc, r1, r2, by rw [← Except.ok.inj h, wireSegwit]⟩
  · rintro ⟨bv, bl, ins, outs, bi, bo, stored, bw, ha, hw, ⟨rfl, rfl⟩ | ⟨hc, r1, r2, rfl⟩⟩
    · rw [tx_ok_of ha hw (.inl rfl) (.inl ⟨rfl, rfl⟩), hno hw]
      simp [wireLegacy, finish]
    · have hfn : flag ≠ .none := by rintro rfl; cases hc
      rw [tx_ok_of ha hw (.inr (by rw [hflag]; exact hc)) (.inr hc), finish_flag hfn, noWitness_ok ha r1 r2]
      rfl

end Verif.Props
