import Verif.Lemmas.Builder
import Verif.Props.Addresses
import Verif.Props.Tx
import Verif.Props.Decred
import Verif.Props.VarInt

/-! C67–C70: tx_builder.py and simple.py. -/

namespace Verif.Props

open Verif Spec Addresses Builder

/-! ### C67 -/

/-- **C67**: on every network but Decred's, `make_op_return_output` accepts exactly 0 to 77 bytes; the output is worth nothing and its
script is OP_RETURN followed by the shortest push of the data (a zero byte when there is none). -/
theorem C67_accepts (E : Env) (hd : E.net.isDecred = false) (d : Bytes) :
    (d.length ≤ 77 → ∃ o, makeOpReturnOutput E d = .ok (.std o) ∧ o.Built ∧ leValue o.value = 0 ∧
      o.outputScript = 0x6a :: minimalPush d ∧ o.bytes = wireOut (List.replicate 8 0) (0x6a :: minimalPush d)) ∧
    (77 < d.length → makeOpReturnOutput E d = .error .valueError) := by
  constructor
  · intro h
    have hscript : ([0x6a] ++ (if d.length = 76 ∨ d.length = 77 then [0x4c] else []) ++ [UInt8.ofNat d.length] ++ d : Bytes) =
        0x6a :: minimalPush d := by
      unfold minimalPush
      by_cases h1 : d.length ≤ 75
      · rw [if_pos h1, if_neg (by omega)]; rfl
      · rw [if_neg h1, if_pos (by omega), if_pos (by omega)]; rfl
    have hlen : (0x6a :: minimalPush d : Bytes).length < 2 ^ 64 := by
      rw [← hscript]; simp only [List.length_append, List.length_cons, List.length_nil]
      split <;> simp <;> omega
    have hm : TxOut.make (List.replicate 8 0) (0x6a :: minimalPush d) = .ok ⟨List.replicate 8 0, 0x6a :: minimalPush d,
        wireOut (List.replicate 8 0) (0x6a :: minimalPush d)⟩ := TxOut.make_iff.2 ⟨by simp, hlen, rfl⟩
    refine ⟨_, ?_, ⟨_, _, hm⟩, (by show leValue (List.replicate 8 0) = 0; decide), rfl, rfl⟩
    unfold makeOpReturnOutput
    rw [check_bind, if_pos (by omega), i2le_zero8]
    simp only [ok_bind]
    rw [hscript, makeOutput, hd, hm]
    rfl
  · intro h
    unfold makeOpReturnOutput
    rw [check_bind, if_neg (by omega)]

example : ∃ E : Env, ∃ d : Bytes, E.net.isDecred = false ∧ d.length = 76 := ⟨⟨bitcoinMain, toyHashes⟩, List.replicate 76 7, by decide, by decide⟩

/-- **C67**: the script reads back as `OP_RETURN` and the hex of the data, or `OP_RETURN OP_0`. -/
theorem C67_text (E : Env) (hs : E.net.Supported) (d : Bytes) (o : TxOut) (h : makeOpReturnOutput E d = .ok (.std o)) :
    deserialize E.net o.outputScript = .ok (if d = [] then pystr "OP_RETURN OP_0" else pystr "OP_RETURN " ++ toHex d) := by
  by_cases hd : E.net.isDecred = true
  · exfalso
    unfold makeOpReturnOutput makeOutput at h
    simp only [bind_ok_iff, hd, if_true] at h
    obtain ⟨_, _, _, _, _, _, _, _, h⟩ := h
    cases h
  · have hd : E.net.isDecred = false := by simpa using hd
    have hl : d.length ≤ 77 := by
      rcases Nat.lt_or_ge 77 d.length with h' | h'
      · rw [(C67_accepts E hd d).2 h'] at h; cases h
      · exact h'
    obtain ⟨o', h1, -, -, h2, -⟩ := (C67_accepts E hd d).1 hl
    rw [h1] at h
    cases h
    rw [h2]
    cases d with
    | nil => rw [if_pos rfl]; exact deserialize_of_tokens (tokens_opReturn_empty hs)
    | cons a d =>
      rw [if_neg (by simp), deserialize_of_tokens (tokens_opReturn hs (by simp) (by omega))]
      rfl

example : makeOpReturnOutput ⟨bitcoinMain, toyHashes⟩ [1, 2, 3] =
    .ok (.std ⟨List.replicate 8 0, [0x6a, 3, 1, 2, 3], [0, 0, 0, 0, 0, 0, 0, 0, 5, 0x6a, 3, 1, 2, 3]⟩) := by decide

/-- **C67**: different data give different outputs. -/
theorem C67_injective (E : Env) (d d' : Bytes) (o : AnyTxOut) (h : makeOpReturnOutput E d = .ok o) (h' : makeOpReturnOutput E d' = .ok o) :
    d = d' := by
  by_cases hd : E.net.isDecred = true
  · exfalso
    unfold makeOpReturnOutput makeOutput at h
    simp only [bind_ok_iff, hd, if_true] at h
    obtain ⟨_, _, _, _, _, _, _, _, h⟩ := h
    cases h
  have hd : E.net.isDecred = false := by simpa using hd
  have key : ∀ x : Bytes, makeOpReturnOutput E x = .ok o → x.length ≤ 77 ∧ ∃ t : TxOut, o = .std t ∧ t.outputScript = 0x6a :: minimalPush x := by
    intro x hx
    have hl : x.length ≤ 77 := by
      rcases Nat.lt_or_ge 77 x.length with h' | h'
      · rw [(C67_accepts E hd x).2 h'] at hx; cases hx
      · exact h'
    obtain ⟨o', h1, -, -, h2, -⟩ := (C67_accepts E hd x).1 hl
    rw [h1] at hx
    cases hx
    exact ⟨hl, _, rfl, h2⟩
  obtain ⟨l, t, rfl, ht⟩ := key d h
  obtain ⟨l', t', ht', ht''⟩ := key d' h'
  cases ht'
  rw [ht] at ht''
  have hm := (List.cons.inj ht'').2
  unfold minimalPush at hm
  have hto : ∀ n ≤ 77, (UInt8.ofNat n).toNat = n := by intro n hn; simp; omega
  by_cases c : d.length ≤ 75 <;> by_cases c' : d'.length ≤ 75
  · rw [if_pos c, if_pos c'] at hm
    exact (List.cons.inj hm).2
  · rw [if_pos c, if_neg c', if_pos (by omega)] at hm
    have := congrArg UInt8.toNat (List.cons.inj hm).1
    rw [hto _ l] at this
    have : d.length = 76 := this
    omega
  · rw [if_neg c, if_pos c', if_pos (by omega)] at hm
    have := congrArg UInt8.toNat (List.cons.inj hm).1
    rw [hto _ l'] at this
    have : 76 = d'.length := this
    omega
  · rw [if_neg c, if_neg c', if_pos (by omega), if_pos (by omega)] at hm
    exact (List.cons.inj (List.cons.inj hm).2).2

example : ∃ E : Env, ∃ d o, makeOpReturnOutput E d = .ok o := ⟨⟨bitcoinMain, toyHashes⟩, [], _, rfl⟩

/-! ### C68 -/

/-- **C68**: `simple.outpoint` on every network but Decred's: the text of 32 bytes, most significant first, and an index below 2^32
give the outpoint with the reversed bytes; anything else is refused. -/
theorem C68_outpoint (E : Env) (hd : E.net.isDecred = false) (txId : PyStr) (index : Int) (tree : Option Int) :
    (∀ b, fromHex txId = .ok b → b.length = 32 → 0 ≤ index → index < 2 ^ 32 →
      ∃ o, Simple.outpoint E txId index tree = .ok (.std o) ∧ o.Built ∧ o.txId = b.reverse ∧ (leValue o.index : Int) = index ∧
        o.bytes = b.reverse ++ o.index) ∧
    (∀ b, fromHex txId = .ok b → 0 ≤ index → index < 2 ^ 32 → b.length ≠ 32 → Simple.outpoint E txId index tree = .error .valueError) ∧
    (∀ b, fromHex txId = .ok b → ¬ (0 ≤ index ∧ index < 2 ^ 32) → Simple.outpoint E txId index tree = .error .overflowError) ∧
    (∀ e, fromHex txId = .error e → Simple.outpoint E txId index tree = .error e) := by
  have red : ∀ b, fromHex txId = .ok b → Simple.outpoint E txId index tree = (do
      let i ← i2lePadded index 4
      let o ← Outpoint.make b.reverse i
      .ok (.std o)) := by
    intro b hb
    unfold Simple.outpoint makeOutpoint
    rw [hb, ok_bind, hd]
    rfl
  refine ⟨?_, ?_, ?_, ?_⟩
  · intro b hb hl h0 h1
    obtain ⟨i, hi, hil, hiv⟩ := i2le_ok (n := index) (k := 4) ⟨h0, by norm_num; omega⟩
    have hm : Outpoint.make b.reverse i = .ok ⟨b.reverse, i, b.reverse ++ i⟩ := Outpoint.make_iff.2 ⟨by simpa using hl, hil, rfl⟩
    refine ⟨_, ?_, ⟨_, _, hm⟩, rfl, hiv, rfl⟩
    rw [red b hb, hi, ok_bind, hm, ok_bind]
  · intro b hb h0 h1 hl
    obtain ⟨i, hi, hil, hiv⟩ := i2le_ok (n := index) (k := 4) ⟨h0, by norm_num; omega⟩
    rw [red b hb, hi, ok_bind, (C37_outpoint b.reverse i).2 (by simp [hl])]
    rfl
  · intro b hb h
    rw [red b hb, i2le_error (by norm_num; omega)]
    rfl
  · intro e he
    unfold Simple.outpoint
    rw [he]; rfl

example : ∃ b, fromHex (toHex (List.replicate 32 5)) = .ok b ∧ b.length = 32 := ⟨_, fromHex_toHex _, by simp⟩

/-- **C68**: the id of any transaction, as shown by block explorers, is accepted and the outpoint names that transaction. -/
theorem C68_outpoint_names_tx (E : Env) (hH : E.H.LengthOK) (hd : E.net.isDecred = false) (t : Tx) (h : t.Built E) (index : Nat)
    (hi : index < 2 ^ 32) :
    ∃ o, Simple.outpoint E (toHex t.txId) index = .ok (.std o) ∧ o.txId = t.txIdLe ∧ leValue o.index = index ∧ o.Built := by
  have hid : t.txId = t.txIdLe.reverse ∧ t.txIdLe.length = 32 := by
    by_cases hf : t.flag = none
    · have := C43_legacy_ids E t h hf
      exact ⟨this.2.2.1, by rw [this.1]; exact Env.hash256_length E hH _⟩
    · have := C43_segwit_ids E t h hf
      exact ⟨this.2.2.1, by rw [this.1]; exact Env.hash256_length E hH _⟩
  obtain ⟨o, h1, h2, h3, h4, -⟩ := (C68_outpoint E hd (toHex t.txId) index none).1 _ (fromHex_toHex _) (by rw [hid.1]; simpa using hid.2)
    (by omega) (by omega)
  refine ⟨o, h1, ?_, by omega, h2⟩
  rw [h3, hid.1, List.reverse_reverse]

example : exTx.Built toyEnv ∧ toyEnv.H.LengthOK ∧ toyEnv.net.isDecred = false := ⟨exTx_built, toyHashes_ok, by decide⟩

/-- **C68**: on Decred the outpoint also has a tree, 0 unless given. -/
theorem C68_outpoint_decred (E : Env) (hd : E.net.isDecred = true) (b : Bytes) (hb : b.length = 32) (index : Nat) (hi : index < 2 ^ 32)
    (tree : Option Nat) (ht : ∀ t, tree = some t → t < 256) :
    ∃ o, Simple.outpoint E (toHex b) index (tree.map Int.ofNat) = .ok (.decred o) ∧ o.txId = b.reverse ∧ leValue o.index = index ∧
      leValue o.tree = tree.getD 0 ∧ o.bytes = b.reverse ++ o.index ++ o.tree ∧ o.bytes.length = 37 := by
  obtain ⟨i, hi, hil, hiv⟩ := i2le_ok (n := (index : Int)) (k := 4) ⟨by omega, by norm_num; omega⟩
  have hdb : (E.net.isDecred = true) = True := by simp [hd]
  cases tree with
  | none =>
    have hm : DecredOutpoint.make E.net b.reverse i [0] = .ok ⟨b.reverse, i, [0], b.reverse ++ i ++ [0]⟩ :=
      DecredOutpoint.make_iff.2 ⟨hd, by simpa using hb, hil, rfl, rfl⟩
    refine ⟨⟨b.reverse, i, [0], b.reverse ++ i ++ [0]⟩, ?_, rfl, by simpa using hiv, (by show leValue [0] = 0; decide), rfl, by simp [hb, hil]⟩
    unfold Simple.outpoint makeOutpoint
    simp only [fromHex_toHex, ok_bind, hdb, if_true, Option.map_none, hi, hm]
  | some t =>
    obtain ⟨j, hj, hjl, hjv⟩ := i2le_ok (n := (t : Int)) (k := 1) ⟨by omega, by have := ht t rfl; norm_num; omega⟩
    have hm : DecredOutpoint.make E.net b.reverse i j = .ok ⟨b.reverse, i, j, b.reverse ++ i ++ j⟩ :=
      DecredOutpoint.make_iff.2 ⟨hd, by simpa using hb, hil, hjl, rfl⟩
    refine ⟨⟨b.reverse, i, j, b.reverse ++ i ++ j⟩, ?_, rfl, by simpa using hiv, by simpa using hjv, rfl, by simp [hb, hil, hjl]⟩
    unfold Simple.outpoint makeOutpoint
    simp only [fromHex_toHex, ok_bind, hdb, if_true, Option.map_some, Int.ofNat_eq_natCast, hi, hj, hm]

example : decredMain.isDecred = true := by decide

/-- **C68**: `simple.output`: the value is `v` and the script is the address's; `v` outside 0..2^64-1 is an OverflowError; an address
that does not decode is refused as by `to_output_script`. -/
theorem C68_output (E : Env) (hs : E.net.Supported) (hd : E.net.isDecred = false) (v : Int) (a : PyStr) :
    (∀ s, toOutputScript E a = .ok s → 0 ≤ v → v < 2 ^ 64 →
      ∃ o, Simple.output E v a = .ok (.std o) ∧ o.Built ∧ (leValue o.value : Int) = v ∧ o.outputScript = s ∧ o.bytes = wireOut o.value s) ∧
    (∀ s, toOutputScript E a = .ok s → ¬ (0 ≤ v ∧ v < 2 ^ 64) → Simple.output E v a = .error .overflowError) ∧
    (∀ e, toOutputScript E a = .error e → Simple.output E v a = .error e ∧ e = .valueError) := by
  refine ⟨?_, ?_, ?_⟩
  · intro s hscr h0 h1
    obtain ⟨i, hi, hil, hiv⟩ := i2le_ok (n := v) (k := 8) ⟨h0, by norm_num; omega⟩
    have hl : s.length < 2 ^ 64 := by
      rcases C31_to E hs a with ⟨s', h, hs', hc⟩ | he
      · rw [hscr] at hs'
        cases hs'
        rcases hc with ⟨hl, rfl | rfl | rfl⟩ | ⟨hl, rfl⟩ <;>
          simp only [p2pkhScript, p2shScript, p2wpkhScript, p2wshScript, List.length_append, hl, List.length_cons, List.length_nil] <;> omega
      · rw [hscr] at he; cases he
    have hm : TxOut.make i s = .ok ⟨i, s, wireOut i s⟩ := TxOut.make_iff.2 ⟨hil, hl, rfl⟩
    refine ⟨_, ?_, ⟨_, _, hm⟩, hiv, rfl, rfl⟩
    unfold Simple.output makeOutput
    simp [hscr, hi, hd, hm, Except.map]
  · intro s hscr h
    unfold Simple.output
    rw [hscr, ok_bind, i2le_error (by norm_num; omega)]
    rfl
  · intro e he
    refine ⟨by unfold Simple.output; rw [he]; rfl, ?_⟩
    rcases C31_to E hs a with ⟨s', h, hs', hc⟩ | he'
    · rw [he] at hs'; cases hs'
    · rw [he] at he'; cases he'; rfl

example : ∃ a s, toOutputScript ⟨bitcoinMain, toyHashes⟩ a = .ok s := by
  obtain ⟨a, -, h⟩ := C27_p2pkh ⟨bitcoinMain, toyHashes⟩ btc_supported toyHashes_ok (List.replicate 20 0) (by simp) true
  exact ⟨a, _, h⟩

/-- **C68**: an unsigned input has empty scripts and the given sequence number, 0xFFFFFFFE by default. -/
theorem C68_unsigned_input (E : Env) (hd : E.net.isDecred = false) (o : Outpoint) (ho : o.Built) (sequence : Int) :
    (0 ≤ sequence → sequence < 2 ^ 32 → ∃ t, Simple.unsignedInput E (.std o) sequence = .ok (.std t) ∧ t.Built ∧ t.outpoint = o ∧
      t.stackScript = [] ∧ t.redeemScript = [] ∧ t.scriptSig = [] ∧ (leValue t.sequence : Int) = sequence ∧
      t.bytes = o.txId ++ o.index ++ [0] ++ t.sequence) ∧
    (¬ (0 ≤ sequence ∧ sequence < 2 ^ 32) → Simple.unsignedInput E (.std o) sequence = .error .overflowError) ∧
    (∃ t, Simple.unsignedInput E (.std o) = .ok (.std t) ∧ t.sequence = [0xfe, 0xff, 0xff, 0xff]) := by
  have main : ∀ s : Int, 0 ≤ s → s < 2 ^ 32 → ∃ t, Simple.unsignedInput E (.std o) s = .ok (.std t) ∧ t.Built ∧ t.outpoint = o ∧
      t.stackScript = [] ∧ t.redeemScript = [] ∧ t.scriptSig = [] ∧ i2lePadded s 4 = .ok t.sequence ∧
      t.bytes = o.txId ++ o.index ++ [0] ++ t.sequence := by
    intro s h0 h1
    obtain ⟨i, hi, hil, hiv⟩ := i2le_ok (n := s) (k := 4) ⟨h0, by norm_num; omega⟩
    have hm : TxIn.make o [] [] i = .ok ⟨o, [], [], [] ++ [], i, o.bytes ++ varBytes ([] ++ []) ++ i⟩ :=
      TxIn.make_iff.2 ⟨ho.length, hil, by simp, rfl⟩
    refine ⟨_, ?_, ⟨o, _, _, _, ho, hm⟩, rfl, rfl, rfl, rfl, hi, ?_⟩
    · unfold Simple.unsignedInput makeAnyLegacyInput makeLegacyInput
      simp only [hd, hi, ok_bind, hm]
      rfl
    · show o.bytes ++ varBytes ([] ++ []) ++ i = _
      rw [ho.eq.2.2]; rfl
  refine ⟨?_, ?_, ?_⟩
  · intro h0 h1
    obtain ⟨t, a, b, c, d, e, f, g, h⟩ := main sequence h0 h1
    exact ⟨t, a, b, c, d, e, f, (i2le_iff.1 g).2, h⟩
  · intro h
    unfold Simple.unsignedInput makeAnyLegacyInput makeLegacyInput
    simp only [hd, i2le_error (n := sequence) (k := 4) (by norm_num; omega)]
    rfl
  · obtain ⟨t, a, -, -, -, -, -, g, -⟩ := main 0xFFFFFFFE (by decide) (by decide)
    refine ⟨t, a, ?_⟩
    have : i2lePadded 0xFFFFFFFE 4 = .ok [0xfe, 0xff, 0xff, 0xff] := by decide
    exact (Except.ok.inj (this.symm.trans g)).symm

example : bitcoinMain.isDecred = false ∧ exOutpoint.Built := ⟨by decide, exOutpoint_built⟩

/-- An integer that fits in four unsigned bytes. -/
def U32 (n : Int) : Prop := 0 ≤ n ∧ n < 2 ^ 32

instance (n : Int) : Decidable (U32 n) := by unfold U32; infer_instance

theorem u32_i2le {n : Int} (h : U32 n) : ∃ b, i2lePadded n 4 = .ok b ∧ b.length = 4 ∧ (leValue b : Int) = n :=
  i2le_ok ⟨h.1, by have := h.2; norm_num; omega⟩
theorem u32_error {n : Int} (h : ¬ U32 n) : i2lePadded n 4 = .error .overflowError := by
  apply i2le_error
  unfold U32 at h
  norm_num at h ⊢
  omega

/-- **C68**: `unsigned_legacy_tx` on networks other than Zcash's and Decred's has exactly the given inputs and outputs, no witnesses, and
the version and lock time asked for (2 and 0 if none). Values that do not fit are OverflowErrors, no inputs or no outputs ValueErrors. -/
theorem C68_unsigned_legacy_tx (E : Env) (hs : E.net.Supported) (hz : E.net.isZcash = false) (ins : List TxIn) (outs : List TxOut)
    (hi : ins.length < 2 ^ 64) (ho : outs.length < 2 ^ 64) (k : Simple.Kwargs) :
    (U32 (k.version.getD 2) → U32 (k.lockTime.getD 0) → ins ≠ [] → outs ≠ [] →
      ∃ t, Simple.unsignedLegacyTx E ins outs k = .ok (.std t) ∧ t.txIns = ins ∧ t.txOuts = outs ∧ t.flag = none ∧ t.txWitnesses = none ∧
        (leValue t.version : Int) = k.version.getD 2 ∧ (leValue t.lockTime : Int) = k.lockTime.getD 0 ∧
        ((∀ i ∈ ins, i.Built) → (∀ o ∈ outs, o.Built) → t.Built E)) ∧
    (¬ (U32 (k.version.getD 2) ∧ U32 (k.lockTime.getD 0)) → Simple.unsignedLegacyTx E ins outs k = .error .overflowError) ∧
    (U32 (k.version.getD 2) → U32 (k.lockTime.getD 0) → ins = [] ∨ outs = [] →
      Simple.unsignedLegacyTx E ins outs k = .error .valueError) := by
  obtain ⟨h1, h2, h3⟩ := (family hs).2.2.2.1 hz
  have red : Simple.unsignedLegacyTx E ins outs k = (do
      let v ← i2lePadded (k.version.getD 2) 4
      let lt ← i2lePadded (k.lockTime.getD 0) 4
      let t ← Tx.make E v none ins outs none lt
      .ok (.std t)) := by
    unfold Simple.unsignedLegacyTx makeTx
    rw [h1, h2, h3]
    rfl
  rw [red]
  refine ⟨?_, ?_, ?_⟩
  · intro hv hl n1 n2
    obtain ⟨v, a, b, c⟩ := u32_i2le hv
    obtain ⟨l, a', b', c'⟩ := u32_i2le hl
    obtain ⟨t, ht, e1, e2, e3, e4, e5, e6⟩ := (C42_accepts E hs v none ins outs none l hi ho).1 ⟨b, b', .inl rfl, n1, n2, by simp⟩
    refine ⟨t, by rw [a, ok_bind, a', ok_bind, ht]; rfl, e3, e4, e2, e5, by rw [e1, c], by rw [e6, c'], ?_⟩
    intro hi ho
    exact ⟨_, _, _, _, _, _, hi, ho, by simp, ht⟩
  · intro h
    by_cases hv : U32 (k.version.getD 2)
    · obtain ⟨v, a, b, c⟩ := u32_i2le hv
      rw [a, ok_bind, u32_error (by tauto)]; rfl
    · rw [u32_error hv]; rfl
  · intro hv hl hn
    obtain ⟨v, a, b, c⟩ := u32_i2le hv
    obtain ⟨l, a', b', c'⟩ := u32_i2le hl
    rw [a, ok_bind, a', ok_bind, (C42_accepts E hs v none ins outs none l hi ho).2 (by tauto)]
    rfl

example : ∃ t, Simple.unsignedLegacyTx toyEnv [exIn] [exOut] { lockTime := some 7 } = .ok (.std t) ∧ t.lockTime = [7, 0, 0, 0] :=
  ⟨txObj toyEnv [2, 0, 0, 0] none [exIn] [exOut] none [7, 0, 0, 0], by decide +kernel, rfl⟩

/-- **C68**: `unsigned_witness_tx` likewise, with the segwit flag and one empty witness for each input. -/
theorem C68_unsigned_witness_tx (E : Env) (hs : E.net.Supported) (hz : E.net.isZcash = false) (ins : List TxIn) (outs : List TxOut)
    (hi : ins.length < 2 ^ 64) (ho : outs.length < 2 ^ 64) (k : Simple.Kwargs) :
    (U32 (k.version.getD 2) → U32 (k.lockTime.getD 0) → ins ≠ [] → outs ≠ [] →
      ∃ t ws, Simple.unsignedWitnessTx E ins outs k = .ok (.std t) ∧ t.txIns = ins ∧ t.txOuts = outs ∧ t.flag = some [0x00, 0x01] ∧
        t.txWitnesses = some ws ∧ ws.length = ins.length ∧ (∀ w ∈ ws, w.stack = [] ∧ w.bytes = [0]) ∧
        (leValue t.version : Int) = k.version.getD 2 ∧ (leValue t.lockTime : Int) = k.lockTime.getD 0 ∧
        ((∀ i ∈ ins, i.Built) → (∀ o ∈ outs, o.Built) → t.Built E)) ∧
    (¬ (U32 (k.version.getD 2) ∧ U32 (k.lockTime.getD 0)) → Simple.unsignedWitnessTx E ins outs k = .error .overflowError) ∧
    (U32 (k.version.getD 2) → U32 (k.lockTime.getD 0) → ins = [] ∨ outs = [] →
      Simple.unsignedWitnessTx E ins outs k = .error .valueError) := by
  obtain ⟨h1, h2, h3⟩ := (family hs).2.2.2.1 hz
  have hw : makeEmptyWitness = .ok ⟨[], [0]⟩ := by decide
  have hws : mapPy (fun _ => makeEmptyWitness) ins = .ok (ins.map fun _ => (⟨[], [0]⟩ : InputWitness)) := mapPy_ok (fun _ _ => hw)
  have red : Simple.unsignedWitnessTx E ins outs k = (do
      let v ← i2lePadded (k.version.getD 2) 4
      let lt ← i2lePadded (k.lockTime.getD 0) 4
      let t ← Tx.make E v (some [0x00, 0x01]) ins outs (some (ins.map fun _ => ⟨[], [0]⟩)) lt
      .ok (.std t)) := by
    unfold Simple.unsignedWitnessTx makeTx
    rw [hws, ok_bind, h1, h2, h3, (family hs).2.2.2.2]
    rfl
  rw [red]
  refine ⟨?_, ?_, ?_⟩
  · intro hv hl n1 n2
    obtain ⟨v, a, b, c⟩ := u32_i2le hv
    obtain ⟨l, a', b', c'⟩ := u32_i2le hl
    obtain ⟨t, ht, e1, e2, e3, e4, e5, e6⟩ := (C42_accepts E hs v (some [0, 1]) ins outs (some (ins.map fun _ => ⟨[], [0]⟩)) l hi ho).1
      ⟨b, b', .inr rfl, n1, n2, by simp⟩
    refine ⟨t, _, by rw [a, ok_bind, a', ok_bind, ht]; rfl, e3, e4, e2, e5, by simp, ?_, by rw [e1, c], by rw [e6, c'], ?_⟩
    · intro w hw
      obtain ⟨_, _, rfl⟩ := List.mem_map.1 hw
      exact ⟨rfl, rfl⟩
    · intro hi ho
      refine ⟨_, _, _, _, _, _, hi, ho, ?_, ht⟩
      intro w hw
      obtain ⟨_, _, rfl⟩ := List.mem_map.1 hw
      exact ⟨[], by simp, by decide⟩
  · intro h
    by_cases hv : U32 (k.version.getD 2)
    · obtain ⟨v, a, b, c⟩ := u32_i2le hv
      rw [a, ok_bind, u32_error (by tauto)]; rfl
    · rw [u32_error hv]; rfl
  · intro hv hl hn
    obtain ⟨v, a, b, c⟩ := u32_i2le hv
    obtain ⟨l, a', b', c'⟩ := u32_i2le hl
    rw [a, ok_bind, a', ok_bind, (C42_accepts E hs v (some [0, 1]) ins outs _ l hi ho).2 (by tauto)]
    rfl

example : ∃ t, Simple.unsignedWitnessTx toyEnv [exIn] [exOut] = .ok (.std t) ∧ t.version = [2, 0, 0, 0] :=
  ⟨txObj toyEnv [2, 0, 0, 0] (some [0, 1]) [exIn] [exOut] (some [⟨[], [0]⟩]) [0, 0, 0, 0], by decide +kernel, rfl⟩

end Verif.Props
