import Verif.Lemmas.Sprout2
import Verif.Spec.Zcash

namespace Verif
open Spec Props

attribute [local irreducible] Env.hash256

/-! ### the parsing loop on unknown bytes -/

theorem parseMany_ve {α : Type} {f : Bytes → Py α} {len : α → Nat} (hf : ∀ b, OnlyVE (f b)) (b : Bytes) :
    ∀ n c, OnlyVE (parseMany f len b n c) := by
  intro n
  induction n with
  | zero => intro c; exact OnlyVE.ok _
  | succ n ih => intro c; unfold parseMany; exact (hf _).bind fun x => (ih _).bind fun _ => OnlyVE.ok _

theorem parseMany_cursor {α : Type} {f : Bytes → Py α} {len : α → Nat} {N : Nat} (hf : ∀ b x, f b = .ok x → len x = N) (b : Bytes) :
    ∀ n c xs c', parseMany f len b n c = .ok (xs, c') → xs.length = n ∧ c' = c + N * n := by
  intro n
  induction n with
  | zero => intro c xs c' h; cases h; exact ⟨rfl, by simp⟩
  | succ n ih =>
    intro c xs c' h
    unfold parseMany at h
    obtain ⟨x, h1, h⟩ := bind_ok_iff.1 h
    obtain ⟨⟨ys, c2⟩, h2, h⟩ := bind_ok_iff.1 h
    cases h
    obtain ⟨i1, i2⟩ := ih _ _ _ h2
    rw [hf _ _ h1] at i2
    exact ⟨by simp [i1], by rw [i2, Nat.mul_succ]; omega⟩

/-! ### OverwinterTx -/

def overObj (E : Env) (ins : List TxIn) (outs : List TxOut) (lt ex : Bytes) (js : List SproutJoinsplit) (pk sig : Option Bytes) :
    OverwinterTx :=
  let bytes := wireOverwinter (ins.map (·.bytes)) (outs.map (·.bytes)) lt ex (js.map (·.bytes)) (pk.getD []) (sig.getD [])
  ⟨ins, outs, lt, ex, js, if js ≠ [] then pk else none, if js ≠ [] then sig else none, [0x03, 0x00, 0x00, 0x80], [0x70, 0x82, 0xc4, 0x03],
    hsigsOf E js (pk.getD []), primaryOf E js (pk.getD []), E.hash256 bytes, (E.hash256 bytes).reverse, bytes⟩

structure OverArgs (E : Env) (ins : List TxIn) (outs : List TxOut) (lt ex : Bytes) (js : List SproutJoinsplit)
    (pk sig : Option Bytes) : Prop where
  zc : E.net.isZcash = true
  ow : E.net.isOverwinter = true
  lt4 : lt.length = 4
  ex4 : ex.length = 4
  expiry : le2i ex ≤ 499999999
  js5 : js.length ≤ 5
  keys : js ≠ [] → (∃ p, pk = some p ∧ p.length = 32) ∧ ∃ s, sig = some s ∧ s.length = 64
  some : ¬ (js = [] ∧ ins = [])
  li : ins.length < 2 ^ 64
  lo : outs.length < 2 ^ 64
  size : (wireOverwinter (ins.map (·.bytes)) (outs.map (·.bytes)) lt ex (js.map (·.bytes)) (pk.getD []) (sig.getD [])).length ≤ 100000

theorem OverwinterTx.checkJs_ok {js : List SproutJoinsplit} {pk sig : Option Bytes} {u : Unit} : OverwinterTx.checkJs js pk sig = .ok u ↔
    (js ≠ [] → (∃ p, pk = some p ∧ p.length = 32) ∧ ∃ s, sig = some s ∧ s.length = 64) := by
  unfold OverwinterTx.checkJs
  cases js with
  | nil => simp
  | cons j js => simp [bind_ok_iff, validateOpt_ok]

theorem OverwinterTx.jsPart_eq {js : List SproutJoinsplit} {pk sig : Option Bytes} (h5 : js.length ≤ 5)
    (h : js ≠ [] → (∃ p, pk = some p ∧ p.length = 32) ∧ ∃ s, sig = some s ∧ s.length = 64) :
    OverwinterTx.jsPart js pk sig = .ok (wireJoinsplits (js.map (·.bytes)) (pk.getD []) (sig.getD [])) := by
  unfold OverwinterTx.jsPart wireJoinsplits vector
  rw [VarInt.make_len (by omega), ok_bind]
  cases js with
  | nil => simp
  | cons j js =>
    obtain ⟨⟨p, rfl, -⟩, s, rfl, -⟩ := h (by simp)
    simp [appendOpt, List.flatMap_def, ok_bind]

theorem overBytes_eq (ins : List TxIn) (outs : List TxOut) (lt ex : Bytes) (js : List Bytes) (pk sig : Bytes) :
    [0x03, 0x00, 0x00, 0x80] ++ [0x70, 0x82, 0xc4, 0x03] ++ compactSize ins.length ++ ins.flatMap (·.bytes) ++ compactSize outs.length
      ++ outs.flatMap (·.bytes) ++ lt ++ ex ++ wireJoinsplits js pk sig =
      wireOverwinter (ins.map (·.bytes)) (outs.map (·.bytes)) lt ex js pk sig := by
  simp [wireOverwinter, vector, List.flatMap_def]

theorem OverwinterTx.make_iff {E : Env} {ins : List TxIn} {outs : List TxOut} {lt ex : Bytes} {js : List SproutJoinsplit}
    {pk sig : Option Bytes} {t : OverwinterTx} : OverwinterTx.make E ins outs lt ex js pk sig = .ok t ↔
      OverArgs E ins outs lt ex js pk sig ∧ t = overObj E ins outs lt ex js pk sig := by
  constructor
  · intro h
    unfold OverwinterTx.make at h
    simp only [bind_ok_iff, zcashGate_ok, check_eq_ok, validateBytes_ok, exists_const, VarInt.make_len_iff, OverwinterTx.checkJs_ok,
      Nat.not_lt, gt_iff_lt] at h
    obtain ⟨h1, h2, h3, h4, h5, h6, h7, h8, ni, ⟨h9, rfl⟩, no, ⟨h10, rfl⟩, p, h11, h12, h13⟩ := h
    rw [OverwinterTx.jsPart_eq h6 h7] at h11
    cases h11
    simp only [overBytes_eq] at h12 h13
    refine ⟨⟨h1, h2, h3, h4, h5, h6, h7, by simpa using h8, h9, h10, h12⟩, ?_⟩
    cases h13
    cases js with
    | nil => simp [overObj, changeEndianness, hsigsOf, primaryOf]
    | cons j js => simp [overObj, changeEndianness, hsigsOf, primaryOf, zipWith_map_self]
  · rintro ⟨h, rfl⟩
    have c1 : OverwinterTx.checkJs js pk sig = .ok () := OverwinterTx.checkJs_ok.2 h.keys
    have e1 := h.expiry
    have e2 := h.js5
    have e3 := h.size
    unfold OverwinterTx.make zcashGate
    rw [OverwinterTx.jsPart_eq h.js5 h.keys]
    simp only [check_bind, validateBytes_eq, if_pos h.zc, if_pos h.ow, if_pos h.lt4, if_pos h.ex4, ok_bind, VarInt.make_len h.li,
      VarInt.make_len h.lo, c1, overBytes_eq]
    rw [if_pos (by omega), if_pos (by omega), if_pos (by simpa using h.some), if_pos (by omega)]
    cases js with
    | nil => simp [overObj, changeEndianness, hsigsOf, primaryOf]
    | cons j js => simp [overObj, changeEndianness, hsigsOf, primaryOf, zipWith_map_self]

theorem OverwinterTx.make_ve (E : Env) (ins : List TxIn) (outs : List TxOut) (lt ex : Bytes) (js : List SproutJoinsplit)
    (pk sig : Option Bytes) : OnlyVE (OverwinterTx.make E ins outs lt ex js pk sig) := by
  unfold OverwinterTx.make
  refine (OnlyVE.gate _).bind fun _ => (OnlyVE.check _).bind fun _ => (OnlyVE.validate _ _).bind fun _ => (OnlyVE.validate _ _).bind fun _ =>
    (OnlyVE.check _).bind fun _ => OnlyVE.bind' (OnlyVE.check _) fun _ h5 => OnlyVE.bind' ?_ fun _ h6 => (OnlyVE.check _).bind fun _ =>
    (OnlyVE.varint _).bind fun _ => (OnlyVE.varint _).bind fun _ => OnlyVE.bind ?_ fun _ => (OnlyVE.check _).bind fun _ => OnlyVE.ok _
  · unfold OverwinterTx.checkJs
    split
    · exact (OnlyVE.validateOpt _ _).bind fun _ => OnlyVE.validateOpt _ _
    · exact OnlyVE.ok _
  · have := check_eq_ok.1 h5
    rw [OverwinterTx.jsPart_eq (by omega) (OverwinterTx.checkJs_ok.1 h6)]
    exact OnlyVE.ok _

def OverwinterTx.Built (E : Env) (t : OverwinterTx) : Prop := ∃ ins outs lt ex js pk sig, (∀ i ∈ ins, TxIn.Built i) ∧
  (∀ o ∈ outs, TxOut.Built o) ∧ (∀ j ∈ js, SproutJoinsplit.Built E.net j) ∧ OverwinterTx.make E ins outs lt ex js pk sig = .ok t

structure OverwinterTx.Facts (E : Env) (t : OverwinterTx) : Prop where
  ins : ∀ i ∈ t.txIns, i.Built
  outs : ∀ o ∈ t.txOuts, o.Built
  js : ∀ j ∈ t.txJoinsplits, j.Built E.net
  args : OverArgs E t.txIns t.txOuts t.lockTime t.expiryHeight t.txJoinsplits t.joinsplitPubkey t.joinsplitSig
  obj : t = overObj E t.txIns t.txOuts t.lockTime t.expiryHeight t.txJoinsplits t.joinsplitPubkey t.joinsplitSig

theorem wireOverwinter_nil (ins outs : List Bytes) (lt ex pk sig : Bytes) :
    wireOverwinter ins outs lt ex [] pk sig = wireOverwinter ins outs lt ex [] [] [] := by
  simp [wireOverwinter, wireJoinsplits]

theorem OverwinterTx.Built.facts {E : Env} {t : OverwinterTx} (h : t.Built E) : t.Facts E := by
  obtain ⟨ins, outs, lt, ex, js, pk, sig, hi, ho, hj, h⟩ := h
  obtain ⟨ha, rfl⟩ := OverwinterTx.make_iff.1 h
  cases js with
  | nil =>
    obtain ⟨zc, ow, lt4, ex4, ep, js5, keys, sm, li, lo, size⟩ := ha
    refine ⟨hi, ho, hj, ⟨zc, ow, lt4, ex4, ep, js5, fun h => absurd rfl h, sm, li, lo, ?_⟩, ?_⟩
    · simpa [overObj, wireOverwinter_nil _ _ _ _ (pk.getD []) (sig.getD [])] using size
    · simp [overObj, wireOverwinter_nil _ _ _ _ (pk.getD []) (sig.getD []), hsigsOf, primaryOf]
  | cons j js =>
    refine ⟨hi, ho, hj, ?_, ?_⟩
    · simpa [overObj] using ha
    · simp [overObj]

theorem OverwinterTx.Facts.bytes {E : Env} {t : OverwinterTx} (h : t.Facts E) :
    t.bytes = wireOverwinter (t.txIns.map (·.bytes)) (t.txOuts.map (·.bytes)) t.lockTime t.expiryHeight (t.txJoinsplits.map (·.bytes))
      (t.joinsplitPubkey.getD []) (t.joinsplitSig.getD []) := congrArg OverwinterTx.bytes h.obj

abbrev overHeader : Bytes := [0x03, 0x00, 0x00, 0x80, 0x70, 0x82, 0xc4, 0x03]

theorem wireOverwinter_eq (ins outs : List Bytes) (lt ex : Bytes) (js : List Bytes) (pk sig : Bytes) :
    wireOverwinter ins outs lt ex js pk sig = overHeader ++ (vector ins ++ (vector outs ++ (lt ++ (ex ++ wireJoinsplits js pk sig)))) := by
  simp [wireOverwinter]

/-- The beginning of `from_bytes`, up to the joinsplits. -/
theorem OverwinterTx.fromBytes_start {E : Env} (hn : E.net.Supported) {ins : List TxIn} {outs : List TxOut} (hi : ∀ i ∈ ins, i.Built)
    (ho : ∀ o ∈ outs, o.Built) (hs : InsOutsStable E.net ins outs) (li : ins.length < 2 ^ 64) (lo : outs.length < 2 ^ 64)
    {lt ex : Bytes} (lt4 : lt.length = 4) (ex4 : ex.length = 4) (rest : Bytes) :
    ∃ ins', List.Forall₂ SameIn ins ins' ∧ ins'.map (·.bytes) = ins.map (·.bytes) ∧ ∀ B,
      B = overHeader ++ (vector (ins.map (·.bytes)) ++ (vector (outs.map (·.bytes)) ++ (lt ++ (ex ++ rest)))) →
      OverwinterTx.fromBytes E B = (do
        let (js, pk, sig) ← OverwinterTx.parseJs E.net B (compactSize outs.length).length
          (overHeader ++ (vector (ins.map (·.bytes)) ++ (vector (outs.map (·.bytes)) ++ (lt ++ ex)))).length
        OverwinterTx.make E ins' outs lt ex js pk sig) := by
  obtain ⟨ins', p1, p2, p3⟩ := parseInsOuts_bytes hn hi ho hs li lo overHeader (lt ++ (ex ++ rest))
  refine ⟨ins', p2, p3, ?_⟩
  rintro B hB
  rw [← hB] at p1
  have q1 : slice B 0 4 = [0x03, 0x00, 0x00, 0x80] := by rw [hB]; rfl
  have q2 : slice B 4 8 = [0x70, 0x82, 0xc4, 0x03] := by rw [hB]; rfl
  have q3 := slice_at (a := overHeader ++ (vector (ins.map (·.bytes)) ++ vector (outs.map (·.bytes)))) (b := lt) (c := ex ++ rest) rfl rfl
  have q4 := slice_at (a := overHeader ++ (vector (ins.map (·.bytes)) ++ (vector (outs.map (·.bytes)) ++ lt))) (b := ex) (c := rest) rfl rfl
  simp only [List.append_assoc, List.length_append, lt4, ex4, ← Nat.add_assoc] at q3 q4 ⊢
  rw [← hB] at q3 q4
  unfold OverwinterTx.fromBytes
  rw [check_bind, if_pos (by rw [q1, q2]; simp), show (8 : Nat) = overHeader.length from rfl, p1, ok_bind]
  simp only []
  rw [q3, q4]

theorem OverwinterTx.fromBytes_bytes {E : Env} (hn : E.net.Supported) {t : OverwinterTx} (h : t.Facts E)
    (hs : InsOutsStable E.net t.txIns t.txOuts) (hc : t.txJoinsplits = [] ∨ t.txOuts.length < 253) (rest : Bytes) :
    ∃ ins', List.Forall₂ SameIn t.txIns ins' ∧ ins'.map (·.bytes) = t.txIns.map (·.bytes) ∧ OverwinterTx.fromBytes E (t.bytes ++ rest) =
      .ok (overObj E ins' t.txOuts t.lockTime t.expiryHeight t.txJoinsplits t.joinsplitPubkey t.joinsplitSig) := by
  have hb := h.bytes
  have hobj := h.obj
  obtain ⟨hi, ho, hj, args, -⟩ := h
  obtain ⟨zc, ow, lt4, ex4, ep, js5, keys, sm, li, lo, size⟩ := args
  obtain ⟨ins', p2, p3, p1⟩ := OverwinterTx.fromBytes_start hn hi ho hs li lo lt4 ex4
    (wireJoinsplits (t.txJoinsplits.map (·.bytes)) (t.joinsplitPubkey.getD []) (t.joinsplitSig.getD []) ++ rest)
  refine ⟨ins', p2, p3, ?_⟩
  rw [hb, wireOverwinter_eq]
  simp only [List.append_assoc]
  rw [p1 _ rfl]
  clear p1
  have hins' : ins'.length = t.txIns.length := (List.forall₂_length p2).symm
  have hnil : ins' = [] ↔ t.txIns = [] := by rw [← List.length_eq_zero_iff, hins', List.length_eq_zero_iff]
  obtain ⟨r1, r2⟩ := parseVec (net := E.net) (f := SproutJoinsplit.fromBytes E.net) (bytes := (·.bytes)) t.txJoinsplits
      (fun j hj' rest => SproutJoinsplit.fromBytes_bytes (hj j hj') rest) (by omega) (.inr (by omega))
      (overHeader ++ (vector (t.txIns.map (·.bytes)) ++ (vector (t.txOuts.map (·.bytes)) ++ (t.lockTime ++ t.expiryHeight))))
      ((if t.txJoinsplits.map (·.bytes) = [] then [] else t.joinsplitPubkey.getD [] ++ t.joinsplitSig.getD []) ++ rest)
  unfold OverwinterTx.parseJs
  rw [if_neg]
  case hnc =>
    simp only [List.length_append, wireJoinsplits, vector]
    have := compactSize_pos (t.txJoinsplits.map (·.bytes)).length
    omega
  simp only [wireJoinsplits, List.append_assoc] at r1 r2 ⊢
  rw [r1, ok_bind]
  simp only []
  by_cases hjs : t.txJoinsplits = []
  · simp only [hjs, List.length_nil, parseMany, ok_bind]
    rw [OverwinterTx.make_iff]
    refine ⟨⟨zc, ow, lt4, ex4, ep, by simp, fun h => absurd rfl h, by rw [hnil, ← hjs]; simpa [hjs] using sm, by omega, lo, ?_⟩, ?_⟩
    · rw [hjs] at size
      rw [p3, List.map_nil, wireOverwinter_nil]
      rw [List.map_nil, wireOverwinter_nil] at size
      exact size
    · simp [overObj, wireOverwinter_nil _ _ _ _ (Option.getD _ _) (Option.getD _ _), hsigsOf, primaryOf]
      simp [wireOverwinter, wireJoinsplits]
  · have hlen : (compactSize t.txOuts.length).length = (compactSize t.txJoinsplits.length).length := by
      rw [compactSize_eq, compactSize_eq]
      have : t.txOuts.length < 253 := hc.resolve_left hjs
      unfold varintBytes
      rw [if_pos (by omega), if_pos (by omega)]; simp
    obtain ⟨⟨p, hp, p32⟩, s, hsg, s64⟩ := keys hjs
    have hjm : ¬ t.txJoinsplits.map (·.bytes) = [] := by simpa using hjs
    rw [if_neg hjm, hp, hsg] at r2 ⊢
    rw [hlen, r2, ok_bind]
    have r3 := slice_at (a := overHeader ++ (vector (t.txIns.map (·.bytes)) ++ (vector (t.txOuts.map (·.bytes)) ++ (t.lockTime ++ (t.expiryHeight
      ++ vector (t.txJoinsplits.map (·.bytes))))))) (b := p) (c := s ++ rest) rfl rfl
    have r4 := slice_at (a := overHeader ++ (vector (t.txIns.map (·.bytes)) ++ (vector (t.txOuts.map (·.bytes)) ++ (t.lockTime ++ (t.expiryHeight
      ++ (vector (t.txJoinsplits.map (·.bytes)) ++ p)))))) (b := s) (c := rest) rfl rfl
    simp only [List.append_assoc, List.length_append, p32, s64, ← Nat.add_assoc] at r3 r4 ⊢
    simp only [Option.getD_some, List.append_assoc]
    rw [r3, r4, ok_bind, OverwinterTx.make_iff]
    refine ⟨⟨zc, ow, lt4, ex4, ep, js5, fun _ => ⟨⟨p, rfl, p32⟩, s, rfl, s64⟩, by rw [hnil]; exact sm, by omega, lo, ?_⟩, rfl⟩
    rw [p3, ← hp, ← hsg]; exact size

/-- With a three-byte output count and joinsplits, `from_bytes` starts the joinsplits two bytes late, so the signature comes out short. -/
theorem OverwinterTx.fromBytes_many {E : Env} (hn : E.net.Supported) {t : OverwinterTx} (h : t.Facts E)
    (hs : InsOutsStable E.net t.txIns t.txOuts) (hj : t.txJoinsplits ≠ []) (hm : 253 ≤ t.txOuts.length) :
    OverwinterTx.fromBytes E t.bytes = .error .valueError := by
  have hb := h.bytes
  obtain ⟨hi, ho, hjb, args, -⟩ := h
  obtain ⟨zc, ow, lt4, ex4, ep, js5, keys, sm, li, lo, size⟩ := args
  obtain ⟨ins', p2, p3, p1⟩ := OverwinterTx.fromBytes_start hn hi ho hs li lo lt4 ex4
    (wireJoinsplits (t.txJoinsplits.map (·.bytes)) (t.joinsplitPubkey.getD []) (t.joinsplitSig.getD []))
  rw [hb, wireOverwinter_eq, p1 _ rfl]
  clear p1
  have hlen : 3 ≤ (compactSize t.txOuts.length).length := by
    rw [compactSize_eq]
    unfold varintBytes
    rw [if_neg (by omega)]
    split <;> (try split) <;> simp
  have hlen1 : (compactSize t.txJoinsplits.length).length = 1 := by
    rw [compactSize_eq]; unfold varintBytes; rw [if_pos (by omega)]; simp
  obtain ⟨⟨p, hp, p32⟩, s, hsg, s64⟩ := keys hj
  have hjm : ¬ t.txJoinsplits.map (·.bytes) = [] := by simpa using hj
  rw [hp, hsg, Option.getD_some, Option.getD_some]
  obtain ⟨r1, -⟩ := parseVec (net := E.net) (f := SproutJoinsplit.fromBytes E.net) (bytes := (·.bytes)) t.txJoinsplits
      (fun j hj' rest => SproutJoinsplit.fromBytes_bytes (hjb j hj') rest) (by omega) (.inr (by omega))
      (overHeader ++ (vector (t.txIns.map (·.bytes)) ++ (vector (t.txOuts.map (·.bytes)) ++ (t.lockTime ++ t.expiryHeight))))
      (p ++ s)
  have hjl : ((t.txJoinsplits.map (·.bytes)).flatten).length = 1802 * t.txJoinsplits.length := by
    clear r1 hjm hlen1 keys js5 size hj hs hb sm
    revert hjb
    generalize t.txJoinsplits = l
    intro hjb
    induction l with
    | nil => rfl
    | cons x xs ih =>
      simp only [List.map_cons, List.flatten_cons, List.length_append, List.length_cons]
      rw [(hjb x (by simp)).length, ih (fun j hj => hjb j (by simp [hj]))]; omega
  have hB : (overHeader ++ (vector (t.txIns.map (·.bytes)) ++ (vector (t.txOuts.map (·.bytes)) ++ (t.lockTime ++ (t.expiryHeight ++
      (vector (t.txJoinsplits.map (·.bytes)) ++ (p ++ s))))))).length =
      (overHeader ++ (vector (t.txIns.map (·.bytes)) ++ (vector (t.txOuts.map (·.bytes)) ++ (t.lockTime ++ t.expiryHeight)))).length + 1 +
        1802 * t.txJoinsplits.length + 96 := by
    have : (vector (t.txJoinsplits.map (·.bytes))).length = 1 + 1802 * t.txJoinsplits.length := by
      unfold vector
      rw [List.length_append, hjl, List.length_map, hlen1]
    simp only [List.length_append, this, p32, s64]; omega
  unfold OverwinterTx.parseJs
  simp only [wireJoinsplits, if_neg hjm, List.append_assoc] at r1 hB ⊢
  generalize hc : (overHeader ++ (vector (t.txIns.map (·.bytes)) ++ (vector (t.txOuts.map (·.bytes)) ++ (t.lockTime ++ t.expiryHeight)))).length = c at *
  generalize hBB : overHeader ++ (vector (t.txIns.map (·.bytes)) ++ (vector (t.txOuts.map (·.bytes)) ++ (t.lockTime ++ (t.expiryHeight ++
      (vector (t.txJoinsplits.map (·.bytes)) ++ (p ++ s)))))) = B at *
  rw [if_neg (by omega), r1, ok_bind]
  simp only []
  apply OnlyVE.eq_error
  · exact ((parseMany_ve (SproutJoinsplit.fromBytes_ve E.net) _ _ _).bind fun _ => OnlyVE.ok _).bind fun _ => OverwinterTx.make_ve _ _ _ _ _ _ _ _
  · intro a ha
    obtain ⟨⟨js, pk, sig⟩, h1, h2⟩ := bind_ok_iff.1 ha
    obtain ⟨⟨js', c'⟩, h3, h4⟩ := bind_ok_iff.1 h1
    cases h4
    obtain ⟨h5, h6⟩ := parseMany_cursor (N := 1802) (fun b x hx => (SproutJoinsplit.fromBytes_ok hx).1.length) _ _ _ _ _ h3
    obtain ⟨args', -⟩ := OverwinterTx.make_iff.1 h2
    obtain ⟨-, s', hs', hs64⟩ := args'.keys (by
      intro hh
      have hh : js' = [] := hh
      rw [hh] at h5; exact hj (List.length_eq_zero_iff.1 h5.symm))
    cases hs'
    simp only [slice_length] at hs64
    omega

end Verif
