import Verif.Lemmas.VarInt
import Mathlib.Data.List.Forall2
import Verif.Model.Script
import Verif.Spec.Script

namespace Verif
open Spec

/-! ### Opcode tables -/

theorem opcode_head : ∀ p ∈ opcodeList, p.1.head? = some 'O' := by decide +kernel

theorem lookup_none_of_head {l : List (PyStr × UInt8)} (h : ∀ p ∈ l, p.1.head? = some 'O') {t : PyStr}
    (ht : t.head? ≠ some 'O') : l.reverse.lookup t = none := by
  rw [List.lookup_eq_none_iff]
  intro p hp
  have := h p (by simpa using hp)
  rw [bne_iff_ne]
  rintro rfl; exact ht this

theorem codeToInt_none {t : PyStr} (ht : t.head? ≠ some 'O') : codeToInt t = none :=
  lookup_none_of_head opcode_head ht

/-- Decred's table -/
def decredChanges : List (PyStr × UInt8) := [(pystr "OP_BLAKE256", 168), (pystr "OP_SHA256", 192)]

theorem changes_cases : ∀ n, Network.Supported n →
    (n.opcodeChanges = [] ∧ n.isDecred = false) ∨ (n.opcodeChanges = decredChanges ∧ n.isDecred = true) := by
  unfold Network.Supported
  decide +kernel

theorem overwrite_none {net : Network} (hn : net.Supported) {t : PyStr} (ht : t.head? ≠ some 'O') :
    net.codeToIntOverwrite t = none := by
  unfold Network.codeToIntOverwrite
  apply lookup_none_of_head _ ht
  rcases changes_cases net hn with h | h <;> rw [h.1] <;> decide

theorem hexDigit_ne_O (n : Nat) (h : n < 16) : hexDigit n ≠ 'O' := by
  have : ∀ n < 16, hexDigit n ≠ 'O' := by decide
  exact this n h

theorem toHex_head (d : Bytes) : (toHex d).head? ≠ some 'O' := by
  cases d with
  | nil => simp [toHex]
  | cons x xs =>
    have := x.toNat_lt
    simp [toHex, hexDigit_ne_O (x.toNat / 16) (by omega)]

theorem toHex_ne_nil {d : Bytes} (h : 1 ≤ d.length) : toHex d ≠ [] := by
  intro h'
  have := toHex_length d
  rw [h'] at this; simp at this; omega

/-- what the two tables say about a byte, for a given list of changes -/
def tableFact (net : Network) (extra : Bool) (b : UInt8) : Prop :=
  match opName net b with
  | .ok t => (IsOpByte extra b ∨ (1 ≤ b.toNat ∧ b.toNat ≤ 78) ∨ b = 0xab) ∧ t ≠ [] ∧ (∀ c ∈ t, isPySpace c = false) ∧
      (IsOpByte extra b → serializeToken net t = .ok [b])
  | .error e => e = .valueError ∧ ¬ IsOpByte extra b

instance (net : Network) (extra : Bool) (b : UInt8) : Decidable (tableFact net extra b) := by
  unfold tableFact
  split <;> infer_instance

theorem tableFact_btc : ∀ n < 256, tableFact bitcoinMain false (UInt8.ofNat n) := by decide +kernel
theorem tableFact_dcr : ∀ n < 256, tableFact decredMain true (UInt8.ofNat n) := by decide +kernel

theorem opName_congr {n m : Network} (h : n.opcodeChanges = m.opcodeChanges) (b : UInt8) :
    opName n b = opName m b := by
  unfold opName Network.intToCodeOverwrite; rw [h]

theorem serializeToken_congr {n m : Network} (h : n.opcodeChanges = m.opcodeChanges) (t : PyStr) :
    serializeToken n t = serializeToken m t := by
  unfold serializeToken Network.codeToIntOverwrite; rw [h]

theorem tableFact_all {net : Network} (hn : net.Supported) (b : UInt8) : tableFact net net.isDecred b := by
  have hb : b = UInt8.ofNat b.toNat := by simp
  rcases changes_cases net hn with ⟨h, h'⟩ | ⟨h, h'⟩
  · have := tableFact_btc b.toNat b.toNat_lt
    rw [← hb] at this
    unfold tableFact at *
    rw [opName_congr (m := bitcoinMain) h, h']
    simpa only [serializeToken_congr (m := bitcoinMain) h] using this
  · have := tableFact_dcr b.toNat b.toNat_lt
    rw [← hb] at this
    unfold tableFact at *
    rw [opName_congr (m := decredMain) h, h']
    simpa only [serializeToken_congr (m := decredMain) h] using this

theorem opName_isOk {net : Network} (hn : net.Supported) {b : UInt8} (h : IsOpByte net.isDecred b) :
    ∃ t, opName net b = .ok t ∧ t ≠ [] ∧ (∀ c ∈ t, isPySpace c = false) ∧ serializeToken net t = .ok [b] := by
  have := tableFact_all hn b
  unfold tableFact at this
  split at this
  · rename_i t ht; exact ⟨t, ht, this.2.1, this.2.2.1, this.2.2.2 h⟩
  · exact absurd h this.2

theorem opName_ok {net : Network} (hn : net.Supported) {b : UInt8} {t : PyStr} (h : opName net b = .ok t)
    (hb : b = 0 ∨ 79 ≤ b.toNat) (hab : b ≠ 0xab) :
    IsOpByte net.isDecred b ∧ t ≠ [] ∧ (∀ c ∈ t, isPySpace c = false) ∧ serializeToken net t = .ok [b] := by
  have := tableFact_all hn b
  unfold tableFact at this
  rw [h] at this
  simp only at this
  have h1 : IsOpByte net.isDecred b := by
    rcases this.1 with h | h | h
    · exact h
    · rcases hb with rfl | hb
      · simp at h
      · omega
    · exact absurd h hab
  exact ⟨h1, this.2.1, this.2.2.1, this.2.2.2 h1⟩

/-! ### Serialization of data tokens -/

theorem codeToInt_push : ∀ k < 75, codeToInt (opPushName (k + 1)) = some (UInt8.ofNat (k + 1)) := by decide +kernel

theorem codeToInt_pd1 : codeToInt (pystr "OP_PUSHDATA1") = some 76 := by decide +kernel
theorem codeToInt_pd2 : codeToInt (pystr "OP_PUSHDATA2") = some 77 := by decide +kernel

theorem codeToInt_push0 : codeToInt (opPushName 0) = none := by decide +kernel

theorem ctik_push {n : Nat} (h : 1 ≤ n) (h' : n ≤ 75) : codeToIntOrKeyError (opPushName n) = .ok (UInt8.ofNat n) := by
  have := codeToInt_push (n - 1) (by omega)
  rw [show n - 1 + 1 = n by omega] at this
  unfold codeToIntOrKeyError; rw [this]

theorem ctik_push0 : codeToIntOrKeyError (opPushName 0) = .error .keyError := by
  unfold codeToIntOrKeyError; rw [codeToInt_push0]
theorem ctik_pd1 : codeToIntOrKeyError (pystr "OP_PUSHDATA1") = .ok 76 := by
  unfold codeToIntOrKeyError; rw [codeToInt_pd1]
theorem ctik_pd2 : codeToIntOrKeyError (pystr "OP_PUSHDATA2") = .ok 77 := by
  unfold codeToIntOrKeyError; rw [codeToInt_pd2]

theorem serializeData_toHex {t : PyStr} {d : Bytes} (ht : fromHex t = .ok d) :
    serializeData t = if d.length = 0 then .error .keyError else
      if d.length ≤ 1000 then .ok (minimalPush d) else .error .notImplementedError := by
  unfold serializeData minimalPush
  rw [ht, ok_bind]
  by_cases h0 : d.length = 0
  · rw [if_pos h0, if_pos (by omega), h0, ctik_push0]; rfl
  rw [if_neg h0]
  by_cases h1 : d.length ≤ 75
  · rw [if_pos h1, if_pos (by omega), ctik_push (by omega) h1, if_pos h1]; rfl
  rw [if_neg h1, if_neg h1]
  by_cases h2 : d.length ≤ 255
  · rw [if_pos h2, if_pos (by omega), ctik_pd1, i2le_byte (by omega), if_pos h2]; rfl
  rw [if_neg h2, if_neg h2]
  by_cases h3 : d.length ≤ 1000
  · rw [if_pos h3, if_pos h3, ctik_pd2]
    unfold i2lePadded
    rw [toBytesLE_natCast (by omega)]
    have : d.length / 256 % 256 = d.length / 256 := by omega
    simp only [ok_bind, natToLE, this]
    rfl
  · rw [if_neg h3, if_neg h3]

theorem serializeToken_toHex {net : Network} (hn : net.Supported) (d : Bytes) :
    serializeToken net (toHex d) = if d.length = 0 then .error .keyError else
      if d.length ≤ 1000 then .ok (minimalPush d) else .error .notImplementedError := by
  unfold serializeToken
  have hh := toHex_head d
  rw [if_neg, overwrite_none hn hh, codeToInt_none hh]
  · exact serializeData_toHex (fromHex_toHex d)
  · rintro (h | h) <;> rw [h] at hh <;> exact hh rfl

theorem serializeTokens_append (net : Network) (a b : List PyStr) :
    serializeTokens net (a ++ b) = (do
      let x ← serializeTokens net a
      let y ← serializeTokens net b
      .ok (x ++ y)) := by
  induction a with
  | nil =>
    simp only [List.nil_append, serializeTokens, ok_bind]
    cases serializeTokens net b <;> simp
  | cons t ts ih =>
    simp only [List.cons_append, serializeTokens, ih]
    cases serializeToken net t <;> simp

/-! ### The deserialization loop -/

theorem deserializeLoop_fuel (net : Network) : ∀ (k : Nat) (b : Bytes) (f g : Nat), b.length ≤ k → b.length ≤ f → b.length ≤ g →
    deserializeLoop net f b = deserializeLoop net g b := by
  intro k
  induction k with
  | zero =>
    intro b f g hk hf hg
    have : b = [] := by simpa using hk
    subst this
    cases f <;> cases g <;> rfl
  | succ k ih =>
    intro b f g hk hf hg
    cases b with
    | nil => cases f <;> cases g <;> rfl
    | cons c rest =>
      simp only [List.length_cons] at hk hf hg
      obtain ⟨f, rfl⟩ : ∃ f', f = f' + 1 := ⟨f - 1, by omega⟩
      obtain ⟨g, rfl⟩ : ∃ g', g = g' + 1 := ⟨g - 1, by omega⟩
      have hd : ∀ m, deserializeLoop net f (rest.drop m) = deserializeLoop net g (rest.drop m) := by
        intro m
        have : (rest.drop m).length ≤ rest.length := by simp
        exact ih _ _ _ (by omega) (by omega) (by omega)
      have h0 := hd 0
      simp only [List.drop_zero] at h0
      simp only [deserializeLoop, hd, h0]
      split; rfl
      split; rfl
      split
      · cases rest with
        | nil => rfl
        | cons l r =>
          have := hd (1 + l.toNat)
          rw [← List.drop_drop] at this
          simp only [List.drop_succ_cons, List.drop_zero] at this
          simp only [this]
      · rfl

theorem deserializeLoop_eq {net : Network} {b : Bytes} {f : Nat} (h : b.length ≤ f) :
    deserializeLoop net f b = deserializeTokens net b :=
  deserializeLoop_fuel net b.length b f b.length (Nat.le_refl _) h (Nat.le_refl _)

theorem deserializeTokens_nil (net : Network) : deserializeTokens net [] = .ok [] := rfl

/-- one iteration, fuel-free -/
theorem deserializeTokens_cons (net : Network) (cur : UInt8) (rest : Bytes) :
    deserializeTokens net (cur :: rest) =
    (if cur = 0xab then .error .notImplementedError
    else if cur.toNat ≤ 75 ∧ cur ≠ 0 then
      if rest.length < cur.toNat then .error .indexError
      else do
        let ts ← deserializeTokens net (rest.drop cur.toNat)
        .ok (toHex (rest.take cur.toNat) :: ts)
    else if cur = 76 then
      match rest with
      | [] => .error .indexError
      | l :: rest' => do
        let ts ← deserializeTokens net (rest'.drop l.toNat)
        .ok (toHex (rest'.take l.toNat) :: ts)
    else if cur = 77 then do
      let ts ← deserializeTokens net (rest.drop (2 + leToNat (rest.take 2)))
      .ok (toHex (slice rest 2 (2 + leToNat (rest.take 2))) :: ts)
    else if cur = 78 then .error .notImplementedError
    else do
      let t ← opName net cur
      let ts ← deserializeTokens net rest
      .ok (t :: ts)) := by
  have e : ∀ m, deserializeLoop net rest.length (rest.drop m) = deserializeTokens net (rest.drop m) := by
    intro m; exact deserializeLoop_eq (by simp)
  conv => lhs; unfold deserializeTokens
  simp only [List.length_cons, deserializeLoop, e, le2i, deserializeLoop_eq (Nat.le_refl _)]
  split; rfl
  split; rfl
  split
  · cases rest with
    | nil => rfl
    | cons l r =>
      have := e (1 + l.toNat)
      rw [← List.drop_drop] at this
      simp only [List.drop_succ_cons, List.drop_zero] at this
      simp only [this]
  · rfl

/-- the text of an item on a network -/
def ItemText (net : Network) : ScriptItem → PyStr → Prop
  | .op b, t => opName net b = .ok t
  | .push d, t => t = toHex d

theorem deserializeTokens_push (net : Network) (d rest : Bytes) (h1 : 1 ≤ d.length) (h2 : d.length ≤ 1000) :
    deserializeTokens net (minimalPush d ++ rest) = (do
      let ts ← deserializeTokens net rest
      .ok (toHex d :: ts)) := by
  unfold minimalPush
  by_cases ha : d.length ≤ 75
  · rw [if_pos ha, List.cons_append, deserializeTokens_cons]
    have hto : (UInt8.ofNat d.length).toNat = d.length := by simp; omega
    have hne : UInt8.ofNat d.length ≠ 0 := by
      intro h; have : d.length = 0 := by rw [← hto, h]; rfl
      omega
    have hab : UInt8.ofNat d.length ≠ 0xab := by
      intro h; have : d.length = 171 := by rw [← hto, h]; rfl
      omega
    rw [if_neg hab, if_pos ⟨by rw [hto]; omega, hne⟩, hto, if_neg (by simp)]
    simp
  rw [if_neg ha]
  by_cases hb : d.length ≤ 255
  · rw [if_pos hb]
    have hto : (UInt8.ofNat d.length).toNat = d.length := by simp; omega
    simp only [List.cons_append]
    rw [deserializeTokens_cons, if_neg (by decide), if_neg (by decide), if_pos (by decide)]
    simp only [hto, List.drop_left, List.take_left]
  · rw [if_neg hb]
    simp only [List.cons_append]
    rw [deserializeTokens_cons, if_neg (by decide), if_neg (by decide), if_neg (by decide), if_pos (by decide)]
    have hl : leToNat ([UInt8.ofNat (d.length % 256), UInt8.ofNat (d.length / 256)]) = d.length := by
      simp [leToNat]; omega
    simp only [List.take_succ_cons, List.take_zero, hl]
    rw [show (2 + d.length) = 1 + d.length + 1 from by omega, List.drop_succ_cons,
      show (1 + d.length) = d.length + 1 from by omega, List.drop_succ_cons, List.drop_left]
    have : slice (UInt8.ofNat (d.length % 256) :: UInt8.ofNat (d.length / 256) :: (d ++ rest)) 2 (d.length + 1 + 1) = d := by
      simp [slice]
    rw [this]

theorem op_tests {extra : Bool} {b : UInt8} (h : IsOpByte extra b) :
    b ≠ 0xab ∧ ¬ (b.toNat ≤ 75 ∧ b ≠ 0) ∧ b ≠ 76 ∧ b ≠ 77 ∧ b ≠ 78 := by
  have : ∀ extra : Bool, ∀ n < 256, IsOpByte extra (UInt8.ofNat n) → UInt8.ofNat n ≠ 0xab ∧
      ¬ ((UInt8.ofNat n).toNat ≤ 75 ∧ UInt8.ofNat n ≠ 0) ∧ UInt8.ofNat n ≠ 76 ∧ UInt8.ofNat n ≠ 77 ∧ UInt8.ofNat n ≠ 78 := by
    decide +kernel
  have hb := this extra b.toNat b.toNat_lt
  simp only [UInt8.ofNat_toNat] at hb
  exact hb h

theorem deserializeTokens_op (net : Network) (b : UInt8) (rest : Bytes) (extra : Bool) (h : IsOpByte extra b) :
    deserializeTokens net (b :: rest) = (do
      let t ← opName net b
      let ts ← deserializeTokens net rest
      .ok (t :: ts)) := by
  obtain ⟨h1, h2, h3, h4, h5⟩ := op_tests h
  rw [deserializeTokens_cons, if_neg h1, if_neg h2, if_neg h3, if_neg h4, if_neg h5]

/-- item by item: text and wire correspond through both functions -/
theorem items_roundtrip {net : Network} (hn : net.Supported) (items : List ScriptItem)
    (hv : ∀ i ∈ items, i.Valid net.isDecred) :
    ∃ ts : List PyStr, List.Forall₂ (ItemText net) items ts ∧ (∀ t ∈ ts, t ≠ []) ∧
      (∀ t ∈ ts, ∀ c ∈ t, isPySpace c = false) ∧
      serializeTokens net ts = .ok (items.flatMap ScriptItem.wire) ∧
      deserializeTokens net (items.flatMap ScriptItem.wire) = .ok ts := by
  induction items with
  | nil => exact ⟨[], .nil, by simp, by simp, rfl, rfl⟩
  | cons i is ih =>
    obtain ⟨ts, hf, hne, hsp, hs, hd⟩ := ih (fun j hj => hv j (by simp [hj]))
    have hi := hv i (by simp)
    cases i with
    | op b =>
      obtain ⟨t, h1, h2, h3, h4⟩ := opName_isOk hn (b := b) hi
      refine ⟨t :: ts, .cons h1 hf, ?_, ?_, ?_, ?_⟩
      · simpa [h2] using hne
      · intro u hu; rcases List.mem_cons.1 hu with rfl | hu
        · exact h3
        · exact hsp u hu
      · simp [serializeTokens, h4, hs, ScriptItem.wire]
      · simp only [List.flatMap_cons, ScriptItem.wire, List.singleton_append]
        rw [deserializeTokens_op net b _ _ hi, h1, hd]; rfl
    | push d =>
      obtain ⟨h1, h2⟩ := (hi : 1 ≤ d.length ∧ d.length ≤ 1000)
      refine ⟨toHex d :: ts, .cons rfl hf, ?_, ?_, ?_, ?_⟩
      · simpa [toHex_ne_nil h1] using hne
      · intro u hu; rcases List.mem_cons.1 hu with rfl | hu
        · exact toHex_noSpace d
        · exact hsp u hu
      · rw [serializeTokens, serializeToken_toHex hn, if_neg (by omega), if_pos h2]
        simp [hs, ScriptItem.wire]
      · simp only [List.flatMap_cons, ScriptItem.wire]
        rw [deserializeTokens_push net d _ h1 h2, hd]; rfl

/-! ### Splitting with empty tokens -/

theorem pySplit_joinSpace_filter (ts : List PyStr) (hsp : ∀ t ∈ ts, ∀ c ∈ t, isPySpace c = false) :
    pySplit (joinSpace ts) = ts.filter (fun t => !t.isEmpty) := by
  unfold pySplit
  induction ts with
  | nil => simp [joinSpace, splitAux]
  | cons t ts ih =>
    have hs := hsp t (by simp)
    have ih' := ih (fun u hu => hsp u (by simp [hu]))
    cases ts with
    | nil =>
      simp only [joinSpace]
      have h := splitAux_token [] t [] hs
      simp only [List.append_nil] at h
      rw [h]; cases t <;> simp [splitAux]
    | cons u us =>
      have e : joinSpace (t :: u :: us) = t ++ ' ' :: joinSpace (u :: us) := rfl
      rw [e, splitAux_token [] t _ hs]
      have hsp : isPySpace ' ' = true := by decide
      simp only [List.append_nil, splitAux, hsp, if_true]
      cases t with
      | nil => simpa using ih'
      | cons c cs => simpa using ih'

/-- every deserialised token is an opcode name or the hex of some data -/
theorem deserializeTokens_ok {net : Network} (hn : net.Supported) : ∀ (k : Nat) (b : Bytes) (ts : List PyStr), b.length ≤ k →
    deserializeTokens net b = .ok ts →
    ∀ t ∈ ts, (∃ c, IsOpByte net.isDecred c ∧ opName net c = .ok t) ∨ ∃ d : Bytes, t = toHex d := by
  intro k
  induction k with
  | zero =>
    intro b ts hk h
    have : b = [] := by simpa using hk
    subst this
    cases h; simp
  | succ k ih =>
    intro b ts hk h
    cases b with
    | nil => cases h; simp
    | cons c rest =>
      simp only [List.length_cons] at hk
      have ihd : ∀ m us, deserializeTokens net (rest.drop m) = .ok us → ∀ t ∈ us,
          (∃ c, IsOpByte net.isDecred c ∧ opName net c = .ok t) ∨ ∃ d : Bytes, t = toHex d := by
        intro m us hu
        exact ih _ _ (by simp; omega) hu
      rw [deserializeTokens_cons] at h
      split at h; · simp at h
      rename_i hab
      split at h
      · split at h; · simp at h
        obtain ⟨us, hu, h⟩ := bind_ok_iff.1 h
        cases h
        intro t ht
        rcases List.mem_cons.1 ht with rfl | ht
        · exact .inr ⟨_, rfl⟩
        · exact ihd _ _ hu t ht
      rename_i hnp
      split at h
      · cases rest with
        | nil => simp at h
        | cons l r =>
          simp only at h
          obtain ⟨us, hu, h⟩ := bind_ok_iff.1 h
          cases h
          intro t ht
          rcases List.mem_cons.1 ht with rfl | ht
          · exact .inr ⟨_, rfl⟩
          · have := ihd (1 + l.toNat) us
            rw [← List.drop_drop] at this
            exact this hu t ht
      rename_i h76
      split at h
      · obtain ⟨us, hu, h⟩ := bind_ok_iff.1 h
        cases h
        intro t ht
        rcases List.mem_cons.1 ht with rfl | ht
        · exact .inr ⟨_, rfl⟩
        · exact ihd _ _ hu t ht
      rename_i h77
      split at h; · simp at h
      rename_i h78
      obtain ⟨t0, ht0, h⟩ := bind_ok_iff.1 h
      obtain ⟨us, hu, h⟩ := bind_ok_iff.1 h
      cases h
      intro t ht
      rcases List.mem_cons.1 ht with rfl | ht
      · left
        refine ⟨c, (opName_ok hn ht0 ?_ hab).1, ht0⟩
        by_cases hc0 : c = 0
        · exact .inl hc0
        · right
          have h1 : ¬ c.toNat ≤ 75 := fun h => hnp ⟨h, hc0⟩
          have h2 : c.toNat ≠ 76 := fun h => h76 (UInt8.toNat_inj.1 h)
          have h3 : c.toNat ≠ 77 := fun h => h77 (UInt8.toNat_inj.1 h)
          have h4 : c.toNat ≠ 78 := fun h => h78 (UInt8.toNat_inj.1 h)
          omega
      · exact ihd 0 us (by simpa using hu) t ht

end Verif
