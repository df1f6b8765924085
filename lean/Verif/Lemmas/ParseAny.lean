import Verif.Lemmas.TxParse3

/-! What the parsers do on arbitrary bytes: the exceptions they raise and the objects they return. -/

namespace Verif
open Spec Props

/-- The exceptions that parsing raises. -/
def ReadErr (e : PyErr) : Prop := e = .valueError ∨ e = .indexError

/-- The exceptions that parsing outputs raises. -/
def ParseErr (e : PyErr) : Prop := e = .valueError ∨ e = .indexError ∨ e = .notImplementedError

theorem ReadErr.parse {e : PyErr} (h : ReadErr e) : ParseErr e := by
  rcases h with h | h
  · exact .inl h
  · exact .inr (.inl h)

theorem VarInt.make_any {n : Nat} (h : n < 2 ^ 64) (l : Option Nat) (h3 : l = some 3 → n < 65536) (h5 : l = some 5 → n < 4294967296) :
    ∃ v, VarInt.make (n : Int) l = .ok v ∧ v.number = n ∧ (compactSize n).length ≤ v.bytes.length := by
  by_cases c : n < 253
  · have : ∃ v, VarInt.make (n : Int) l = .ok v := by
      unfold VarInt.make
      rw [if_neg (by omega), if_neg (by omega), if_pos (by omega), i2le_byte (by omega)]
      cases l <;> simp
    obtain ⟨v, hv⟩ := this
    obtain ⟨h1, tl, h2⟩ := VarInt.make_small c l v hv
    refine ⟨v, hv, h1, ?_⟩
    rw [h2, compactSize_eq]
    unfold varintBytes
    rw [if_pos c]
    simp
  · exact ⟨_, VarInt.make_ge253 h (by omega) l h3 h5, rfl, by rw [compactSize_eq]; exact Nat.le_refl _⟩

/-- `VarInt.from_bytes` on any bytes: it fails with IndexError on nothing, with ValueError otherwise, or returns a number and at least as
many bytes as the compact encoding has. -/
theorem VarInt.fromBytes_any (net : Network) (b : Bytes) :
    (b = [] ∧ VarInt.fromBytes net b = .error .indexError) ∨ (b ≠ [] ∧ VarInt.fromBytes net b = .error .valueError) ∨
    (b ≠ [] ∧ ∃ v, VarInt.fromBytes net b = .ok v ∧ v.number < 2 ^ 64 ∧ (compactSize v.number).length ≤ v.bytes.length) := by
  cases b with
  | nil => exact .inl ⟨rfl, rfl⟩
  | cons first tl =>
    right
    unfold VarInt.fromBytes
    simp only []
    generalize hs : VarInt.split first (first :: tl) = p
    obtain ⟨num, nc⟩ := p
    simp only []
    by_cases c1 : ¬ (num.length = 1 ∨ num.length = 2 ∨ num.length = 4 ∨ num.length = 8)
    · rw [if_pos c1]; exact .inl ⟨by simp, rfl⟩
    rw [if_neg c1]
    by_cases c2 : nc = true ∧ (net.isOverwinter = true ∨ net.isSapling = true)
    · rw [if_pos c2]; exact .inl ⟨by simp, rfl⟩
    rw [if_neg c2]
    right
    refine ⟨by simp, ?_⟩
    have hlt := leToNat_lt num
    have h64 : leToNat num < 2 ^ 64 := by
      have : num.length = 1 ∨ num.length = 2 ∨ num.length = 4 ∨ num.length = 8 := Classical.not_not.1 c1
      rcases this with h | h | h | h <;> rw [h] at hlt <;> omega
    obtain ⟨v, h1, h2, h3⟩ := VarInt.make_any h64 (some (if nc = true then num.length + 1 else 0)) (by
      intro h
      cases nc
      · simp at h
      · simp at h; rw [h] at hlt; omega) (by
      intro h
      cases nc
      · simp at h
      · simp at h; rw [h] at hlt; omega)
    exact ⟨v, h1, by rw [h2]; exact h64, by rw [h2]; exact h3⟩

theorem VarInt.fromBytes_error {net : Network} {b : Bytes} {e : PyErr} (h : VarInt.fromBytes net b = .error e) : ReadErr e := by
  rcases VarInt.fromBytes_any net b with ⟨-, h1⟩ | ⟨-, h1⟩ | ⟨-, v, h1, -⟩ <;> rw [h1] at h <;> cases h
  · exact .inr rfl
  · exact .inl rfl

theorem VarInt.fromBytes_ok {net : Network} {b : Bytes} {v : VarInt} (h : VarInt.fromBytes net b = .ok v) :
    b ≠ [] ∧ v.number < 2 ^ 64 ∧ (compactSize v.number).length ≤ v.bytes.length ∧ 0 < v.bytes.length := by
  rcases VarInt.fromBytes_any net b with ⟨-, h1⟩ | ⟨-, h1⟩ | ⟨h0, w, h1, h2, h3⟩ <;> rw [h1] at h <;> cases h
  exact ⟨h0, h2, h3, Nat.lt_of_lt_of_le (compactSize_pos _) h3⟩

/-! ### elements -/

theorem Outpoint.fromBytes_ok {b : Bytes} {o : Outpoint} (h : Outpoint.fromBytes b = .ok o) :
    o.Built ∧ 36 ≤ b.length ∧ o.bytes = b.take 36 := by
  have h0 := h
  unfold Outpoint.fromBytes at h
  rw [Outpoint.make_iff] at h
  obtain ⟨h1, h2, rfl⟩ := h
  simp only [slice_length] at h1 h2
  refine ⟨⟨_, _, h0⟩, by omega, ?_⟩
  simp only [slice, List.drop_zero]
  rw [show b.take 32 = (b.take 36).take 32 by rw [List.take_take]; rfl, List.take_append_drop]

theorem Outpoint.fromBytes_error {b : Bytes} {e : PyErr} (h : Outpoint.fromBytes b = .error e) : e = .valueError :=
  Outpoint.make_error h

theorem parseScriptSig_total {net : Network} (hn : net.Supported) (b : Bytes) : ∃ x y, TxIn.parseScriptSig net b = .ok (x, y) := by
  rcases parseScriptSig_cases hn b with h1 | ⟨_, _, _, _, -, -, -, -, ⟨_, -, h1⟩ | ⟨-, h1⟩⟩
  · exact ⟨_, _, h1⟩
  · exact ⟨_, _, h1⟩
  · exact ⟨_, _, h1⟩

theorem TxIn.fromBytes_error {net : Network} (hn : net.Supported) {b : Bytes} {e : PyErr} (h : TxIn.fromBytes net b = .error e) :
    ReadErr e := by
  unfold TxIn.fromBytes at h
  rcases bind_error_iff.1 h with h | ⟨o, ho, h⟩
  · exact .inl (Outpoint.fromBytes_error h)
  rcases bind_error_iff.1 h with h | ⟨n, hn', h⟩
  · exact VarInt.fromBytes_error h
  simp only [] at h
  split at h
  · exact .inl (TxIn.make_error h)
  · rw [Outpoint.null_eq, ok_bind] at h
    split at h
    · exact .inl (TxIn.make_error h)
    · obtain ⟨x, y, hp⟩ := parseScriptSig_total hn (slice b (36 + n.bytes.length) (36 + n.bytes.length + n.number))
      rw [hp, ok_bind] at h
      exact .inl (TxIn.make_error h)

/-- An input read from any bytes. -/
theorem TxIn.fromBytes_ok {net : Network} (hn : net.Supported) {b : Bytes} {t : TxIn} (h : TxIn.fromBytes net b = .ok t) :
    t.Built ∧ 36 < b.length ∧ 41 ≤ t.bytes.length ∧
    (t.outpoint.bytes = List.replicate 32 0x00 ++ List.replicate 4 0xff ∨
      ∃ x y, TxIn.parseScriptSig net t.scriptSig = .ok (x, y) ∧ x ++ y = t.scriptSig) := by
  unfold TxIn.fromBytes at h
  obtain ⟨o, ho, h⟩ := bind_ok_iff.1 h
  obtain ⟨n, hv, h⟩ := bind_ok_iff.1 h
  obtain ⟨ob, ol, oe⟩ := Outpoint.fromBytes_ok ho
  obtain ⟨vne, -⟩ := VarInt.fromBytes_ok hv
  have hb : 36 < b.length := by
    have : 0 < (slice b 36 45).length := List.length_pos_of_ne_nil vne
    rw [slice_length] at this
    omega
  have fin : ∀ x y sq, TxIn.make o x y sq = .ok t → t.Built ∧ 36 < b.length ∧ 41 ≤ t.bytes.length ∧ t.scriptSig = x ++ y ∧ t.outpoint = o := by
    intro x y sq hm
    refine ⟨⟨o, x, y, sq, ob, hm⟩, hb, ?_, ?_, ?_⟩ <;> rw [TxIn.make_iff] at hm <;> obtain ⟨e1, e2, e3, rfl⟩ := hm
    · have := compactSize_pos (x ++ y).length
      simp only [List.length_append, varBytes] at this ⊢
      omega
    · rfl
    · rfl
  simp only [] at h
  split at h
  · obtain ⟨f1, f2, f3, f4, f5⟩ := fin _ _ _ h
    refine ⟨f1, f2, f3, .inr ?_⟩
    rw [f4]
    obtain ⟨x, y, hp⟩ := parseScriptSig_total hn ([] : Bytes)
    obtain ⟨s, hd⟩ : ∃ s, deserialize net [] = .ok s := ⟨_, rfl⟩
    rcases parseScriptSig_cases hn ([] : Bytes) with h1 | ⟨s, init, last, stack, h1, h2, -⟩
    · exact ⟨_, _, h1, rfl⟩
    · exfalso
      have : s = [] := by
        have h3 : deserialize net [] = .ok [] := rfl
        rw [h3] at h1; cases h1; rfl
      rw [this] at h2
      have h3 : pySplit [] = [] := rfl
      rw [h3] at h2
      simp at h2
  · rw [Outpoint.null_eq, ok_bind] at h
    split at h
    · next hnull =>
      obtain ⟨f1, f2, f3, f4, f5⟩ := fin _ _ _ h
      exact ⟨f1, f2, f3, .inl (by rw [f5]; exact hnull)⟩
    · obtain ⟨x, y, hp⟩ := parseScriptSig_total hn (slice b (36 + n.bytes.length) (36 + n.bytes.length + n.number))
      rw [hp, ok_bind] at h
      obtain ⟨f1, f2, f3, f4, f5⟩ := fin _ _ _ h
      refine ⟨f1, f2, f3, .inr ?_⟩
      rw [f4]
      exact parseScriptSig_idem hn hp

theorem TxOut.fromBytes_error {net : Network} {b : Bytes} {e : PyErr} (h : TxOut.fromBytes net b = .error e) : ParseErr e := by
  unfold TxOut.fromBytes at h
  rcases bind_error_iff.1 h with h | ⟨n, hn', h⟩
  · exact (VarInt.fromBytes_error h).parse
  simp only [] at h
  split at h
  · exact .inl (TxOut.make_error h)
  · cases h; exact .inr (.inr rfl)

theorem TxOut.fromBytes_ok {net : Network} {b : Bytes} {t : TxOut} (h : TxOut.fromBytes net b = .ok t) :
    t.Built ∧ 8 < b.length ∧ 9 ≤ t.bytes.length ∧ t.outputScript.length < 252 := by
  unfold TxOut.fromBytes at h
  obtain ⟨n, hv, h⟩ := bind_ok_iff.1 h
  obtain ⟨vne, -⟩ := VarInt.fromBytes_ok hv
  have hb : 8 < b.length := by
    have : 0 < (b.drop 8).length := List.length_pos_of_ne_nil vne
    rw [List.length_drop] at this
    omega
  simp only [] at h
  split at h
  · next hc =>
    refine ⟨⟨_, _, h⟩, hb, ?_, ?_⟩ <;> rw [TxOut.make_iff] at h <;> obtain ⟨e1, e2, rfl⟩ := h
    · have := compactSize_pos (slice b (8 + n.bytes.length) (8 + n.bytes.length + n.number)).length
      simp only [wireOut, varBytes, List.length_append] at this e1 ⊢
      omega
    · simp only [slice_length]; omega
  · cases h

theorem WitnessStackItem.make_error {s : Bytes} {e : PyErr} (h : WitnessStackItem.make s = .error e) : e = .valueError := by
  unfold WitnessStackItem.make at h
  rw [validateBytes_none, ok_bind] at h
  by_cases c : s.length < 2 ^ 64
  · rw [VarInt.make_len c] at h; cases h
  · rw [VarInt.make_len_error c] at h; cases h; rfl

theorem WitnessStackItem.fromBytes_error {net : Network} {b : Bytes} {e : PyErr} (h : WitnessStackItem.fromBytes net b = .error e) :
    ReadErr e := by
  unfold WitnessStackItem.fromBytes at h
  rcases bind_error_iff.1 h with h | ⟨n, hn', h⟩
  · exact VarInt.fromBytes_error h
  · exact .inl (WitnessStackItem.make_error h)

theorem WitnessStackItem.fromBytes_ok {net : Network} {b : Bytes} {t : WitnessStackItem} (h : WitnessStackItem.fromBytes net b = .ok t) :
    t.Built ∧ 0 < b.length ∧ 1 ≤ t.bytes.length := by
  unfold WitnessStackItem.fromBytes at h
  obtain ⟨n, hv, h⟩ := bind_ok_iff.1 h
  obtain ⟨vne, -⟩ := VarInt.fromBytes_ok hv
  refine ⟨⟨_, h⟩, List.length_pos_of_ne_nil vne, ?_⟩
  rw [WitnessStackItem.make_iff] at h
  obtain ⟨e2, rfl⟩ := h
  have := compactSize_pos (slice b n.bytes.length (n.bytes.length + n.number)).length
  simp only [varBytes, List.length_append] at this ⊢
  omega

/-! ### loops -/

theorem sum_ge {α : Type} {f : α → Nat} {k : Nat} : ∀ {l : List α}, (∀ x ∈ l, k ≤ f x) → k * l.length ≤ (l.map f).sum
  | [], _ => by simp
  | x :: l, h => by
    have h1 := h x (by simp)
    have h2 := sum_ge (l := l) fun y hy => h y (by simp [hy])
    simp only [List.length_cons, List.map_cons, List.sum_cons, Nat.mul_succ]
    omega

theorem TxIn.Built.length_ge {t : TxIn} (h : t.Built) : 41 ≤ t.bytes.length := by
  obtain ⟨h1, h2, h3, h4, h5⟩ := h.eq
  have := h1.length
  have := compactSize_pos t.scriptSig.length
  rw [h5]; simp only [varBytes, List.length_append]; omega

theorem TxOut.Built.length_ge {t : TxOut} (h : t.Built) : 9 ≤ t.bytes.length := by
  obtain ⟨h1, h2, h3⟩ := h.eq
  have := compactSize_pos t.outputScript.length
  rw [h3]; simp only [wireOut, varBytes, List.length_append]; omega

theorem parseMany_error {α : Type} {f : Bytes → Py α} {len : α → Nat} {P : PyErr → Prop} (hf : ∀ b e, f b = .error e → P e) (b : Bytes) :
    ∀ (n cur : Nat) (e : PyErr), parseMany f len b n cur = .error e → P e
  | 0, _, _, h => by cases h
  | n + 1, cur, e, h => by
    unfold parseMany at h
    rcases bind_error_iff.1 h with h | ⟨x, hx, h⟩
    · exact hf _ _ h
    rcases bind_error_iff.1 h with h | ⟨p, hp, h⟩
    · exact parseMany_error hf b n _ e h
    · cases h

/-- The objects of a loop that succeeds, and where it ends. -/
theorem parseMany_ok {α : Type} {f : Bytes → Py α} {len : α → Nat} {P : α → Prop} {k m : Nat}
    (hf : ∀ b x, f b = .ok x → P x ∧ k ≤ len x ∧ m ≤ b.length) (b : Bytes) :
    ∀ (n cur : Nat) (xs : List α) (fin : Nat), parseMany f len b n cur = .ok (xs, fin) →
      xs.length = n ∧ (∀ x ∈ xs, P x ∧ k ≤ len x) ∧ fin = cur + (xs.map len).sum ∧ (0 < n → cur + k * (n - 1) + m ≤ b.length ∨ m = 0)
  | 0, cur, xs, fin, h => by cases h; simp
  | n + 1, cur, xs, fin, h => by
    unfold parseMany at h
    obtain ⟨x, hx, h⟩ := bind_ok_iff.1 h
    obtain ⟨⟨ys, fin'⟩, hp, h⟩ := bind_ok_iff.1 h
    cases h
    obtain ⟨h1, h2, h3, h4⟩ := parseMany_ok hf b n _ _ _ hp
    obtain ⟨g1, g2, g3⟩ := hf _ _ hx
    rw [List.length_drop] at g3
    refine ⟨by simp [h1], ?_, ?_, ?_⟩
    · simp only [List.mem_cons, forall_eq_or_imp]; exact ⟨⟨g1, g2⟩, h2⟩
    · simp only [List.map_cons, List.sum_cons]; omega
    · intro _
      rcases Nat.eq_zero_or_pos n with h0 | h0
      · subst h0; simp; omega
      · rcases h4 h0 with h5 | h5
        · have e : k * (n + 1 - 1) = k * (n - 1) + k := by
            obtain ⟨j, rfl⟩ : ∃ j, n = j + 1 := ⟨n - 1, by omega⟩
            simp [Nat.mul_succ]
          left; omega
        · right; exact h5

/-- A loop that is asked for more objects than there are bytes left fails, and the number asked for makes no difference. -/
theorem parseMany_many {α : Type} {f : Bytes → Py α} {len : α → Nat}
    (hf : ∀ b x, f b = .ok x → 1 ≤ len x ∧ 1 ≤ b.length) (b : Bytes) :
    ∀ (k n cur : Nat), b.length - cur ≤ k → b.length - cur < n → ∃ e, parseMany f len b n cur = .error e ∧
      ∀ m, b.length - cur < m → parseMany f len b m cur = .error e := by
  have step : ∀ n cur, 0 < n → parseMany f len b n cur = (do
      let x ← f (b.drop cur)
      let (xs, fin) ← parseMany f len b (n - 1) (cur + len x)
      .ok (x :: xs, fin)) := by
    intro n cur hn
    obtain ⟨j, rfl⟩ : ∃ j, n = j + 1 := ⟨n - 1, by omega⟩
    rfl
  intro k
  induction k with
  | zero =>
    intro n cur hk hn
    cases hx : f (b.drop cur) with
    | error e =>
      refine ⟨e, ?_, fun m hm => ?_⟩
      · rw [step n cur (by omega), hx]; rfl
      · rw [step m cur (by omega), hx]; rfl
    | ok x =>
      have := (hf _ _ hx).2
      rw [List.length_drop] at this
      omega
  | succ k ih =>
    intro n cur hk hn
    cases hx : f (b.drop cur) with
    | error e =>
      refine ⟨e, ?_, fun m hm => ?_⟩
      · rw [step n cur (by omega), hx]; rfl
      · rw [step m cur (by omega), hx]; rfl
    | ok x =>
      obtain ⟨h1, h2⟩ := hf _ _ hx
      rw [List.length_drop] at h2
      obtain ⟨e, h3, h4⟩ := ih (n - 1) (cur + len x) (by omega) (by omega)
      refine ⟨e, ?_, fun m hm => ?_⟩
      · rw [step n cur (by omega), hx, ok_bind, h3]; rfl
      · rw [step m cur (by omega), hx, ok_bind, h4 (m - 1) (by omega)]; rfl

theorem InputWitness.make_error {st : List WitnessStackItem} {e : PyErr} (h : InputWitness.make st = .error e) : e = .valueError := by
  unfold InputWitness.make at h
  by_cases c : st.length < 2 ^ 64
  · rw [VarInt.make_len c] at h; cases h
  · rw [VarInt.make_len_error c] at h; cases h; rfl

theorem InputWitness.fromBytes_error {net : Network} {b : Bytes} {e : PyErr} (h : InputWitness.fromBytes net b = .error e) : ReadErr e := by
  unfold InputWitness.fromBytes at h
  rcases bind_error_iff.1 h with h | ⟨n, hn', h⟩
  · exact VarInt.fromBytes_error h
  rcases bind_error_iff.1 h with h | ⟨⟨xs, fin⟩, hn', h⟩
  · exact parseMany_error (fun _ _ => WitnessStackItem.fromBytes_error) b _ _ _ h
  · exact .inl (InputWitness.make_error h)

theorem InputWitness.fromBytes_ok {net : Network} {b : Bytes} {t : InputWitness} (h : InputWitness.fromBytes net b = .ok t) :
    t.Built ∧ 0 < b.length ∧ 1 ≤ t.bytes.length := by
  unfold InputWitness.fromBytes at h
  obtain ⟨n, hv, h⟩ := bind_ok_iff.1 h
  obtain ⟨⟨xs, fin⟩, hp, h⟩ := bind_ok_iff.1 h
  obtain ⟨vne, -⟩ := VarInt.fromBytes_ok hv
  obtain ⟨-, h2, -⟩ := parseMany_ok (P := WitnessStackItem.Built) (k := 1) (m := 1) (fun b x hx => by
    obtain ⟨a1, a2, a3⟩ := WitnessStackItem.fromBytes_ok hx; exact ⟨a1, a3, a2⟩) b _ _ _ _ hp
  have hB : t.Built := ⟨xs, fun i hi => (h2 i hi).1, h⟩
  exact ⟨hB, List.length_pos_of_ne_nil vne, hB.pos⟩

/-! ### transactions -/

theorem Tx.make_error {E : Env} {v : Bytes} {f : Option Bytes} {ins : List TxIn} {outs : List TxOut} {ws : Option (List InputWitness)}
    {lt : Bytes} {e : PyErr} (h : Tx.make E v f ins outs ws lt = .error e) : e = .valueError := by
  rw [Tx.make_eq] at h
  split at h
  · cases h
  · cases h; rfl

theorem Tx.fromBytes_error {E : Env} (hn : E.net.Supported) {b : Bytes} {e : PyErr} (h : Tx.fromBytes E b = .error e) : ParseErr e := by
  unfold Tx.fromBytes at h
  simp only [] at h
  rcases bind_error_iff.1 h with h | ⟨ni, -, h⟩
  · exact (VarInt.fromBytes_error h).parse
  rcases bind_error_iff.1 h with h | ⟨⟨ins, cur⟩, -, h⟩
  · exact parseMany_error (fun _ _ h => (TxIn.fromBytes_error hn h).parse) b _ _ _ h
  rcases bind_error_iff.1 h with h | ⟨no, -, h⟩
  · exact (VarInt.fromBytes_error h).parse
  rcases bind_error_iff.1 h with h | ⟨⟨outs, cur'⟩, -, h⟩
  · exact parseMany_error (fun _ _ => TxOut.fromBytes_error) b _ _ _ h
  generalize (if slice b 4 6 = E.net.segwitTxFlag then some E.net.segwitTxFlag else none : Option Bytes) = fl at h
  split at h
  · rcases bind_error_iff.1 h with h | ⟨⟨ws, cur''⟩, -, h⟩
    · exact parseMany_error (fun _ _ h => (InputWitness.fromBytes_error h).parse) b _ _ _ h
    · exact .inl (Tx.make_error h)
  · exact .inl (Tx.make_error h)

/-- The steps of a successful parse. -/
theorem Tx.fromBytes_steps {E : Env} {b : Bytes} {t : Tx} (h : Tx.fromBytes E b = .ok t) :
    ∃ ni ins cur no outs cur' ws cur'',
      VarInt.fromBytes E.net (b.drop (if slice b 4 6 = E.net.segwitTxFlag then 6 else 4)) = .ok ni ∧
      parseMany (TxIn.fromBytes E.net) (·.bytes.length) b ni.number ((if slice b 4 6 = E.net.segwitTxFlag then 6 else 4) + ni.bytes.length) =
        .ok (ins, cur) ∧
      VarInt.fromBytes E.net (b.drop cur) = .ok no ∧
      parseMany (TxOut.fromBytes E.net) (·.bytes.length) b no.number (cur + no.bytes.length) = .ok (outs, cur') ∧
      (if (if slice b 4 6 = E.net.segwitTxFlag then some E.net.segwitTxFlag else none : Option Bytes).getD [] ≠ [] ∧
        (b.drop cur').length > 4 then parseMany (InputWitness.fromBytes E.net) (·.bytes.length) b ni.number cur' else .ok ([], cur')) =
        .ok (ws, cur'') ∧
      Tx.make E (slice b 0 4) (if slice b 4 6 = E.net.segwitTxFlag then some E.net.segwitTxFlag else none) ins outs
          (some ws) (slice b cur'' (cur'' + 4)) = .ok t := by
  unfold Tx.fromBytes at h
  simp only [] at h
  obtain ⟨ni, hni, h⟩ := bind_ok_iff.1 h
  obtain ⟨⟨ins, cur⟩, hins, h⟩ := bind_ok_iff.1 h
  obtain ⟨no, hno, h⟩ := bind_ok_iff.1 h
  obtain ⟨⟨outs, cur'⟩, houts, h⟩ := bind_ok_iff.1 h
  refine ⟨ni, ins, cur, no, outs, cur', ?_⟩
  suffices hh : ∃ ws cur'', (if (if slice b 4 6 = E.net.segwitTxFlag then some E.net.segwitTxFlag else none : Option Bytes).getD [] ≠ [] ∧
        (b.drop cur').length > 4 then parseMany (InputWitness.fromBytes E.net) (·.bytes.length) b ni.number cur' else .ok ([], cur')) =
        .ok (ws, cur'') ∧ Tx.make E (slice b 0 4) (if slice b 4 6 = E.net.segwitTxFlag then some E.net.segwitTxFlag else none) ins outs
          (some ws) (slice b cur'' (cur'' + 4)) = .ok t by
    obtain ⟨ws, cur'', h1, h2⟩ := hh
    exact ⟨ws, cur'', hni, hins, hno, houts, h1, h2⟩
  simp only [] at h
  generalize (if slice b 4 6 = E.net.segwitTxFlag then some E.net.segwitTxFlag else none : Option Bytes) = fl at h ⊢
  split at h
  · next c =>
    obtain ⟨⟨ws, cur''⟩, hws, h⟩ := bind_ok_iff.1 h
    exact ⟨ws, cur'', by rw [if_pos c]; exact hws, h⟩
  · next c => exact ⟨[], cur', by rw [if_neg c], h⟩

/-- A transaction read from any bytes. -/
theorem Tx.fromBytes_ok {E : Env} (hn : E.net.Supported) {b : Bytes} {t : Tx} (h : Tx.fromBytes E b = .ok t) :
    t.Built E ∧ t.bytes.length ≤ b.length ∧
    (∀ i ∈ t.txIns, i.outpoint.bytes = List.replicate 32 0x00 ++ List.replicate 4 0xff ∨
      ∃ x y, TxIn.parseScriptSig E.net i.scriptSig = .ok (x, y) ∧ x ++ y = i.scriptSig) ∧
    (∀ o ∈ t.txOuts, o.outputScript.length < 252) ∧ t.txWitnesses ≠ none := by
  obtain ⟨ni, ins, cur, no, outs, cur', ws, cur'', hni, hins, hno, houts, hws, h⟩ := Tx.fromBytes_steps h
  obtain ⟨-, ni1, ni2, ni3⟩ := VarInt.fromBytes_ok hni
  obtain ⟨-, no1, no2, no3⟩ := VarInt.fromBytes_ok hno
  obtain ⟨i1, i2, i3, -⟩ := parseMany_ok (P := fun i : TxIn => i.Built ∧ (i.outpoint.bytes = List.replicate 32 0x00 ++ List.replicate 4 0xff ∨
      ∃ x y, TxIn.parseScriptSig E.net i.scriptSig = .ok (x, y) ∧ x ++ y = i.scriptSig)) (k := 41) (m := 36) (fun b x hx => by
    obtain ⟨a1, a2, a3, a4⟩ := TxIn.fromBytes_ok hn hx; exact ⟨⟨a1, a4⟩, a3, by omega⟩) b _ _ _ _ hins
  obtain ⟨o1, o2, o3, -⟩ := parseMany_ok (P := fun i : TxOut => i.Built ∧ i.outputScript.length < 252) (k := 9) (m := 8) (fun b x hx => by
    obtain ⟨a1, a2, a3, a4⟩ := TxOut.fromBytes_ok hx; exact ⟨⟨a1, a4⟩, a3, by omega⟩) b _ _ _ _ houts
  have w : (∀ w ∈ ws, InputWitness.Built w) ∧ cur'' = cur' + (ws.map fun w => w.bytes.length).sum := by
    generalize (if slice b 4 6 = E.net.segwitTxFlag then some E.net.segwitTxFlag else none : Option Bytes) = fl at hws
    split at hws
    · obtain ⟨w1, w2, w3, -⟩ := parseMany_ok (P := InputWitness.Built) (k := 1) (m := 1) (fun b x hx => by
        obtain ⟨a1, a2, a3⟩ := InputWitness.fromBytes_ok hx; exact ⟨a1, a3, a2⟩) b _ _ _ _ hws
      exact ⟨fun x hx => (w2 x hx).1, w3⟩
    · cases hws; simp
  have hB : t.Built E := ⟨_, _, ins, outs, some ws, _, fun i hi => (i2 i hi).1.1, fun i hi => (o2 i hi).1.1, by simpa using w.1, h⟩
  have hm := h
  rw [Tx.make_iff] at h
  obtain ⟨⟨a1, a2, a3, a4, a5, a6, a7, a8⟩, rfl⟩ := h
  refine ⟨hB, ?_, fun i hi => (i2 i hi).1.2, fun i hi => (o2 i hi).1.2, by simp [txObj]⟩
  have flat : ∀ {α : Type} (f : α → Bytes) (l : List α), ((l.map f).flatten).length = (l.map fun x => (f x).length).sum := by
    intro α f l
    induction l with
    | nil => rfl
    | cons x l ih => simp [ih]
  simp only [txObj, txBytes, vector, List.length_append, flat, List.length_map, Option.getD_some]
  rw [i1, o1]
  have fl : ((if slice b 4 6 = E.net.segwitTxFlag then some E.net.segwitTxFlag else none : Option Bytes).getD []).length + 4 =
      (if slice b 4 6 = E.net.segwitTxFlag then 6 else 4) := by
    rw [segwitFlag_eq hn]; split <;> simp
  have hw := w.2
  simp only [slice_length] at *
  omega

end Verif
