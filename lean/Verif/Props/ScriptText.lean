import Verif.Spec.ScriptText
import Verif.Props.Script

/-! Property C112: what the text of scripts means, in both directions. -/

namespace Verif.Props
open Verif Spec

/-! ## The tables -/

theorem lookup_iff {l : List (PyStr × UInt8)} (hn : (l.map Prod.fst).Nodup) (w : PyStr) (b : UInt8) : l.lookup w = some b ↔ (w, b) ∈ l := by
  induction l with
  | nil => simp
  | cons p l ih =>
    obtain ⟨k, v⟩ := p
    simp only [List.map_cons, List.nodup_cons] at hn
    by_cases h : w = k
    · subst h
      simp only [List.lookup_cons, BEq.rfl, List.mem_cons, Prod.mk.injEq, true_and]
      constructor
      · intro e; cases e; exact .inl rfl
      · rintro (rfl | e)
        · rfl
        · exact absurd (List.mem_map_of_mem (f := Prod.fst) e) hn.1
    · rw [List.lookup_cons]
      have : (w == k) = false := by simpa using h
      simp only [this, List.mem_cons, Prod.mk.injEq, h, false_and, false_or]
      exact ih hn.2

theorem opcodeList_nodup : (opcodeList.reverse.map Prod.fst).Nodup := by decide +kernel

theorem codeToInt_iff (w : PyStr) (b : UInt8) : codeToInt w = some b ↔ (w, b) ∈ opcodeList := by
  unfold codeToInt
  rw [lookup_iff opcodeList_nodup]; simp

theorem table_named : ∀ p ∈ opcodeList, IsOpName false p.1 p.2 := by decide +kernel

theorem named_table : ∀ n < 256, (match opcodeName false (UInt8.ofNat n) with
    | some w => decide ((w, UInt8.ofNat n) ∈ opcodeList)
    | none => true) = true := by decide +kernel

theorem push_table : ∀ n < 76, 1 ≤ n → (pystr "OP_PUSH_" ++ Nat.toDigits 10 n, UInt8.ofNat n) ∈ opcodeList := by decide +kernel

theorem codeToInt_name (w : PyStr) (b : UInt8) : codeToInt w = some b ↔ IsOpName false w b := by
  rw [codeToInt_iff]
  constructor
  · intro h; exact table_named _ h
  · rintro (h | ⟨rfl, rfl⟩ | ⟨rfl, rfl⟩ | ⟨h1, h2, rfl⟩)
    · have := named_table b.toNat b.toNat_lt
      rw [show UInt8.ofNat b.toNat = b by simp, h] at this
      exact of_decide_eq_true this
    · decide +kernel
    · decide +kernel
    · have := push_table b.toNat (by omega) h1
      rwa [show UInt8.ofNat b.toNat = b by simp] at this

/-- On Decred, two names are overwritten. -/
theorem name_decred (w : PyStr) (b : UInt8) : IsOpName true w b ↔ (w = pystr "OP_BLAKE256" ∧ b = 168) ∨ (w = pystr "OP_SHA256" ∧ b = 192) ∨
    (w ≠ pystr "OP_BLAKE256" ∧ w ≠ pystr "OP_SHA256" ∧ IsOpName false w b) := by
  have key : ∀ n < 256, opcodeName true (UInt8.ofNat n) = if n = 168 then some (pystr "OP_BLAKE256") else if n = 192 then some (pystr "OP_SHA256")
      else opcodeName false (UInt8.ofNat n) := by decide +kernel
  have key2 : ∀ n < 256, n ≠ 168 → opcodeName false (UInt8.ofNat n) ≠ some (pystr "OP_BLAKE256") ∧ opcodeName false (UInt8.ofNat n) ≠ some (pystr "OP_SHA256") := by
    decide +kernel
  have key3 : opcodeName false 168 = some (pystr "OP_SHA256") ∧ opcodeName false 192 = none := by decide +kernel
  have pushNe : ∀ n < 76, pystr "OP_PUSH_" ++ Nat.toDigits 10 n ≠ pystr "OP_BLAKE256" ∧ pystr "OP_PUSH_" ++ Nat.toDigits 10 n ≠ pystr "OP_SHA256" := by
    decide +kernel
  have kb := key b.toNat b.toNat_lt
  have kb2 := key2 b.toNat b.toNat_lt
  rw [show UInt8.ofNat b.toNat = b by simp] at kb kb2
  unfold IsOpName
  constructor
  · rintro (h | ⟨rfl, rfl⟩ | ⟨rfl, rfl⟩ | ⟨h1, h2, rfl⟩)
    · rw [kb] at h
      split at h
      · next e => cases h; exact .inl ⟨rfl, UInt8.toNat_inj.1 e⟩
      split at h
      · next e => cases h; exact .inr (.inl ⟨rfl, UInt8.toNat_inj.1 e⟩)
      next h168 _ =>
      obtain ⟨g1, g2⟩ := kb2 h168
      exact .inr (.inr ⟨fun e => g1 (by rw [h, e]), fun e => g2 (by rw [h, e]), .inl h⟩)
    · exact .inr (.inr ⟨by decide, by decide, .inr (.inl ⟨rfl, rfl⟩)⟩)
    · exact .inr (.inr ⟨by decide, by decide, .inr (.inr (.inl ⟨rfl, rfl⟩))⟩)
    · exact .inr (.inr ⟨(pushNe _ (by omega)).1, (pushNe _ (by omega)).2, .inr (.inr (.inr ⟨h1, h2, rfl⟩))⟩)
  · rintro (⟨rfl, rfl⟩ | ⟨rfl, rfl⟩ | ⟨n1, n2, h | h⟩)
    · exact .inl (by decide +kernel)
    · exact .inl (by decide +kernel)
    · left
      rw [kb]
      rw [if_neg, if_neg]
      · exact h
      · intro e
        have : b = 192 := UInt8.toNat_inj.1 e
        rw [this, key3.2] at h; cases h
      · intro e
        have : b = 168 := UInt8.toNat_inj.1 e
        rw [this, key3.1] at h; cases h; exact n2 rfl
    · exact .inr h

/-- What `serialize` finds for a word, over both tables. -/
theorem name_lookup {net : Network} (hn : net.Supported) (w : PyStr) (b : UInt8) :
    (net.codeToIntOverwrite w = some b ∨ net.codeToIntOverwrite w = none ∧ codeToInt w = some b) ↔ IsOpName net.isDecred w b := by
  unfold Network.codeToIntOverwrite
  rcases changes_cases net hn with ⟨h, h'⟩ | ⟨h, h'⟩
  · rw [h, h']; simp [codeToInt_name]
  · rw [h, h', name_decred]
    have e : decredChanges.reverse.lookup w = if w = pystr "OP_SHA256" then some 192 else if w = pystr "OP_BLAKE256" then some 168 else none := by
      unfold decredChanges
      simp only [List.reverse_cons, List.reverse_nil, List.nil_append, List.cons_append, List.lookup_cons, List.lookup_nil]
      by_cases h1 : w = pystr "OP_SHA256"
      · simp [h1]
      · rw [if_neg h1]
        have : (w == pystr "OP_SHA256") = false := by simpa using h1
        rw [this]
        by_cases h2 : w = pystr "OP_BLAKE256"
        · simp [h2]
        · have : (w == pystr "OP_BLAKE256") = false := by simpa using h2
          rw [this, if_neg h2]
    rw [e]
    by_cases h1 : w = pystr "OP_SHA256"
    · subst h1
      rw [if_pos rfl]
      constructor
      · rintro (e | ⟨e, -⟩)
        · cases e; exact .inr (.inl ⟨rfl, rfl⟩)
        · cases e
      · rintro (⟨e, -⟩ | ⟨-, rfl⟩ | ⟨-, e, -⟩)
        · exact absurd e (by decide)
        · exact .inl rfl
        · exact absurd rfl e
    · rw [if_neg h1]
      by_cases h2 : w = pystr "OP_BLAKE256"
      · subst h2
        rw [if_pos rfl]
        constructor
        · rintro (e | ⟨e, -⟩)
          · cases e; exact .inl ⟨rfl, rfl⟩
          · cases e
        · rintro (⟨-, rfl⟩ | ⟨e, -⟩ | ⟨e, -, -⟩)
          · exact .inl rfl
          · exact absurd e h1
          · exact absurd rfl e
      · rw [if_neg h2, codeToInt_name]
        constructor
        · rintro (e | ⟨-, e⟩)
          · cases e
          · exact .inr (.inr ⟨h2, h1, e⟩)
        · rintro (⟨e, -⟩ | ⟨e, -⟩ | ⟨-, -, e⟩)
          · exact absurd e h2
          · exact absurd e h1
          · exact .inr ⟨rfl, e⟩

/-! ## Hexadecimal -/

theorem hexVal_iff (c : Char) (n : Nat) : hexVal c = some n ↔ IsHexDigit c n := by
  constructor
  · intro h
    have key : ∀ k < 128, ∀ n, hexVal (Char.ofNat k) = some n → IsHexDigit (Char.ofNat k) n := by
      intro k hk n h
      have : ∀ k < 128, (match hexVal (Char.ofNat k) with
        | some n => decide ((pystr "0123456789abcdef")[n]? = some (Char.ofNat k) ∨ (pystr "0123456789ABCDEF")[n]? = some (Char.ofNat k))
        | none => true) = true := by decide +kernel
      have := this k hk
      rw [h] at this
      unfold IsHexDigit
      exact of_decide_eq_true this
    have hc : c.toNat < 128 := by
      unfold hexVal at h
      split at h; · omega
      split at h; · omega
      split at h; · omega
      cases h
    have := key c.toNat hc n
    rw [Char.ofNat_toNat] at this
    exact this h
  · intro h
    have l1 : ∀ n < 16, ∀ c, (pystr "0123456789abcdef")[n]? = some c → hexVal c = some n := by
      intro n hn c
      have : ∀ n < 16, ((pystr "0123456789abcdef")[n]?).bind hexVal = some n := by decide
      intro h; have := this n hn; rwa [h] at this
    have l2 : ∀ n < 16, ∀ c, (pystr "0123456789ABCDEF")[n]? = some c → hexVal c = some n := by
      intro n hn c
      have : ∀ n < 16, ((pystr "0123456789ABCDEF")[n]?).bind hexVal = some n := by decide
      intro h; have := this n hn; rwa [h] at this
    rcases h with h | h
    · exact l1 n (List.getElem?_eq_some_iff.1 h).1 c h
    · exact l2 n (List.getElem?_eq_some_iff.1 h).1 c h

theorem white_iff (c : Char) : White c ↔ isPySpace c = true := by
  unfold White isPySpace
  simp only [Bool.or_eq_true, Bool.and_eq_true, decide_eq_true_eq, beq_iff_eq, List.mem_cons, List.not_mem_nil, or_false]
  omega

theorem asciiSpace_white {c : Char} (h : isAsciiSpace c = true) : White c := by
  rw [white_iff]
  unfold isAsciiSpace at h
  unfold isPySpace
  simp at h ⊢
  omega

theorem fromHex_iff {w : PyStr} (hw : ∀ c ∈ w, ¬ White c) (d : Bytes) : fromHex w = .ok d ↔ HexText w d := by
  have main : ∀ (k : Nat) (w : PyStr), w.length ≤ k → (∀ c ∈ w, ¬ White c) → ∀ d, fromHex w = .ok d ↔ HexText w d := by
    intro k
    induction k with
    | zero =>
      intro w hk _ d
      have : w = [] := by simpa using hk
      subst this
      constructor
      · intro h; simp [fromHex] at h; subst h; exact .nil
      · intro h; cases h; simp [fromHex]
    | succ k ih =>
      intro w hk hw d
      cases w with
      | nil =>
        constructor
        · intro h; simp [fromHex] at h; subst h; exact .nil
        · intro h; cases h; simp [fromHex]
      | cons c cs =>
        have hc : isAsciiSpace c = false := by
          cases h : isAsciiSpace c with
          | false => rfl
          | true => exact absurd (asciiSpace_white h) (hw c (by simp))
        rw [fromHex.eq_def]
        simp only [hc, Bool.false_eq_true, if_false]
        cases cs with
        | nil =>
          simp only
          constructor
          · intro h; cases h
          · intro h; cases h
        | cons c' cs =>
          have ih' := ih cs (by simp at hk; omega) (fun x hx => hw x (by simp [hx]))
          simp only
          constructor
          · intro h
            split at h
            · next a b ha hb =>
              cases hr : fromHex cs with
              | error e => rw [hr] at h; cases h
              | ok r =>
                rw [hr] at h
                cases h
                exact .cons ((hexVal_iff _ _).1 ha) ((hexVal_iff _ _).1 hb) ((ih' r).1 hr)
            · cases h
          · intro h
            cases h with
            | cons h1 h2 h3 =>
              rw [(hexVal_iff _ _).2 h1, (hexVal_iff _ _).2 h2, (ih' _).2 h3]
  exact main w.length w (Nat.le_refl _) hw d

theorem fromHex_error {w : PyStr} {e : PyErr} (h : fromHex w = .error e) : e = .valueError := by
  have main : ∀ (k : Nat) (w : PyStr), w.length ≤ k → fromHex w = .error e → e = .valueError := by
    intro k
    induction k with
    | zero =>
      intro w hk h
      have : w = [] := by simpa using hk
      subst this; simp [fromHex] at h
    | succ k ih =>
      intro w hk h
      rw [fromHex.eq_def] at h
      cases w with
      | nil => cases h
      | cons c cs =>
        simp only at h
        split at h
        · exact ih cs (by simpa using hk) h
        cases cs with
        | nil => cases h; rfl
        | cons c' cs =>
          simp only at h
          split at h
          · cases hr : fromHex cs with
            | error e' => rw [hr] at h; cases h; exact ih cs (by simp at hk; omega) hr
            | ok r => rw [hr] at h; cases h
          · cases h; rfl
  exact main w.length w (Nat.le_refl _) h

theorem lowerHex_eq (d : Bytes) : lowerHex d = toHex d := by
  unfold lowerHex
  have key : ∀ n < 16, (pystr "0123456789abcdef").getD n '?' = hexDigit n := by decide
  induction d with
  | nil => rfl
  | cons x d ih =>
    have := x.toNat_lt
    rw [List.flatMap_cons, ih, toHex, key _ (by omega), key _ (by omega)]; rfl

theorem hexText_head {w : PyStr} {d : Bytes} (h : HexText w d) : w.head? ≠ some 'O' := by
  cases h with
  | nil => simp
  | cons h1 _ _ =>
    intro e
    simp only [List.head?_cons, Option.some.injEq] at e
    rw [← hexVal_iff, e] at h1
    exact absurd h1 (by simp [hexVal])

theorem opName_head {decred : Bool} {w : PyStr} {b : UInt8} (h : IsOpName decred w b) : w.head? = some 'O' := by
  have key : ∀ d : Bool, ∀ n < 256, (match opcodeName d (UInt8.ofNat n) with
    | some w => decide (w.head? = some 'O')
    | none => true) = true := by decide +kernel
  rcases h with h | ⟨-, rfl⟩ | ⟨-, rfl⟩ | ⟨-, -, rfl⟩
  · have := key decred b.toNat b.toNat_lt
    rw [show UInt8.ofNat b.toNat = b by simp, h] at this
    exact of_decide_eq_true this
  · rfl
  · rfl
  · rfl

/-! ## Words to bytes -/

theorem unsupported_iff {net : Network} (w : PyStr) :
    (w = pystr "OP_CODESEPARATOR" ∨ w = pystr "OP_PUSHDATA4") ↔ ∃ b, IsOpName net.isDecred w b ∧ (b = 0xab ∨ b = 0x4e) := by
  have key : ∀ d : Bool, opcodeName d 0xab = some (pystr "OP_CODESEPARATOR") ∧ opcodeName d 0x4e = some (pystr "OP_PUSHDATA4") := by decide +kernel
  obtain ⟨k1, k2⟩ := key net.isDecred
  constructor
  · rintro (rfl | rfl)
    · exact ⟨0xab, .inl k1, .inl rfl⟩
    · exact ⟨0x4e, .inl k2, .inr rfl⟩
  · rintro ⟨b, h, hb⟩
    rcases h with h | ⟨e, -⟩ | ⟨e, -⟩ | ⟨-, h2, -⟩
    · rcases hb with rfl | rfl
      · rw [k1] at h; cases h; exact .inl rfl
      · rw [k2] at h; cases h; exact .inr rfl
    · subst e; exact absurd hb (by decide)
    · subst e; exact absurd hb (by decide)
    · rcases hb with rfl | rfl
      · exact absurd h2 (by decide)
      · exact absurd h2 (by decide)

theorem name_unique {net : Network} (hn : net.Supported) {w : PyStr} {b b' : UInt8} (h : IsOpName net.isDecred w b) (h' : IsOpName net.isDecred w b') :
    b = b' := by
  rw [← name_lookup hn] at h h'
  rcases h with h | ⟨h0, h⟩ <;> rcases h' with h' | ⟨h0', h'⟩
  · rw [h] at h'; cases h'; rfl
  · rw [h] at h0'; cases h0'
  · rw [h0] at h'; cases h'
  · rw [h] at h'; cases h'; rfl

/-- What happens to one word. -/
theorem token_cases {net : Network} (hn : net.Supported) {w : PyStr} (hw : IsWord w) :
    (∃ x, WordMeans net.isDecred w x ∧ serializeToken net w = .ok x) ∨ (∃ e, WordRefused net.isDecred w e ∧ serializeToken net w = .error e) := by
  unfold serializeToken
  by_cases hu : w = pystr "OP_CODESEPARATOR" ∨ w = pystr "OP_PUSHDATA4"
  · obtain ⟨b, h1, h2⟩ := (unsupported_iff (net := net) w).1 hu
    right
    exact ⟨_, .unsupported h1 h2, if_pos hu⟩
  rw [if_neg hu]
  by_cases hname : ∃ b, IsOpName net.isDecred w b
  · obtain ⟨b, hb⟩ := hname
    left
    refine ⟨[b], .op hb (fun e => hu ((unsupported_iff w).2 ⟨b, hb, .inl e⟩)) (fun e => hu ((unsupported_iff w).2 ⟨b, hb, .inr e⟩)), ?_⟩
    rcases (name_lookup hn w b).2 hb with h | ⟨h0, h⟩
    · rw [h]
    · rw [h0, h]
  · have hno : ∀ b, ¬ IsOpName net.isDecred w b := fun b hb => hname ⟨b, hb⟩
    have h0 : net.codeToIntOverwrite w = none := by
      cases h : net.codeToIntOverwrite w with
      | none => rfl
      | some b => exact absurd ((name_lookup hn w b).1 (.inl h)) (hno b)
    have h1 : codeToInt w = none := by
      cases h : codeToInt w with
      | none => rfl
      | some b => exact absurd ((name_lookup hn w b).1 (.inr ⟨h0, h⟩)) (hno b)
    rw [h0, h1]
    simp only
    cases hx : fromHex w with
    | error e =>
      right
      obtain rfl := fromHex_error hx
      refine ⟨_, .unknown hno (fun d hd => ?_), by unfold serializeData; rw [hx]; rfl⟩
      rw [← fromHex_iff hw.2, hx] at hd; cases hd
    | ok d =>
      have hd := (fromHex_iff hw.2 d).1 hx
      have hl : d.length ≠ 0 := by
        intro e
        obtain rfl : d = [] := by simpa using e
        cases hd; exact hw.1 rfl
      rw [serializeData_toHex hx, if_neg hl]
      by_cases hk : d.length ≤ 1000
      · rw [if_pos hk]; exact .inl ⟨_, .data hd hk, rfl⟩
      · rw [if_neg hk]; exact .inr ⟨_, .long hd (by omega), rfl⟩

theorem token_ok {net : Network} (hn : net.Supported) {w : PyStr} (hw : IsWord w) (x : Bytes) :
    serializeToken net w = .ok x ↔ WordMeans net.isDecred w x := by
  constructor
  · intro h
    rcases token_cases hn hw with ⟨y, h1, h2⟩ | ⟨e, -, h2⟩
    · rw [h] at h2; cases h2; exact h1
    · rw [h] at h2; cases h2
  · intro h
    have hex : ∀ {d d' : Bytes}, HexText w d → HexText w d' → d = d' := by
      intro d d' h1 h2
      rw [← fromHex_iff hw.2] at h1 h2
      rw [h1] at h2; cases h2; rfl
    rcases token_cases hn hw with ⟨y, h1, h2⟩ | ⟨e, h1, h2⟩
    · rw [h2]
      congr 1
      cases h with
      | op a1 _ _ =>
        cases h1 with
        | op b1 _ _ => rw [name_unique hn a1 b1]
        | data b1 _ => exact absurd (opName_head a1) (hexText_head b1)
      | data a1 _ =>
        cases h1 with
        | op b1 _ _ => exact absurd (opName_head b1) (hexText_head a1)
        | data b1 _ => rw [hex a1 b1]
    · exfalso
      cases h with
      | op a1 a2 a3 =>
        cases h1 with
        | unsupported b1 b2 =>
          rw [name_unique hn a1 b1] at a2 a3
          exact b2.elim a2 a3
        | long b1 _ => exact absurd (opName_head a1) (hexText_head b1)
        | unknown b1 _ => exact b1 _ a1
      | data a1 a2 =>
        cases h1 with
        | unsupported b1 b2 => exact absurd (opName_head b1) (hexText_head a1)
        | long b1 b2 => rw [hex b1 a1] at b2; omega
        | unknown _ b1 => exact b1 _ a1

theorem token_error {net : Network} (hn : net.Supported) {w : PyStr} (hw : IsWord w) (e : PyErr) :
    serializeToken net w = .error e ↔ WordRefused net.isDecred w e := by
  constructor
  · intro h
    rcases token_cases hn hw with ⟨y, h1, h2⟩ | ⟨e, h1, h2⟩
    · rw [h] at h2; cases h2
    · rw [h] at h2; cases h2; exact h1
  · intro h
    rcases token_cases hn hw with ⟨y, h1, h2⟩ | ⟨e', h1, h2⟩
    · exfalso
      have hex : ∀ {d d' : Bytes}, HexText w d → HexText w d' → d = d' := by
        intro d d' h1 h2
        rw [← fromHex_iff hw.2] at h1 h2
        rw [h1] at h2; cases h2; rfl
      cases h1 with
      | op a1 a2 a3 =>
        cases h with
        | unsupported b1 b2 =>
          rw [name_unique hn a1 b1] at a2 a3
          exact b2.elim a2 a3
        | long b1 _ => exact absurd (opName_head a1) (hexText_head b1)
        | unknown b1 _ => exact b1 _ a1
      | data a1 a2 =>
        cases h with
        | unsupported b1 b2 => exact absurd (opName_head b1) (hexText_head a1)
        | long b1 b2 => rw [hex b1 a1] at b2; omega
        | unknown _ b1 => exact b1 _ a1
    · rw [h2]
      congr 1
      cases h with
      | unsupported a1 a2 =>
        cases h1 with
        | unsupported => rfl
        | long => rfl
        | unknown b1 _ => exact absurd a1 (b1 _)
      | long a1 a2 =>
        cases h1 with
        | unsupported => rfl
        | long => rfl
        | unknown _ b1 => exact absurd a1 (b1 _)
      | unknown a1 a2 =>
        cases h1 with
        | unsupported b1 _ => exact absurd b1 (a1 _)
        | long b1 _ => exact absurd b1 (a2 _)
        | unknown => rfl

theorem tokens_ok {net : Network} (hn : net.Supported) {ws : List PyStr} (hw : ∀ w ∈ ws, IsWord w) (b : Bytes) :
    serializeTokens net ws = .ok b ↔ ∃ xs, List.Forall₂ (WordMeans net.isDecred) ws xs ∧ b = xs.flatten := by
  induction ws generalizing b with
  | nil =>
    unfold serializeTokens
    constructor
    · intro h; cases h; exact ⟨[], .nil, rfl⟩
    · rintro ⟨xs, h, rfl⟩; cases h; rfl
  | cons w ws ih =>
    unfold serializeTokens
    have ih' := ih (fun x hx => hw x (by simp [hx]))
    rw [bind_ok_iff]
    constructor
    · rintro ⟨x, h1, h2⟩
      obtain ⟨y, h5, h3⟩ := bind_ok_iff.1 h2
      cases h3
      obtain ⟨xs, h4, rfl⟩ := (ih' y).1 h5
      exact ⟨x :: xs, .cons ((token_ok hn (hw w (by simp)) x).1 h1) h4, rfl⟩
    · rintro ⟨xs, h, rfl⟩
      cases h with
      | cons h1 h2 => exact ⟨_, (token_ok hn (hw w (by simp)) _).2 h1, by rw [(ih' _).2 ⟨_, h2, rfl⟩]; rfl⟩

theorem tokens_error {net : Network} (hn : net.Supported) {ws : List PyStr} (hw : ∀ w ∈ ws, IsWord w) (e : PyErr) :
    serializeTokens net ws = .error e ↔
      ∃ pre w post xs, ws = pre ++ w :: post ∧ List.Forall₂ (WordMeans net.isDecred) pre xs ∧ WordRefused net.isDecred w e := by
  induction ws with
  | nil =>
    unfold serializeTokens
    constructor
    · intro h; cases h
    · rintro ⟨pre, w, post, xs, h, -⟩; simp at h
  | cons w ws ih =>
    unfold serializeTokens
    have ih' := ih (fun x hx => hw x (by simp [hx]))
    constructor
    · intro h
      cases h1 : serializeToken net w with
      | error e' =>
        rw [h1] at h; cases h
        exact ⟨[], w, ws, [], rfl, .nil, (token_error hn (hw w (by simp)) _).1 h1⟩
      | ok x =>
        rw [h1, ok_bind] at h
        cases h2 : serializeTokens net ws with
        | error e' =>
          rw [h2] at h; cases h
          obtain ⟨pre, v, post, xs, rfl, g1, g2⟩ := ih'.1 h2
          exact ⟨w :: pre, v, post, x :: xs, rfl, .cons ((token_ok hn (hw w (by simp)) x).1 h1) g1, g2⟩
        | ok y => rw [h2] at h; cases h
    · rintro ⟨pre, v, post, xs, h, g1, g2⟩
      cases pre with
      | nil =>
        simp only [List.nil_append, List.cons.injEq] at h
        obtain ⟨rfl, rfl⟩ := h
        rw [(token_error hn (hw w (by simp)) e).2 g2]; rfl
      | cons u pre =>
        simp only [List.cons_append, List.cons.injEq] at h
        obtain ⟨rfl, h⟩ := h
        cases g1 with
        | cons g3 g4 => rw [(token_ok hn (hw w (by simp)) _).2 g3, ok_bind, ih'.2 ⟨pre, v, post, _, h, g4, g2⟩]; rfl

/-! ## Texts -/

theorem wordsOf_split {ws : List PyStr} {s : PyStr} (h : WordsOf ws s) : pySplit s = ws ∧ ∀ w ∈ ws, IsWord w := by
  have hl : Layout ws s ∧ ∀ w ∈ ws, IsWord w := by
    have cv : ∀ {w : PyStr}, (∀ c ∈ w, White c) → ∀ c ∈ w, isPySpace c = true := fun h c hc => (white_iff c).1 (h c hc)
    induction h with
    | blank w h => exact ⟨.blank w (cv h), by simp⟩
    | last w t w' h1 h2 h3 => exact ⟨.last w t w' (cv h1) (cv h3), by simpa using h2⟩
    | cons w t c ts s h1 h2 h3 _ ih =>
      refine ⟨.cons w t c ts s (cv h1) ((white_iff c).1 h3) ih.1, ?_⟩
      intro x hx
      rcases List.mem_cons.1 hx with rfl | hx
      · exact h2
      · exact ih.2 x hx
  refine ⟨pySplit_layout hl.1 (fun t ht => (hl.2 t ht).1) (fun t ht c hc => ?_), hl.2⟩
  have := (hl.2 t ht).2 c hc
  rw [white_iff] at this
  simpa using this

theorem wordsOf_white {ws : List PyStr} {s : PyStr} (h : WordsOf ws s) {c : Char} (hc : White c) : WordsOf ws (c :: s) := by
  have cv : ∀ {w : PyStr}, (∀ c ∈ w, White c) → ∀ x ∈ c :: w, White x := by
    intro w h x hx
    rcases List.mem_cons.1 hx with rfl | hx
    · exact hc
    · exact h x hx
  cases h with
  | blank w h => exact .blank _ (cv h)
  | last w t w' h1 h2 h3 => exact .last (c :: w) t w' (cv h1) h2 h3
  | cons w t d ts s h1 h2 h3 h4 => exact .cons (c :: w) t d ts s (cv h1) h2 h3 h4

theorem wordsOf_exists (s : PyStr) : WordsOf (pySplit s) s := by
  have main : ∀ (s cur : PyStr), (∀ c ∈ cur, ¬ White c) → WordsOf (splitAux cur s) (cur.reverse ++ s) := by
    intro s
    induction s with
    | nil =>
      intro cur hc
      unfold splitAux
      cases cur with
      | nil => exact .blank [] (by simp)
      | cons x cur =>
        have := WordsOf.last [] (x :: cur).reverse [] (by simp) ⟨by simp, fun c h => hc c (List.mem_reverse.1 h)⟩ (by simp)
        simpa using this
    | cons c s ih =>
      intro cur hc
      unfold splitAux
      by_cases h : isPySpace c = true
      · rw [if_pos h]
        have hwc := (white_iff c).2 h
        cases cur with
        | nil => exact wordsOf_white (ih [] (by simp)) hwc
        | cons x cur =>
          have := WordsOf.cons [] (x :: cur).reverse c _ s (by simp) ⟨by simp, fun d h => hc d (List.mem_reverse.1 h)⟩ hwc (ih [] (by simp))
          simpa using this
      · rw [if_neg h]
        have := ih (c :: cur) (by
          intro d hd
          rcases List.mem_cons.1 hd with rfl | hd
          · rwa [white_iff]
          · exact hc d hd)
        simpa using this
  exact main s [] (by simp)

/-- C112: `serialize` returns bytes exactly if every word of the text stands for some, and returns them in order. -/
theorem C112_serialize (net : Network) (hn : net.Supported) (s : PyStr) (b : Bytes) :
    serialize net s = .ok b ↔ ∃ ws xs, WordsOf ws s ∧ List.Forall₂ (WordMeans net.isDecred) ws xs ∧ b = xs.flatten := by
  unfold serialize
  have hs := wordsOf_exists s
  rw [tokens_ok hn (wordsOf_split hs).2]
  constructor
  · rintro ⟨xs, h1, h2⟩; exact ⟨_, xs, hs, h1, h2⟩
  · rintro ⟨ws, xs, h, h1, h2⟩; rw [(wordsOf_split h).1]; exact ⟨xs, h1, h2⟩

example : WordsOf [pystr "OP_DUP", pystr "Ab01"] (pystr " OP_DUP\tAb01 ") ∧ WordMeans false (pystr "OP_DUP") [0x76] ∧ WordMeans false (pystr "Ab01") [2, 0xab, 1] := by
  refine ⟨wordsOf_exists (pystr " OP_DUP\tAb01 "), .op (.inl (by decide +kernel)) (by decide) (by decide), ?_⟩
  have := WordMeans.data (decred := false) (w := pystr "Ab01") (d := [0xab, 1])
    (.cons (n := 10) (n' := 11) (.inr (by decide)) (.inl (by decide)) (.cons (n := 0) (n' := 1) (.inl (by decide)) (.inl (by decide)) .nil)) (by decide)
  exact this

/-- C112: `serialize` raises exactly if some word is refused, and raises what the first such word asks for: NotImplementedError for OP_CODESEPARATOR,
OP_PUSHDATA4 and more than 1000 bytes, ValueError for a word that is neither a name nor hexadecimal. -/
theorem C112_serialize_error (net : Network) (hn : net.Supported) (s : PyStr) (e : PyErr) :
    serialize net s = .error e ↔ ∃ ws pre w post xs, WordsOf ws s ∧ ws = pre ++ w :: post ∧ List.Forall₂ (WordMeans net.isDecred) pre xs ∧
      WordRefused net.isDecred w e := by
  unfold serialize
  have hs := wordsOf_exists s
  rw [tokens_error hn (wordsOf_split hs).2]
  constructor
  · rintro ⟨pre, w, post, xs, h1, h2, h3⟩; exact ⟨_, pre, w, post, xs, hs, h1, h2, h3⟩
  · rintro ⟨ws, pre, w, post, xs, h, h1, h2⟩; rw [(wordsOf_split h).1]; exact ⟨pre, w, post, xs, h1, h2⟩

example : WordRefused false (pystr "OP_BLAKE256") .valueError := by
  refine (token_error btc_supported ⟨by decide, ?_⟩ _).1 (by decide +kernel)
  intro c hc h
  rw [white_iff] at h
  revert c; decide

/-! ## Bytes to words -/

theorem opName_iff {net : Network} (hn : net.Supported) (b : UInt8) (hb : b = 0 ∨ 79 ≤ b.toNat) :
    opName net b = match opcodeName net.isDecred b with
      | some t => .ok t
      | none => .error .valueError := by
  have k1 : ∀ n < 256, n = 0 ∨ 79 ≤ n → opName bitcoinMain (UInt8.ofNat n) = match opcodeName false (UInt8.ofNat n) with
      | some t => .ok t
      | none => .error .valueError := by decide +kernel
  have k2 : ∀ n < 256, n = 0 ∨ 79 ≤ n → opName decredMain (UInt8.ofNat n) = match opcodeName true (UInt8.ofNat n) with
      | some t => .ok t
      | none => .error .valueError := by decide +kernel
  have hb' : b.toNat = 0 ∨ 79 ≤ b.toNat := hb.imp (fun h => by rw [h]; rfl) id
  rcases changes_cases net hn with ⟨h, h'⟩ | ⟨h, h'⟩
  · have := k1 b.toNat b.toNat_lt hb'
    rw [show UInt8.ofNat b.toNat = b by simp] at this
    rw [opName_congr (m := bitcoinMain) h, h', this]
  · have := k2 b.toNat b.toNat_lt hb'
    rw [show UInt8.ofNat b.toNat = b by simp] at this
    rw [opName_congr (m := decredMain) h, h', this]

theorem words_complete {decred : Bool} {b : Bytes} {ws : List PyStr} (h : ScriptWords decred b ws) : PushesComplete b := by
  induction h with
  | nil => exact .nil
  | direct n d rest ws h1 h2 h3 _ ih => exact .direct n d rest h1 h2 h3 ih
  | pushdata1 l d rest ws h3 _ ih => exact .pushdata1 l d rest h3 ih
  | pushdata2 lo hi d rest ws h3 _ ih => exact .pushdata2 lo hi d rest h3 ih
  | op b t rest ws h1 _ _ _ ih => exact .op b rest h1 ih

theorem tokens_direct (net : Network) {n : Nat} (h1 : 1 ≤ n) (h2 : n ≤ 75) (r : Bytes) : deserializeTokens net (UInt8.ofNat n :: r) =
    (if r.length < n then .error .indexError
      else do
        let ts ← deserializeTokens net (r.drop n)
        .ok (toHex (r.take n) :: ts)) := by
  have hto : (UInt8.ofNat n).toNat = n := by simp; omega
  have hne : UInt8.ofNat n ≠ 0 := by
    intro h; have : n = 0 := by rw [← hto, h]; rfl
    omega
  have hab : UInt8.ofNat n ≠ 0xab := by
    intro h; have : n = 171 := by rw [← hto, h]; rfl
    omega
  rw [deserializeTokens_cons, if_neg hab, if_pos ⟨by rw [hto]; exact h2, hne⟩, hto]

theorem tokens_pd1 (net : Network) (l : UInt8) (r : Bytes) : deserializeTokens net (0x4c :: l :: r) = (do
        let ts ← deserializeTokens net (r.drop l.toNat)
        .ok (toHex (r.take l.toNat) :: ts)) := by
  rw [deserializeTokens_cons, if_neg (by decide), if_neg (by decide), if_pos (by decide)]

theorem tokens_pd2 (net : Network) (r : Bytes) : deserializeTokens net (0x4d :: r) = (do
      let ts ← deserializeTokens net (r.drop (2 + leToNat (r.take 2)))
      .ok (toHex (slice r 2 (2 + leToNat (r.take 2))) :: ts)) := by
  rw [deserializeTokens_cons, if_neg (by decide), if_neg (by decide), if_neg (by decide), if_pos (by decide)]

theorem tokens_opcode {net : Network} (hn : net.Supported) (b : UInt8) (hb : b = 0 ∨ 79 ≤ b.toNat) (hab : b ≠ 0xab) (r : Bytes) :
    deserializeTokens net (b :: r) = match opcodeName net.isDecred b with
      | some t => (do
        let ts ← deserializeTokens net r
        .ok (t :: ts))
      | none => .error .valueError := by
  have hnp : ¬ (b.toNat ≤ 75 ∧ b ≠ 0) := by
    rintro ⟨h1, h2⟩; rcases hb with h | h
    · exact h2 h
    · omega
  have h76 : b ≠ 76 := by rintro rfl; revert hb; decide
  have h77 : b ≠ 77 := by rintro rfl; revert hb; decide
  have h78 : b ≠ 78 := by rintro rfl; revert hb; decide
  rw [deserializeTokens_cons, if_neg hab, if_neg hnp, if_neg h76, if_neg h77, if_neg h78, opName_iff hn b hb]
  cases opcodeName net.isDecred b <;> rfl

theorem words_tokens {net : Network} (hn : net.Supported) {b : Bytes} {ws : List PyStr} (h : ScriptWords net.isDecred b ws) :
    deserializeTokens net b = .ok ws := by
  induction h with
  | nil => rfl
  | direct n d rest ws h1 h2 h3 _ ih =>
    subst h3
    rw [tokens_direct net h1 h2, if_neg (by simp), List.drop_left, List.take_left, ih, lowerHex_eq]; rfl
  | pushdata1 l d rest ws h3 _ ih => rw [tokens_pd1, ← h3, List.drop_left, List.take_left, ih, lowerHex_eq]; rfl
  | pushdata2 lo hi d rest ws h3 _ ih =>
    have hl : leToNat [lo, hi] = d.length := by simp [leToNat]; omega
    rw [tokens_pd2]
    simp only [List.take_succ_cons, List.take_zero, hl]
    rw [show (2 + d.length) = d.length + 1 + 1 from by omega, List.drop_succ_cons, List.drop_succ_cons, List.drop_left, ih]
    have : slice (lo :: hi :: (d ++ rest)) 2 (d.length + 1 + 1) = d := by simp [slice]
    rw [this, lowerHex_eq]; rfl
  | op b t rest ws h1 h2 h3 _ ih => rw [tokens_opcode hn b h1 h2, h3, ih]; rfl

theorem cut_tokens (net : Network) {b d : Bytes} (h : CutPush b d) : deserializeTokens net b = .ok [lowerHex d] := by
  cases h with
  | one l d h => rw [tokens_pd1, List.drop_eq_nil_of_le (by omega), List.take_of_length_le (by omega), lowerHex_eq]; rfl
  | length r h =>
    rw [tokens_pd2, List.drop_eq_nil_of_le (by omega)]
    have : slice r 2 (2 + leToNat (r.take 2)) = [] := by
      unfold slice
      rw [List.drop_eq_nil_of_le]; rw [List.length_take]; omega
    rw [this]; rfl
  | two lo hi d h =>
    have hl : leToNat [lo, hi] = lo.toNat + 256 * hi.toNat := by simp [leToNat]
    rw [tokens_pd2]
    simp only [List.take_succ_cons, List.take_zero, hl]
    rw [List.drop_eq_nil_of_le (by simp; omega)]
    have : slice (lo :: hi :: d) 2 (2 + (lo.toNat + 256 * hi.toNat)) = d := by
      unfold slice
      rw [List.take_of_length_le (by simp; omega)]; rfl
    rw [this, lowerHex_eq]; rfl

theorem refused_tokens {net : Network} (hn : net.Supported) {b : Bytes} {e : PyErr} (h : ScriptRefused net.isDecred b e) :
    deserializeTokens net b = .error e := by
  cases h with
  | unsupported b rest h =>
    rcases h with rfl | rfl
    · rw [deserializeTokens_cons, if_pos rfl]
    · rw [deserializeTokens_cons, if_neg (by decide), if_neg (by decide), if_neg (by decide), if_neg (by decide), if_pos (by decide)]
  | direct n d h1 h2 h3 => rw [tokens_direct net h1 h2, if_pos h3]
  | pushdata1 => rw [deserializeTokens_cons, if_neg (by decide), if_neg (by decide), if_pos (by decide)]
  | unnamed b rest h1 h2 =>
    rw [tokens_opcode hn b (.inr h1), h2]
    rintro rfl
    have : ∀ d : Bool, opcodeName d 0xab ≠ none := by decide +kernel
    exact this _ h2

/-- Every byte string is complete pushes and named opcodes, then nothing, a push that is cut or something refused. -/
theorem script_cases (decred : Bool) : ∀ (k : Nat) (b : Bytes), b.length ≤ k → ∃ pre post ws, b = pre ++ post ∧ ScriptWords decred pre ws ∧
    (post = [] ∨ (∃ d, CutPush post d) ∨ ∃ e, ScriptRefused decred post e) := by
  intro k
  induction k with
  | zero =>
    intro b hk
    obtain rfl : b = [] := by simpa using hk
    exact ⟨[], [], [], rfl, .nil, .inl rfl⟩
  | succ k ih =>
    intro b hk
    cases b with
    | nil => exact ⟨[], [], [], rfl, .nil, .inl rfl⟩
    | cons c r =>
      simp only [List.length_cons] at hk
      have stop : ((∃ d, CutPush (c :: r) d) ∨ ∃ e, ScriptRefused decred (c :: r) e) → ∃ pre post ws, c :: r = pre ++ post ∧ ScriptWords decred pre ws ∧
          (post = [] ∨ (∃ d, CutPush post d) ∨ ∃ e, ScriptRefused decred post e) := fun h => ⟨[], c :: r, [], rfl, .nil, .inr h⟩
      by_cases hp : 1 ≤ c.toNat ∧ c.toNat ≤ 75
      · have hc : UInt8.ofNat c.toNat = c := by simp
        by_cases hl : r.length < c.toNat
        · apply stop; right; rw [← hc]; exact ⟨_, .direct _ _ hp.1 hp.2 hl⟩
        · obtain ⟨pre, post, ws, h1, h2, h3⟩ := ih (r.drop c.toNat) (by simp; omega)
          refine ⟨c :: (r.take c.toNat ++ pre), post, lowerHex (r.take c.toNat) :: ws, ?_, ?_, h3⟩
          · rw [List.cons_append, List.append_assoc, ← h1, List.take_append_drop]
          · have := ScriptWords.direct c.toNat (r.take c.toNat) pre ws hp.1 hp.2 (by simp; omega) h2
            rwa [hc] at this
      by_cases h76 : c = 0x4c
      · subst h76
        cases r with
        | nil => exact stop (.inr ⟨_, .pushdata1⟩)
        | cons l r =>
          by_cases hl : r.length < l.toNat
          · exact stop (.inl ⟨_, .one l r hl⟩)
          · obtain ⟨pre, post, ws, h1, h2, h3⟩ := ih (r.drop l.toNat) (by simp at hk ⊢; omega)
            refine ⟨0x4c :: l :: (r.take l.toNat ++ pre), post, _, ?_, .pushdata1 l (r.take l.toNat) pre ws (by simp; omega) h2, h3⟩
            rw [List.cons_append, List.cons_append, List.append_assoc, ← h1, List.take_append_drop]
      by_cases h77 : c = 0x4d
      · subst h77
        cases r with
        | nil => exact stop (.inl ⟨_, .length [] (by simp)⟩)
        | cons lo r =>
          cases r with
          | nil => exact stop (.inl ⟨_, .length [lo] (by simp)⟩)
          | cons hi r =>
            by_cases hl : r.length < lo.toNat + 256 * hi.toNat
            · exact stop (.inl ⟨_, .two lo hi r hl⟩)
            · obtain ⟨pre, post, ws, h1, h2, h3⟩ := ih (r.drop (lo.toNat + 256 * hi.toNat)) (by simp at hk ⊢; omega)
              refine ⟨0x4d :: lo :: hi :: (r.take (lo.toNat + 256 * hi.toNat) ++ pre), post, _, ?_,
                .pushdata2 lo hi (r.take (lo.toNat + 256 * hi.toNat)) pre ws (by simp; omega) h2, h3⟩
              rw [List.cons_append, List.cons_append, List.cons_append, List.append_assoc, ← h1, List.take_append_drop]
      by_cases h78 : c = 0x4e
      · exact stop (.inr ⟨_, .unsupported c r (.inr h78)⟩)
      by_cases hab : c = 0xab
      · exact stop (.inr ⟨_, .unsupported c r (.inl hab)⟩)
      have hb : c = 0 ∨ 79 ≤ c.toNat := by
        by_cases hc0 : c = 0
        · exact .inl hc0
        · right
          have h0 : c.toNat ≠ 0 := fun h => hc0 (UInt8.toNat_inj.1 h)
          have h2 : c.toNat ≠ 76 := fun h => h76 (UInt8.toNat_inj.1 h)
          have h3 : c.toNat ≠ 77 := fun h => h77 (UInt8.toNat_inj.1 h)
          have h4 : c.toNat ≠ 78 := fun h => h78 (UInt8.toNat_inj.1 h)
          omega
      cases hn : opcodeName decred c with
      | none =>
        have h79 : 79 ≤ c.toNat := by
          rcases hb with rfl | h
          · have : ∀ d : Bool, opcodeName d 0 ≠ none := by decide
            exact absurd hn (this _)
          · exact h
        exact stop (.inr ⟨_, .unnamed c r h79 hn⟩)
      | some t =>
        obtain ⟨pre, post, ws, h1, h2, h3⟩ := ih r (by omega)
        exact ⟨c :: pre, post, t :: ws, by rw [h1]; rfl, .op c t pre ws hb hab hn h2, h3⟩

/-- C112: the text that `deserialize` returns: the words of the pushes (in hexadecimal) and the opcodes, separated by single spaces. A final OP_PUSHDATA1 or
OP_PUSHDATA2 with too little behind it is printed as what is there. -/
theorem C112_deserialize (net : Network) (hn : net.Supported) (b : Bytes) (s : PyStr) :
    deserialize net b = .ok s ↔ ∃ pre post ws, b = pre ++ post ∧ ScriptWords net.isDecred pre ws ∧
      (post = [] ∧ s = joinSpace ws ∨ ∃ d, CutPush post d ∧ s = joinSpace (ws ++ [lowerHex d])) := by
  unfold deserialize
  have app : ∀ {pre post : Bytes} {ws : List PyStr}, ScriptWords net.isDecred pre ws → deserializeTokens net (pre ++ post) = (do
      let ys ← deserializeTokens net post
      .ok (ws ++ ys)) := by
    intro pre post ws h
    rw [deserializeTokens_append (words_complete h), words_tokens hn h]; rfl
  constructor
  · intro h
    obtain ⟨pre, post, ws, rfl, hw, h1 | ⟨d, h1⟩ | ⟨e, h1⟩⟩ := script_cases net.isDecred b.length b (Nat.le_refl _)
    · subst h1
      rw [List.append_nil, words_tokens hn hw] at h
      cases h
      exact ⟨pre, [], ws, rfl, hw, .inl ⟨rfl, rfl⟩⟩
    · rw [app hw, cut_tokens net h1] at h
      cases h
      exact ⟨pre, post, ws, rfl, hw, .inr ⟨d, h1, rfl⟩⟩
    · rw [app hw, refused_tokens hn h1] at h; cases h
  · rintro ⟨pre, post, ws, rfl, hw, ⟨rfl, rfl⟩ | ⟨d, h1, rfl⟩⟩
    · rw [List.append_nil, words_tokens hn hw]; rfl
    · rw [app hw, cut_tokens net h1]; rfl

example : ScriptWords false [0x76, 2, 0xab, 1] [pystr "OP_DUP", pystr "ab01"] ∧ CutPush [0x4c, 5, 0xaa] [0xaa] :=
  ⟨.op _ _ _ _ (by decide) (by decide) (by decide +kernel) (.direct 2 [0xab, 1] [] [] (by decide) (by decide) rfl .nil), .one 5 [0xaa] (by decide)⟩

/-- C112: `deserialize` raises exactly if, after complete pushes and named opcodes, something is met that it refuses: NotImplementedError for OP_CODESEPARATOR and
OP_PUSHDATA4, IndexError for a direct push with too little data or a final OP_PUSHDATA1 without length, ValueError for a byte without a name. -/
theorem C112_deserialize_error (net : Network) (hn : net.Supported) (b : Bytes) (e : PyErr) :
    deserialize net b = .error e ↔ ∃ pre post ws, b = pre ++ post ∧ ScriptWords net.isDecred pre ws ∧ ScriptRefused net.isDecred post e := by
  unfold deserialize
  have app : ∀ {pre post : Bytes} {ws : List PyStr}, ScriptWords net.isDecred pre ws → deserializeTokens net (pre ++ post) = (do
      let ys ← deserializeTokens net post
      .ok (ws ++ ys)) := by
    intro pre post ws h
    rw [deserializeTokens_append (words_complete h), words_tokens hn h]; rfl
  constructor
  · intro h
    obtain ⟨pre, post, ws, rfl, hw, h1 | ⟨d, h1⟩ | ⟨e', h1⟩⟩ := script_cases net.isDecred b.length b (Nat.le_refl _)
    · subst h1
      rw [List.append_nil, words_tokens hn hw] at h; cases h
    · rw [app hw, cut_tokens net h1] at h; cases h
    · rw [app hw, refused_tokens hn h1] at h
      cases h
      exact ⟨pre, post, ws, rfl, hw, h1⟩
  · rintro ⟨pre, post, ws, rfl, hw, h1⟩
    rw [app hw, refused_tokens hn h1]; rfl

example : deserialize bitcoinMain [0x76, 0xc0, 1] = .error .valueError := by
  refine (C112_deserialize_error _ btc_supported _ _).2 ⟨[0x76], [0xc0, 1], [pystr "OP_DUP"], rfl, ?_, ?_⟩
  · exact .op _ _ _ _ (by decide) (by decide) (by decide +kernel) .nil
  · exact .unnamed _ _ (by decide) (by decide +kernel)

end Verif.Props
