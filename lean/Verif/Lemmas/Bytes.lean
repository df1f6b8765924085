import Verif.Py

/-! Helper lemmas about `check`, little-endian conversion, slices, hex. -/

namespace Verif

/-! ### Except plumbing -/

@[simp] theorem check_eq_ok {c : Prop} [Decidable c] {e : PyErr} {u : Unit} :
    check c e = .ok u ↔ c := by
  unfold check; split <;> simp [*]

@[simp] theorem check_eq_error {c : Prop} [Decidable c] {e e' : PyErr} :
    check c e = .error e' ↔ ¬ c ∧ e = e' := by
  unfold check; split <;> simp [*]

theorem bind_ok_iff {α β : Type} {m : Py α} {f : α → Py β} {b : β} :
    (m >>= f) = .ok b ↔ ∃ a, m = .ok a ∧ f a = .ok b := by
  cases m <;> simp [bind, Except.bind]

theorem bind_error_iff {α β : Type} {m : Py α} {f : α → Py β} {e : PyErr} :
    (m >>= f) = .error e ↔ m = .error e ∨ ∃ a, m = .ok a ∧ f a = .error e := by
  cases m <;> simp [bind, Except.bind]

@[simp] theorem ok_bind {α β : Type} (a : α) (f : α → Py β) : ((Except.ok a : Py α) >>= f) = f a := rfl
@[simp] theorem error_bind {α β : Type} (e : PyErr) (f : α → Py β) :
    ((Except.error e : Py α) >>= f) = .error e := rfl
@[simp] theorem pure_eq_ok {α : Type} (a : α) : (pure a : Py α) = .ok a := rfl
@[simp] theorem throw_eq_error {α : Type} (e : PyErr) : (throw e : Py α) = .error e := rfl

theorem check_bind {α : Type} {c : Prop} [Decidable c] {e : PyErr} {f : Unit → Py α} :
    (check c e >>= f) = if c then f () else .error e := by
  unfold check; split <;> rfl

theorem check_true {c : Prop} [Decidable c] {e : PyErr} (h : c) : check c e = .ok () := by simp [h]

/-! ### Little-endian -/

@[simp] theorem natToLE_length (k n : Nat) : (natToLE k n).length = k := by
  induction k generalizing n with
  | zero => rfl
  | succ k ih => simp [natToLE, ih]

theorem leToNat_lt (b : Bytes) : leToNat b < 256 ^ b.length := by
  induction b with
  | nil => simp [leToNat]
  | cons x xs ih =>
    have := x.toNat_lt
    simp only [leToNat, List.length_cons, Nat.pow_succ]
    omega

theorem leToNat_natToLE (k n : Nat) : leToNat (natToLE k n) = n % 256 ^ k := by
  induction k generalizing n with
  | zero => simp [natToLE, leToNat, Nat.mod_one]
  | succ k ih =>
    simp only [natToLE, leToNat, ih, UInt8.toNat_ofNat']
    have h : n % 256 ^ (k + 1) = n % 256 + 256 * (n / 256 % 256 ^ k) := by
      rw [Nat.pow_succ, Nat.mul_comm (256 ^ k) 256, Nat.mod_mul]
    rw [h]; simp

theorem leToNat_natToLE_of_lt {k n : Nat} (h : n < 256 ^ k) : leToNat (natToLE k n) = n := by
  rw [leToNat_natToLE, Nat.mod_eq_of_lt h]

theorem natToLE_leToNat (b : Bytes) : natToLE b.length (leToNat b) = b := by
  induction b with
  | nil => rfl
  | cons x xs ih =>
    have := x.toNat_lt
    have h1 : (x.toNat + 256 * leToNat xs) % 256 = x.toNat := by omega
    have h2 : (x.toNat + 256 * leToNat xs) / 256 = leToNat xs := by omega
    simp [natToLE, leToNat, h1, h2, ih]

theorem natToLE_leToNat_of_length {k : Nat} {b : Bytes} (h : b.length = k) : natToLE k (leToNat b) = b := by
  subst h; exact natToLE_leToNat b

theorem leToNat_append (a b : Bytes) : leToNat (a ++ b) = leToNat a + 256 ^ a.length * leToNat b := by
  induction a with
  | nil => simp [leToNat]
  | cons x xs ih =>
    simp only [List.cons_append, leToNat, ih, List.length_cons, Nat.pow_succ, Nat.mul_add]
    rw [Nat.mul_comm (256 ^ xs.length) 256, Nat.mul_assoc]; omega

theorem leToNat_inj_of_length {a b : Bytes} (hl : a.length = b.length) (h : leToNat a = leToNat b) : a = b := by
  rw [← natToLE_leToNat a, ← natToLE_leToNat b, hl, h]

theorem natToLE_inj {k m n : Nat} (hm : m < 256 ^ k) (hn : n < 256 ^ k) (h : natToLE k m = natToLE k n) :
    m = n := by
  rw [← leToNat_natToLE_of_lt hm, ← leToNat_natToLE_of_lt hn, h]

theorem leToNat_replicate_zero (k : Nat) : leToNat (List.replicate k 0) = 0 := by
  induction k with
  | zero => rfl
  | succ k ih => simp [List.replicate_succ, leToNat, ih]

theorem natToLE_zero (k : Nat) : natToLE k 0 = List.replicate k 0 := by
  induction k with
  | zero => rfl
  | succ k ih => simp [natToLE, List.replicate_succ, ih]

theorem natToLE_add (j k n : Nat) : natToLE (j + k) n = natToLE j n ++ natToLE k (n / 256 ^ j) := by
  induction j generalizing n with
  | zero => simp [natToLE]
  | succ j ih =>
    have : j + 1 + k = (j + k) + 1 := by omega
    rw [this]
    simp only [natToLE, ih, List.cons_append]
    rw [Nat.div_div_eq_div_mul, Nat.pow_succ, Nat.mul_comm 256]

theorem toBytesLE_ok_iff {n : Int} {k : Nat} {b : Bytes} :
    toBytesLE n k = .ok b ↔ b.length = k ∧ (leToNat b : Int) = n := by
  unfold toBytesLE
  split
  · rename_i h
    obtain ⟨m, rfl⟩ := Int.eq_ofNat_of_zero_le h.1
    have hm : m < 256 ^ k := by exact_mod_cast h.2
    simp only [Int.toNat_natCast, Except.ok.injEq]
    constructor
    · rintro rfl; simp [leToNat_natToLE_of_lt hm]
    · rintro ⟨h1, h2⟩
      have : leToNat b = m := by exact_mod_cast h2
      rw [← this, natToLE_leToNat_of_length h1]
  · rename_i h
    constructor
    · intro h'; cases h'
    · rintro ⟨h1, h2⟩
      exfalso; apply h
      have := leToNat_lt b
      rw [h1] at this
      subst h2
      exact ⟨Int.natCast_nonneg _, by exact_mod_cast this⟩

theorem toBytesLE_natCast {n k : Nat} (h : n < 256 ^ k) : toBytesLE (n : Int) k = .ok (natToLE k n) := by
  rw [toBytesLE_ok_iff]; simp [leToNat_natToLE_of_lt h]

theorem toBytesLE_error_iff {n : Int} {k : Nat} {e : PyErr} :
    toBytesLE n k = .error e ↔ e = .overflowError ∧ (n < 0 ∨ (256 ^ k : Nat) ≤ n) := by
  unfold toBytesLE
  split
  · rename_i h
    simp only [reduceCtorEq, false_iff]; rintro ⟨-, h1⟩
    generalize ((256 ^ k : Nat) : Int) = p at *; omega
  · rename_i h
    simp only [Except.error.injEq]; constructor
    · rintro rfl; refine ⟨rfl, ?_⟩; generalize ((256 ^ k : Nat) : Int) = p at *; omega
    · rintro ⟨rfl, _⟩; rfl

/-! ### Slices -/

@[simp] theorem slice_length {α : Type} (b : List α) (i j : Nat) : (slice b i j).length = min j b.length - i := by
  simp [slice]

theorem slice_append_left {α : Type} (a b : List α) (j : Nat) (h : j ≤ a.length) :
    slice (a ++ b) 0 j = a.take j := by
  simp [slice, List.take_append_of_le_length h]

theorem slice_zero_append {α : Type} (a b : List α) : slice (a ++ b) 0 a.length = a := by
  simp [slice]

theorem slice_zero_append' {α : Type} (a b : List α) (n : Nat) (h : a.length = n) : slice (a ++ b) 0 n = a := by
  subst h; exact slice_zero_append a b

/-- the middle segment of a three-part concatenation -/
theorem slice_mid {α : Type} (a b c : List α) (i j : Nat) (h1 : a.length = i) (h2 : i + b.length = j) :
    slice (a ++ (b ++ c)) i j = b := by
  subst h1; subst h2
  simp [slice, List.take_append]

theorem slice_drop {α : Type} (b : List α) (c i j : Nat) : slice (b.drop c) i j = slice b (c + i) (c + j) := by
  simp [slice, List.take_drop, List.drop_drop]

/-! ### Hex -/

theorem hexVal_hexDigit (n : Nat) (h : n < 16) : hexVal (hexDigit n) = some n := by
  have : ∀ n < 16, hexVal (hexDigit n) = some n := by decide
  exact this n h

theorem isAsciiSpace_hexDigit (n : Nat) (h : n < 16) : isAsciiSpace (hexDigit n) = false := by
  have : ∀ n < 16, isAsciiSpace (hexDigit n) = false := by decide
  exact this n h

theorem isPySpace_hexDigit (n : Nat) (h : n < 16) : isPySpace (hexDigit n) = false := by
  have : ∀ n < 16, isPySpace (hexDigit n) = false := by decide
  exact this n h

theorem fromHex_toHex (b : Bytes) : fromHex (toHex b) = .ok b := by
  induction b with
  | nil => simp [toHex, fromHex]
  | cons x xs ih =>
    have hx := x.toNat_lt
    have h1 : x.toNat / 16 < 16 := by omega
    have h2 : x.toNat % 16 < 16 := by omega
    have h3 : 16 * (x.toNat / 16) + x.toNat % 16 = x.toNat := by omega
    simp [toHex, fromHex, hexVal_hexDigit _ h1, hexVal_hexDigit _ h2, isAsciiSpace_hexDigit _ h1, ih, h3]

@[simp] theorem toHex_length (b : Bytes) : (toHex b).length = 2 * b.length := by
  induction b with
  | nil => rfl
  | cons x xs ih => simp [toHex, ih]; omega

theorem toHex_injective {a b : Bytes} (h : toHex a = toHex b) : a = b := by
  have := fromHex_toHex a
  rw [h, fromHex_toHex] at this
  simpa using this.symm

theorem toHex_append (a b : Bytes) : toHex (a ++ b) = toHex a ++ toHex b := by
  induction a with
  | nil => rfl
  | cons x xs ih => simp [toHex, ih]

theorem toHex_noSpace (b : Bytes) : ∀ c ∈ toHex b, isPySpace c = false := by
  induction b with
  | nil => simp [toHex]
  | cons x xs ih =>
    have hx := x.toNat_lt
    intro c hc
    simp only [toHex, List.mem_cons] at hc
    rcases hc with rfl | rfl | hc
    · exact isPySpace_hexDigit _ (by omega)
    · exact isPySpace_hexDigit _ (by omega)
    · exact ih c hc

/-! ### split / join -/

theorem splitAux_token (cur t rest : PyStr) (ht : ∀ c ∈ t, isPySpace c = false) :
    splitAux cur (t ++ rest) = splitAux (t.reverse ++ cur) rest := by
  induction t generalizing cur with
  | nil => rfl
  | cons c cs ih =>
    have hc : isPySpace c = false := ht c (by simp)
    simp only [List.cons_append, splitAux, hc]
    rw [if_neg (by simp), ih _ (fun d hd => ht d (by simp [hd]))]
    simp

theorem pySplit_joinSpace (ts : List PyStr) (hne : ∀ t ∈ ts, t ≠ []) (hsp : ∀ t ∈ ts, ∀ c ∈ t, isPySpace c = false) :
    pySplit (joinSpace ts) = ts := by
  unfold pySplit
  induction ts with
  | nil => simp [joinSpace, splitAux]
  | cons t ts ih =>
    have ht := hne t (by simp)
    have hs := hsp t (by simp)
    have ih' := ih (fun u hu => hne u (by simp [hu])) (fun u hu => hsp u (by simp [hu]))
    have hrev : t.reverse.isEmpty = false := by simpa using ht
    cases ts with
    | nil =>
      simp only [joinSpace]
      have h := splitAux_token [] t [] hs
      simp only [List.append_nil] at h
      rw [h]; simp [splitAux, ht]
    | cons u us =>
      have e : joinSpace (t :: u :: us) = t ++ ' ' :: joinSpace (u :: us) := rfl
      rw [e, splitAux_token [] t _ hs]
      have hsp : isPySpace ' ' = true := by decide
      simp only [List.append_nil, splitAux, hsp, if_true, hrev]
      rw [if_neg (by simp), List.reverse_reverse, ih']

end Verif
