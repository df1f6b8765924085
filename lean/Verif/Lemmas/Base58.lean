import Verif.Lemmas.HashLen
import Verif.Model.Base58
import Verif.Spec.Base58
import Mathlib.Data.Nat.Digits.Lemmas

namespace Verif.Base58
open Spec

/-- big-endian value of a digit list -/
def valBE (base : Nat) (ds : List Nat) : Nat := ds.foldl (fun a d => a * base + d) 0

/-- number of leading zero digits -/
def lz (ds : List Nat) : Nat := (ds.takeWhile (· == 0)).length

theorem valBE_eq (base : Nat) (ds : List Nat) : valBE base ds = Nat.ofDigits base ds.reverse := by
  have : ∀ (v : Nat), ds.foldl (fun a d => a * base + d) v = Nat.ofDigits base (ds.reverse ++ [v]) := by
    induction ds with
    | nil => intro v; simp
    | cons d ds ih =>
      intro v
      simp only [List.foldl_cons, ih, List.reverse_cons, List.append_assoc]
      rw [Nat.ofDigits_append, Nat.ofDigits_append]
      simp [Nat.ofDigits_cons, Nat.mul_comm, Nat.add_comm]
  have h := this 0
  unfold valBE
  rw [h, Nat.ofDigits_append_zero]

theorem toLongLoop_ok (base : Nat) (f : UInt8 → Option Nat) (s : Bytes) (ds : List Nat) (hs : s.map f = ds.map some) (hb : 0 < base)
    (v p : Nat) :
    toLongLoop base f v p s = .ok (ds.foldl (fun a d => a * base + d) v, if v = 0 then p + lz ds else p) := by
  induction s generalizing ds v p with
  | nil =>
    have : ds = [] := by simpa using hs.symm
    subst this
    simp [toLongLoop, lz]
  | cons c s ih =>
    cases ds with
    | nil => simp at hs
    | cons d ds =>
      simp only [List.map_cons, List.cons.injEq] at hs
      simp only [toLongLoop, hs.1, List.foldl_cons]
      rw [ih ds hs.2]
      by_cases hv : v = 0
      · subst hv
        by_cases hd : d = 0
        · subst hd
          simp [lz]; omega
        · simp [lz, hd]
      · have : v * base + d ≠ 0 := by
          have := Nat.mul_pos (Nat.pos_of_ne_zero hv) hb
          omega
        rw [if_neg this, if_neg this, if_neg hv]

theorem toLong_ok (base : Nat) (f : UInt8 → Option Nat) (s : Bytes) (ds : List Nat) (hs : s.map f = ds.map some) (hb : 0 < base) :
    toLong base f s = .ok (valBE base ds, lz ds) := by
  unfold toLong valBE
  rw [toLongLoop_ok base f s ds hs hb]; simp

theorem toLongLoop_error (base : Nat) (f : UInt8 → Option Nat) (s : Bytes) (h : ∃ c ∈ s, f c = none) (v p : Nat) :
    toLongLoop base f v p s = .error .valueError := by
  induction s generalizing v p with
  | nil => simp at h
  | cons c s ih =>
    simp only [toLongLoop]
    cases hc : f c with
    | none => rfl
    | some x =>
      simp only
      apply ih
      obtain ⟨c', hm, hn⟩ := h
      rcases List.mem_cons.1 hm with rfl | hm
      · rw [hc] at hn; cases hn
      · exact ⟨c', hm, hn⟩

theorem fromLongLoop_ok (base : Nat) (charset : Nat → Option UInt8) (g : Nat → UInt8) (hb : 2 ≤ base)
    (hg : ∀ d < base, charset d = some (g d)) (fuel v : Nat) (hf : v ≤ fuel) :
    fromLongLoop base charset fuel v = .ok ((Nat.digits base v).map g) := by
  induction fuel generalizing v with
  | zero =>
    have : v = 0 := by omega
    subst this; simp [fromLongLoop]
  | succ fuel ih =>
    simp only [fromLongLoop]
    by_cases hv : v > 0
    · rw [if_pos hv, hg _ (Nat.mod_lt _ (by omega))]
      simp only
      rw [ih (v / base) (by have := Nat.div_lt_self hv (by omega : 1 < base); omega)]
      rw [Nat.digits_def' (by omega) hv]
      rfl
    · have : v = 0 := by omega
      subst this; simp

theorem fromLong_ok (base : Nat) (charset : Nat → Option UInt8) (g : Nat → UInt8) (hb : 2 ≤ base)
    (hg : ∀ d < base, charset d = some (g d)) (v p : Nat) :
    fromLong v p base charset = .ok ((List.replicate p 0 ++ (Nat.digits base v).reverse).map g) := by
  unfold fromLong
  rw [fromLongLoop_ok base charset g hb hg v v (Nat.le_refl _), ok_bind, hg 0 (by omega)]
  simp

/-- radix conversion with preserved leading zeros -/
def conv (b c : Nat) (ds : List Nat) : List Nat := List.replicate (lz ds) 0 ++ (Nat.digits c (valBE b ds)).reverse

theorem lz_digits_reverse (c v : Nat) : lz ((Nat.digits c v).reverse) = 0 := by
  by_cases hv : v = 0
  · subst hv; simp [lz]
  · have h := Nat.getLast_digit_ne_zero c hv
    unfold lz
    have hne : Nat.digits c v ≠ [] := Nat.digits_ne_nil_iff_ne_zero.2 hv
    obtain ⟨l, a, e⟩ : ∃ l a, Nat.digits c v = l ++ [a] := ⟨_, _, (List.dropLast_append_getLast hne).symm⟩
    have ha : a ≠ 0 := by simpa [e] using h
    simp [e, ha]

theorem lz_replicate_append (p : Nat) (l : List Nat) (h : lz l = 0) : lz (List.replicate p 0 ++ l) = p := by
  induction p with
  | zero => simpa using h
  | succ p ih =>
    have : lz (List.replicate (p + 1) 0 ++ l) = lz (List.replicate p 0 ++ l) + 1 := by
      unfold lz; rw [List.replicate_succ, List.cons_append, List.takeWhile_cons_of_pos (by rfl)]; rfl
    rw [this, ih]

theorem valBE_replicate_append (b p : Nat) (l : List Nat) : valBE b (List.replicate p 0 ++ l) = valBE b l := by
  rw [valBE_eq, valBE_eq, List.reverse_append, List.reverse_replicate, Nat.ofDigits_append_replicate_zero]

theorem lz_conv (b c : Nat) (ds : List Nat) : lz (conv b c ds) = lz ds :=
  lz_replicate_append _ _ (lz_digits_reverse _ _)

theorem valBE_conv (b c : Nat) (ds : List Nat) : valBE c (conv b c ds) = valBE b ds := by
  unfold conv
  rw [valBE_replicate_append, valBE_eq, List.reverse_reverse, Nat.ofDigits_digits]

/-- leading zeros and value determine a digit list -/
theorem canonical {b : Nat} (hb : 2 ≤ b) {ds : List Nat} (h : ∀ d ∈ ds, d < b) :
    List.replicate (lz ds) 0 ++ (Nat.digits b (valBE b ds)).reverse = ds := by
  have e : ds = List.replicate (lz ds) 0 ++ ds.dropWhile (· == 0) := by
    have h1 : ds.takeWhile (· == 0) = List.replicate (lz ds) 0 := by
      rw [List.eq_replicate_iff]
      refine ⟨rfl, fun x hx => ?_⟩
      have := List.all_eq_true.1 (List.all_takeWhile (p := (· == 0)) (l := ds)) x hx
      simpa using this
    rw [← h1, List.takeWhile_append_dropWhile]
  have hv : valBE b ds = valBE b (ds.dropWhile (· == 0)) := by
    conv => lhs; rw [e]
    exact valBE_replicate_append b _ _
  rw [hv, valBE_eq, Nat.digits_ofDigits b (by omega)]
  · rw [List.reverse_reverse, ← e]
  · intro d hd
    have hd' : d ∈ ds.dropWhile (· == 0) := by simpa using hd
    exact h d (List.dropWhile_suffix _ |>.subset hd')
  · intro hne
    have hne' : ds.dropWhile (· == 0) ≠ [] := by simpa using hne
    rw [List.getLast_reverse]
    have := List.head_dropWhile_not (· == 0) hne'
    simpa using this

theorem conv_conv {b c : Nat} (hb : 2 ≤ b) {ds : List Nat} (h : ∀ d ∈ ds, d < b) : conv c b (conv b c ds) = ds := by
  have : conv c b (conv b c ds) = List.replicate (lz (conv b c ds)) 0 ++ (Nat.digits b (valBE c (conv b c ds))).reverse := rfl
  rw [this, lz_conv, valBE_conv]
  exact canonical hb h

theorem conv_lt {b c : Nat} (hc : 2 ≤ c) (ds : List Nat) : ∀ d ∈ conv b c ds, d < c := by
  intro d hd
  unfold conv at hd
  rcases List.mem_append.1 hd with hd | hd
  · have := (List.mem_replicate.1 hd).2; omega
  · exact Nat.digits_lt_base (by omega) (List.mem_reverse.1 hd)

/-! ### Characters -/

theorem base_eq : base = 58 := by decide

theorem b58Alphabet_length : b58Alphabet.length = 58 := by decide

/-- the digit's character -/
def b58Char (d : Nat) : Char := (b58Alphabet[d]?).getD '1'
/-- the digit's byte -/
def b58Byte (d : Nat) : UInt8 := (alphabet[d]?).getD 49

theorem char_facts : ∀ c ∈ b58Alphabet, String.utf8EncodeChar c = [b58Byte (b58Digit c)] ∧
    lookup (b58Byte (b58Digit c)) = some (b58Digit c) ∧ b58Digit c < 58 ∧ b58Char (b58Digit c) = c := by decide +kernel

theorem digit_facts : ∀ d < 58, alphabet[d]? = some (b58Byte d) ∧ Char.ofNat (b58Byte d).toNat = b58Char d ∧
    b58Char d ∈ b58Alphabet ∧ b58Digit (b58Char d) = d ∧ (b58Char d = '1' ↔ d = 0) := by decide +kernel

theorem lookup_high {x : UInt8} (h : 128 ≤ x.toNat) : lookup x = none := by
  unfold lookup
  rw [List.findIdx?_eq_none_iff]
  intro y hy
  have : ∀ y ∈ alphabet, y.toNat < 128 := by decide
  have := this y hy
  simp only [beq_eq_false_iff_ne, ne_eq]
  rintro rfl; omega

theorem lookup_byte : ∀ n < 128, lookup (UInt8.ofNat n) = none ∨ Char.ofNat n ∈ b58Alphabet := by decide +kernel

theorem bad_char {c : Char} (h : c ∉ b58Alphabet) : ∃ x ∈ String.utf8EncodeChar c, lookup x = none := by
  have hv : c.toNat = c.val.toNat := rfl
  unfold String.utf8EncodeChar
  simp only
  split
  · rename_i h1
    refine ⟨_, List.mem_singleton.2 rfl, ?_⟩
    have h2 := lookup_byte c.val.toNat (by omega)
    rcases h2 with h2 | h2
    · exact h2
    · exfalso; apply h; rw [← hv, Char.ofNat_toNat] at h2; exact h2
  · split
    · refine ⟨_, List.mem_cons_self .., lookup_high ?_⟩
      simp; omega
    · split
      · refine ⟨_, List.mem_cons_self .., lookup_high ?_⟩
        simp; omega
      · refine ⟨_, List.mem_cons_self .., lookup_high ?_⟩
        simp; omega

theorem utf8_map (s : PyStr) (h : ∀ c ∈ s, c ∈ b58Alphabet) :
    (utf8Encode s).map lookup = (s.map b58Digit).map some := by
  unfold utf8Encode
  induction s with
  | nil => rfl
  | cons c s ih =>
    obtain ⟨h1, h2, _⟩ := char_facts c (h c (by simp))
    simp only [List.flatMap_cons, List.map_append, h1, List.map_cons, List.map_nil, h2]
    rw [ih (fun d hd => h d (by simp [hd]))]
    rfl

/-! ### The two functions without checksum -/

theorem toNat_map (d : Bytes) : d.map (fun x : UInt8 => some x.toNat) = (d.map UInt8.toNat).map some := by simp

/-- payload to string -/
def enc (d : Bytes) : PyStr := (conv 256 58 (d.map UInt8.toNat)).map b58Char
/-- string of digits to payload -/
def dec (s : PyStr) : Bytes := (conv 58 256 (s.map b58Digit)).map UInt8.ofNat

theorem encode_core (d : Bytes) :
    (do let (v, pre) ← toLong 256 (fun x => some x.toNat) d
        let out ← fromLong v pre base (fun v => alphabet[v]?)
        (.ok (asciiDecode out) : Py PyStr)) = .ok (enc d) := by
  rw [toLong_ok 256 _ d _ (toNat_map d) (by omega), ok_bind]
  simp only
  rw [fromLong_ok base _ b58Byte (by rw [base_eq]; omega) (fun k hk => (digit_facts k (by rw [base_eq] at hk; exact hk)).1), ok_bind]
  unfold asciiDecode enc
  rw [base_eq, List.map_map]
  congr 1
  apply List.map_congr_left
  intro k hk
  exact (digit_facts k (conv_lt (b := 256) (by omega) _ k hk)).2.1

theorem decode_core (s : PyStr) (h : ∀ c ∈ s, c ∈ b58Alphabet) :
    (do let (v, pre) ← toLong base lookup (utf8Encode s)
        fromLong v pre 256 (fun x => if x < 256 then some (UInt8.ofNat x) else none)) = .ok (dec s) := by
  rw [toLong_ok base _ _ _ (utf8_map s h) (by rw [base_eq]; omega), ok_bind]
  simp only
  rw [fromLong_ok 256 _ UInt8.ofNat (by omega) (fun k hk => by simp [hk])]
  rw [base_eq]; rfl

theorem decode_core_error (s : PyStr) (h : ¬ ∀ c ∈ s, c ∈ b58Alphabet) :
    toLong base lookup (utf8Encode s) = .error .valueError := by
  apply toLongLoop_error
  simp only [not_forall] at h
  obtain ⟨c, hc, hn⟩ := h
  obtain ⟨x, hx, hl⟩ := bad_char hn
  exact ⟨x, by unfold utf8Encode; exact List.mem_flatMap.2 ⟨c, hc, hx⟩, hl⟩

theorem toNat_lt_map (d : Bytes) : ∀ x ∈ d.map UInt8.toNat, x < 256 := by
  intro x hx
  obtain ⟨y, _, rfl⟩ := List.mem_map.1 hx
  exact y.toNat_lt

theorem enc_alphabet (d : Bytes) : ∀ c ∈ enc d, c ∈ b58Alphabet := by
  intro c hc
  obtain ⟨k, hk, rfl⟩ := List.mem_map.1 hc
  exact (digit_facts k (conv_lt (by omega) _ k hk)).2.2.1

theorem map_id_of {α : Type} (l : List α) (f : α → α) (h : ∀ x ∈ l, f x = x) : l.map f = l := by
  induction l with
  | nil => rfl
  | cons a l ih => simp [h a (by simp), ih (fun x hx => h x (by simp [hx]))]

theorem enc_digits (d : Bytes) : (enc d).map b58Digit = conv 256 58 (d.map UInt8.toNat) := by
  unfold enc
  rw [List.map_map]
  exact map_id_of _ _ fun k hk => (digit_facts k (conv_lt (by omega) _ k hk)).2.2.2.1

theorem dec_enc (d : Bytes) : dec (enc d) = d := by
  unfold dec
  rw [enc_digits, conv_conv (by omega) (toNat_lt_map d), List.map_map]
  exact map_id_of _ _ fun x _ => by simp

theorem dec_bytes (s : PyStr) : (dec s).map UInt8.toNat = conv 58 256 (s.map b58Digit) := by
  unfold dec
  rw [List.map_map]
  exact map_id_of _ _ fun k hk => by
    have := conv_lt (b := 58) (c := 256) (by omega) _ k hk
    simp; omega

theorem digit_lt_map (s : PyStr) (h : ∀ c ∈ s, c ∈ b58Alphabet) : ∀ x ∈ s.map b58Digit, x < 58 := by
  intro x hx
  obtain ⟨y, hy, rfl⟩ := List.mem_map.1 hx
  exact (char_facts y (h y hy)).2.2.1

theorem enc_dec (s : PyStr) (h : ∀ c ∈ s, c ∈ b58Alphabet) : enc (dec s) = s := by
  unfold enc
  rw [dec_bytes, conv_conv (by omega) (digit_lt_map s h), List.map_map]
  exact map_id_of _ _ fun c hc => (char_facts c (h c hc)).2.2.2

/-! ### Relation to the specification -/

theorem beValue_eq (d : Bytes) : beValue d = valBE 256 (d.map UInt8.toNat) := by
  unfold beValue valBE
  rw [List.foldl_map]
  congr 1; funext a x; omega

theorem b58Value_eq (s : PyStr) : b58Value s = valBE 58 (s.map b58Digit) := by
  unfold b58Value valBE
  rw [List.foldl_map]
  congr 1; funext a x; omega

theorem lz_bytes (d : Bytes) : (d.takeWhile (· == 0)).length = lz (d.map UInt8.toNat) := by
  unfold lz
  rw [List.takeWhile_map, List.length_map]
  congr 1
  have : ((fun x : Nat => x == 0) ∘ UInt8.toNat) = (fun x : UInt8 => x == 0) := by
    funext x
    simp only [Function.comp, beq_eq_beq]
    constructor
    · intro h; exact UInt8.toNat_inj.1 h
    · rintro rfl; rfl
  rw [this]

theorem takeWhile_congr' {α : Type} (l : List α) (p q : α → Bool) (h : ∀ x ∈ l, p x = q x) : l.takeWhile p = l.takeWhile q := by
  induction l with
  | nil => rfl
  | cons a l ih => simp [List.takeWhile_cons, h a (by simp), ih (fun x hx => h x (by simp [hx]))]

theorem lz_chars (s : PyStr) (h : ∀ c ∈ s, c ∈ b58Alphabet) : (s.takeWhile (· == '1')).length = lz (s.map b58Digit) := by
  unfold lz
  rw [List.takeWhile_map, List.length_map]
  congr 1
  apply takeWhile_congr'
  intro c hc
  obtain ⟨_, _, hlt, hcc⟩ := char_facts c (h c hc)
  have := (digit_facts _ hlt).2.2.2.2
  rw [hcc] at this
  simp only [Function.comp, beq_eq_beq]
  exact this

theorem isBase58_iff (d : Bytes) (s : PyStr) : IsBase58 d s ↔ (∀ c ∈ s, c ∈ b58Alphabet) ∧ dec s = d := by
  constructor
  · rintro ⟨h1, h2, h3⟩
    refine ⟨h1, ?_⟩
    rw [lz_chars s h1, lz_bytes] at h2
    rw [b58Value_eq, beValue_eq] at h3
    have := canonical (b := 256) (by omega) (toNat_lt_map d)
    unfold dec conv
    rw [h2, h3, this, List.map_map]
    exact map_id_of _ _ fun x _ => by simp
  · rintro ⟨h1, rfl⟩
    refine ⟨h1, ?_, ?_⟩
    · rw [lz_chars s h1, lz_bytes, dec_bytes, lz_conv]
    · rw [b58Value_eq, beValue_eq, dec_bytes, valBE_conv]

end Verif.Base58
