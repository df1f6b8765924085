import Verif.Model.DynUtils
import Verif.Props.DynParse2
import Verif.Props.DynBuilder2
import Verif.Props.Base58
import Verif.Props.VarInt2

/-! Property C135: numbers, base58 and compact sizes from values of any type. -/

namespace Verif.Props
open Verif Spec Dyn

/-- The value stands for the bytes: it is bytes-like, or a list or tuple of their numbers. -/
def Octets (v : Val) (b : Bytes) : Prop := Byteslike v b ∨ v = .list (b.map fun x => .int x.toNat) ∨ v = .tuple (b.map fun x => .int x.toNat)

theorem byteList_iff {l : List Val} {b : Bytes} : Val.byteList l = .ok b ↔ l = b.map fun x => Val.int x.toNat := byteList_ok l b

theorem octets_iff {v : Val} {b : Bytes} : v.octets = .ok b ↔ Octets v b := by
  unfold Octets Byteslike
  cases v <;> simp [Val.octets, Val.content, byteList_iff]

/-- C135: `le2i` takes bytes-like values, and lists and tuples of integers from 0 to 255, as bytes, and gives their little-endian value, signed if the second argument is true. -/
theorem C135_le2i (v signed : Val) (n : Int) : Val.le2iOf v signed = .ok n ↔ ∃ b, Octets v b ∧ (IsFalse signed → n = leValue b) ∧ (¬ IsFalse signed → n = leSignedValue b) := by
  unfold Val.le2iOf
  rw [bind_ok_iff]
  refine exists_congr fun b => and_congr octets_iff ?_
  rw [← truthy_iff, leSignedValue_eq, ← leToNat_eq_leValue]
  cases c : signed.truthy
  · have : IsFalse signed := by by_contra h; rw [← truthy_iff, c] at h; cases h
    simp [this, Verif.le2i, eq_comm]
  · have : ¬ IsFalse signed := by rw [← truthy_iff, c]
    simp [this, le2iSigned, eq_comm]

/-- C135: `be2i` takes the same values, most significant byte first. -/
theorem C135_be2i (v signed : Val) (n : Int) : Val.be2iOf v signed = .ok n ↔ ∃ b, Octets v b ∧ (IsFalse signed → n = beValue b) ∧ (¬ IsFalse signed → n = leSignedValue b.reverse) := by
  unfold Val.be2iOf
  rw [bind_ok_iff]
  refine exists_congr fun b => and_congr octets_iff ?_
  rw [← truthy_iff, leSignedValue_eq, ← be_eq_beValue]
  cases c : signed.truthy
  · have : IsFalse signed := by by_contra h; rw [← truthy_iff, c] at h; cases h
    simp [this, Verif.be2i, eq_comm]
  · have : ¬ IsFalse signed := by rw [← truthy_iff, c]
    simp [this, le2iSigned, eq_comm]

/-- It is a list or tuple, and its first element that is no byte is an integer. -/
def OutOfRange (v : Val) : Prop := ∃ (b : Bytes) (n : Int) (l : List Val), ¬ (0 ≤ n ∧ n < 256) ∧
  (v = .list (b.map (fun x => .int x.toNat) ++ .int n :: l) ∨ v = .tuple (b.map (fun x => .int x.toNat) ++ .int n :: l))

theorem byteList_value {l : List Val} : Val.byteList l = .error .valueError ↔
    ∃ (b : Bytes) (n : Int) (l' : List Val), ¬ (0 ≤ n ∧ n < 256) ∧ l = b.map (fun x => Val.int x.toNat) ++ .int n :: l' := by
  induction l with
  | nil =>
    refine ⟨(fun h => nomatch h), ?_⟩
    rintro ⟨b, n, l', -, h⟩
    cases b <;> cases h
  | cons v l ih =>
    cases v with
    | int m =>
      unfold Val.byteList
      by_cases c : 0 ≤ m ∧ m < 256
      · rw [if_pos c]
        obtain ⟨k, rfl⟩ := Int.eq_ofNat_of_zero_le c.1
        have hk : k < 256 := by omega
        have e : ((do let bs ← Val.byteList l; Except.ok (UInt8.ofNat (k : Int).toNat :: bs)) = Except.error PyErr.valueError) ↔
            Val.byteList l = .error .valueError := by
          cases Val.byteList l with
          | ok b => exact ⟨(fun h => nomatch h), (fun h => nomatch h)⟩
          | error e => exact Iff.rfl
        rw [e, ih]
        constructor
        · rintro ⟨b, n, l', h1, rfl⟩
          exact ⟨UInt8.ofNat k :: b, n, l', h1, by simp [Nat.mod_eq_of_lt hk]⟩
        · rintro ⟨b, n, l', h1, h2⟩
          cases b with
          | nil => injection h2 with h2 _; injection h2 with h2; subst h2; exact absurd c h1
          | cons x b => injection h2 with h2 h3; exact ⟨b, n, l', h1, h3⟩
      · rw [if_neg c]
        exact ⟨fun _ => ⟨[], m, l, c, rfl⟩, fun _ => rfl⟩
    | none => exact ⟨(fun h => nomatch h), fun ⟨b, n, l', _, h⟩ => by cases b <;> cases h⟩
    | str s => exact ⟨(fun h => nomatch h), fun ⟨b, n, l', _, h⟩ => by cases b <;> cases h⟩
    | bytes s => exact ⟨(fun h => nomatch h), fun ⟨b, n, l', _, h⟩ => by cases b <;> cases h⟩
    | bytearray s => exact ⟨(fun h => nomatch h), fun ⟨b, n, l', _, h⟩ => by cases b <;> cases h⟩
    | obj c a s => exact ⟨(fun h => nomatch h), fun ⟨b, n, l', _, h⟩ => by cases b <;> cases h⟩
    | list s => exact ⟨(fun h => nomatch h), fun ⟨b, n, l', _, h⟩ => by cases b <;> cases h⟩
    | tuple s => exact ⟨(fun h => nomatch h), fun ⟨b, n, l', _, h⟩ => by cases b <;> cases h⟩

theorem octets_value {v : Val} : v.octets = .error .valueError ↔ OutOfRange v := by
  unfold OutOfRange
  cases v <;> simp [Val.octets, byteList_value]

theorem octets_error {v : Val} {e : PyErr} (h : v.octets = .error e) : e = .valueError ∨ e = .typeError := by
  cases v with
  | list l => exact byteList_error h
  | tuple l => exact byteList_error h
  | none => cases h; exact .inr rfl
  | int n => cases h; exact .inr rfl
  | str s => cases h; exact .inr rfl
  | bytes b => cases h
  | bytearray b => cases h
  | obj c a b => cases h

/-- C135, what they refuse: a list or tuple whose first element that is no byte is an integer with a ValueError, everything else with a TypeError. -/
theorem C135_refused (v signed : Val) (e : PyErr) :
    (Val.le2iOf v signed = .error e ↔ (∀ b, ¬ Octets v b) ∧ (e = .valueError ∧ OutOfRange v ∨ e = .typeError ∧ ¬ OutOfRange v)) ∧
    (Val.be2iOf v signed = .error e ↔ (∀ b, ¬ Octets v b) ∧ (e = .valueError ∧ OutOfRange v ∨ e = .typeError ∧ ¬ OutOfRange v)) := by
  have key : v.octets = .error e ↔ (∀ b, ¬ Octets v b) ∧ (e = .valueError ∧ OutOfRange v ∨ e = .typeError ∧ ¬ OutOfRange v) := by
    cases h : v.octets with
    | ok b => exact ⟨(fun h => nomatch h), fun c => absurd (octets_iff.1 h) (c.1 b)⟩
    | error e' =>
      have h0 : ∀ b, ¬ Octets v b := fun b hb => by rw [← octets_iff, h] at hb; cases hb
      by_cases c : OutOfRange v
      · have := octets_value.2 c
        rw [h] at this
        cases this
        constructor
        · intro g; cases g; exact ⟨h0, .inl ⟨rfl, c⟩⟩
        · rintro ⟨-, ⟨rfl, -⟩ | ⟨-, c'⟩⟩
          · rfl
          · exact absurd c c'
      · have : e' = .typeError := by
          rcases octets_error h with rfl | rfl
          · exact absurd (octets_value.1 h) c
          · rfl
        subst this
        constructor
        · intro g; cases g; exact ⟨h0, .inr ⟨rfl, c⟩⟩
        · rintro ⟨-, ⟨-, c'⟩ | ⟨rfl, -⟩⟩
          · exact absurd c' c
          · rfl
  constructor
  · rw [← key]
    unfold Val.le2iOf
    cases v.octets with
    | ok b => exact ⟨(fun h => nomatch h), (fun h => nomatch h)⟩
    | error e' => exact ⟨fun h => by cases h; rfl, fun h => by cases h; rfl⟩
  · rw [← key]
    unfold Val.be2iOf
    cases v.octets with
    | ok b => exact ⟨(fun h => nomatch h), (fun h => nomatch h)⟩
    | error e' => exact ⟨fun h => by cases h; rfl, fun h => by cases h; rfl⟩

theorem octets_reverse {v w : Val} (h : Val.changeEndiannessOf v = .ok w) (b : Bytes) : Octets w b ↔ Octets v b.reverse := by
  unfold Octets Byteslike
  cases v with
  | none => cases h
  | int n => cases h
  | str s => cases h; simp [Val.content]
  | bytes x => cases h; simp only [Val.content, Option.some.injEq, reduceCtorEq, or_false]; exact List.reverse_eq_iff
  | bytearray x => cases h; simp only [Val.content, Option.some.injEq, reduceCtorEq, or_false]; exact List.reverse_eq_iff
  | obj c a x => cases h; simp only [Val.content, Option.some.injEq, reduceCtorEq, or_false]; exact List.reverse_eq_iff
  | list l => cases h; simp only [Val.content, reduceCtorEq, false_or, or_false, Val.list.injEq, List.map_reverse]; exact List.reverse_eq_iff
  | tuple l => cases h; simp only [Val.content, reduceCtorEq, false_or, Val.tuple.injEq, List.map_reverse]; exact List.reverse_eq_iff

/-- C135: `change_endianness` exchanges the two, on every value it takes. -/
theorem C135_mirror (v w signed : Val) (n : Int) (h : Val.changeEndiannessOf v = .ok w) :
    (Val.be2iOf w signed = .ok n ↔ Val.le2iOf v signed = .ok n) ∧ (Val.le2iOf w signed = .ok n ↔ Val.be2iOf v signed = .ok n) := by
  have e : ∀ b : Bytes, beValue b.reverse = leValue b := fun b => by rw [← be_eq_beValue, ← leToNat_eq_leValue, List.reverse_reverse]
  constructor
  · rw [C135_be2i, C135_le2i]
    constructor
    · rintro ⟨b, h1, h2, h3⟩
      refine ⟨b.reverse, (octets_reverse h b).1 h1, ?_, h3⟩
      rw [← e, List.reverse_reverse]; exact h2
    · rintro ⟨b, h1, h2, h3⟩
      refine ⟨b.reverse, (octets_reverse h _).2 (by rwa [List.reverse_reverse]), ?_, ?_⟩
      · rw [e]; exact h2
      · rw [List.reverse_reverse]; exact h3
  · rw [C135_be2i, C135_le2i]
    constructor
    · rintro ⟨b, h1, h2, h3⟩
      refine ⟨b.reverse, (octets_reverse h b).1 h1, ?_, ?_⟩
      · rw [e]; exact h2
      · rw [List.reverse_reverse]; exact h3
    · rintro ⟨b, h1, h2, h3⟩
      refine ⟨b.reverse, (octets_reverse h _).2 (by rwa [List.reverse_reverse]), ?_, h3⟩
      rw [← e, List.reverse_reverse]; exact h2

/-- C135: `i2le_padded` and `i2be_padded` take an integer and a length, and give the bytes of that length with the value. -/
theorem C135_padded (v length : Val) (b : Bytes) :
    (Val.i2lePaddedOf v length = .ok b ↔ v = .int (leValue b) ∧ length = .int b.length) ∧
    (Val.i2bePaddedOf v length = .ok b ↔ v = .int (beValue b) ∧ length = .int b.length) := by
  have key : ∀ (f : Int → Nat → Py Bytes) (g : Bytes → Nat), (∀ n k b, f n k = .ok b ↔ b.length = k ∧ (g b : Int) = n) →
      ((match v with
        | .int n => match length with
          | .int k => if k < 0 then Except.error PyErr.valueError else f n k.toNat
          | _ => .error .typeError
        | .obj _ _ _ => .error .typeError
        | _ => .error .attributeError) = .ok b ↔ v = .int (g b) ∧ length = .int b.length) := by
    intro f g hf
    cases v with
    | int n =>
      cases length with
      | int k =>
        simp only [Val.int.injEq]
        by_cases c : k < 0
        · rw [if_pos c]
          exact ⟨(fun h => nomatch h), fun h => by omega⟩
        · rw [if_neg c, hf]
          constructor <;> rintro ⟨h1, h2⟩ <;> constructor <;> omega
      | _ => simp
    | _ => simp
  exact ⟨key i2lePadded leValue C01_i2le_padded_spec, key i2bePadded beValue C02_i2be_padded_spec⟩

theorem i2le_iff' (n : Int) (b : Bytes) : i2le n = .ok b ↔ n = leValue b ∧ b ≠ [] ∧ (b.getLast? = some 0 → b = [0]) := by
  rcases Int.lt_or_le n 0 with hn | hn
  · rw [i2le_neg hn]
    exact ⟨(fun h => nomatch h), fun h => by omega⟩
  · obtain ⟨m, rfl⟩ := Int.eq_ofNat_of_zero_le hn
    obtain ⟨b0, h1, h2, h3, h4, h5⟩ := C03_i2le_minimal m
    have h0 : b0 ≠ [] := by
      rintro rfl
      rcases Nat.eq_zero_or_pos m with c | c
      · exact nomatch h3 c
      · rw [leValue_nil] at h2; omega
    rw [h1]
    constructor
    · intro h
      injection h with h
      subst h
      refine ⟨by rw [h2], h0, fun hz => ?_⟩
      rcases Nat.eq_zero_or_pos m with c | c
      · exact h3 c
      · exact absurd hz (h4 c)
    · rintro ⟨h6, h7, h8⟩
      have h6 : leValue b = m := by omega
      congr 1
      rcases List.eq_nil_or_concat b with rfl | ⟨i, t, rfl⟩
      · exact absurd rfl h7
      rw [List.concat_eq_append] at *
      have hle : b0.length ≤ (i ++ [t]).length := h5 _ h7 h6
      by_cases ht : t = 0
      · subst ht
        have h8 := h8 (by simp)
        rw [h8] at h6 hle ⊢
        have : m = 0 := by rw [← h6]; decide
        exact h3 this
      · apply leToNat_inj_of_length ?_ (by rw [leToNat_eq_leValue, leToNat_eq_leValue, h2, h6])
        have ha : 256 ^ i.length ≤ m := by
          rw [← h6, ← leToNat_eq_leValue, leToNat_append]
          have : 1 ≤ leToNat [t] := by
            have : t.toNat ≠ 0 := fun c => ht (UInt8.toNat_inj.1 c)
            simp only [leToNat]; omega
          exact Nat.le_trans (Nat.le_mul_of_pos_right _ this) (Nat.le_add_left _ _)
        have hb : m < 256 ^ b0.length := by rw [← h2, ← leToNat_eq_leValue]; exact leToNat_lt b0
        have hc := (Nat.pow_lt_pow_iff_right (show 1 < 256 by omega)).1 (Nat.lt_of_le_of_lt ha hb)
        simp only [List.length_append, List.length_singleton] at hle ⊢
        omega

/-- C135: `i2le` and `i2be` take an integer, and give the shortest bytes with the value, at least one. -/
theorem C135_shortest (v : Val) (b : Bytes) :
    (Val.i2leOf v = .ok b ↔ v = .int (leValue b) ∧ b ≠ [] ∧ (b.getLast? = some 0 → b = [0])) ∧
    (Val.i2beOf v = .ok b ↔ v = .int (beValue b) ∧ b ≠ [] ∧ (b.head? = some 0 → b = [0])) := by
  cases v with
  | int n =>
    constructor
    · simp only [Val.i2leOf, i2le_iff', Val.int.injEq]
    · simp only [Val.i2beOf, C03_i2be, i2le_iff', Val.int.injEq, changeEndianness]
      rw [← be_eq_beValue, ← leToNat_eq_leValue, List.getLast?_reverse]
      simp [List.reverse_eq_iff]
  | _ => simp [Val.i2leOf, Val.i2beOf]

/-! ### base58 -/

theorem base58_unique {d : Bytes} {s : PyStr} : Base58.enc d = s ↔ IsBase58 d s := by
  rw [Base58.isBase58_iff]
  exact ⟨fun h => h ▸ ⟨Base58.enc_alphabet _, Base58.dec_enc _⟩, fun h => h.2 ▸ Base58.enc_dec s h.1⟩

theorem toLong_octets (b : Bytes) (v pre : Nat) : Val.toLong (v : Int) pre (b.map fun x => Val.int x.toNat) =
    (do let (n, p) ← Base58.toLongLoop 256 (fun x => some x.toNat) v pre b; .ok ((n : Int), p)) := by
  induction b generalizing v pre with
  | nil => rfl
  | cons x b ih =>
    have e : ((v : Int) * 256 + (x.toNat : Int)) = ((v * 256 + x.toNat : Nat) : Int) := by push_cast; rfl
    simp only [List.map_cons, Val.toLong, Base58.toLongLoop, e, ih]
    simp only [Int.natCast_eq_zero]

theorem base58Encode_octets (E : Env) (v : Val) (b : Bytes) (h : Octets v b) (ck : Val) (hk : ck.truthy = false) : Val.base58Encode E v ck = .ok (Base58.enc b) := by
  have key : (do
      let (n, pre) ← Val.toLong 0 0 (b.map fun x : UInt8 => Val.int x.toNat)
      let out ← Base58.fromLong n.toNat pre Base58.base (fun v => Base58.alphabet[v]?)
      (.ok (Base58.asciiDecode out) : Py PyStr)) = .ok (Base58.enc b) := by
    have e := toLong_octets b 0 0
    have hc := Base58.encode_core b
    rw [show (0 : Int) = ((0 : Nat) : Int) from rfl, e]
    unfold Base58.toLong at hc
    rw [← hc]
    cases Base58.toLongLoop 256 (fun x : UInt8 => some x.toNat) 0 0 b with
    | error e => rfl
    | ok r => rfl
  have he : Base58.encode E b false = .ok (Base58.enc b) := encode_eq E b false
  rcases h with h | rfl | rfl
  · cases v with
    | bytes x => cases h; unfold Val.base58Encode; rw [hk]; exact he
    | bytearray x => cases h; unfold Val.base58Encode; rw [hk]; exact he
    | obj c a x => cases h; unfold Val.base58Encode; rw [hk]; exact key
    | _ => exact nomatch h
  · unfold Val.base58Encode; rw [hk]; exact key
  · unfold Val.base58Encode; rw [hk]; exact key

/-- C135: with a checksum, base58 is made of bytes and bytearrays only, all else is a TypeError, on every network. -/
theorem C135_base58_check (E : Env) (v ck : Val) (hk : ¬ IsFalse ck) (r : Py PyStr) : Val.base58Encode E v ck = r ↔
    (∃ b s, (v = .bytes b ∨ v = .bytearray b) ∧ IsBase58 (b ++ (E.hash256 b).take 4) s ∧ r = .ok s) ∨ ¬ RawBytes v ∧ r = .error .typeError := by
  rw [← truthy_iff] at hk
  have he : ∀ b, Base58.encode E b true = .ok (Base58.enc (b ++ (E.hash256 b).take 4)) := fun b => encode_eq E b true
  unfold RawBytes
  cases v with
  | bytes b =>
    unfold Val.base58Encode
    simp only [hk, he, Val.bytes.injEq, reduceCtorEq, or_false, ← base58_unique]
    simp [eq_comm]
  | bytearray b =>
    unfold Val.base58Encode
    simp only [hk, he, Val.bytearray.injEq, reduceCtorEq, false_or, ← base58_unique]
    simp [eq_comm]
  | _ => unfold Val.base58Encode; simp [hk, eq_comm]

/-- C135: without one, of all values that stand for bytes, and it is read back as them. -/
theorem C135_base58_plain (E : Env) (v ck : Val) (b : Bytes) (h : Octets v b) (hk : IsFalse ck) (s : PyStr) :
    (Val.base58Encode E v ck = .ok s ↔ IsBase58 b s) ∧ (Val.base58Encode E v ck = .ok s → Val.base58Decode E (.str s) ck = .ok b) := by
  have hk : ck.truthy = false := by
    cases c : ck.truthy
    · rfl
    · exact absurd hk ((truthy_iff ck).1 c)
  rw [base58Encode_octets E v b h ck hk]
  constructor
  · rw [← base58_unique]; simp
  · intro e
    injection e with e
    obtain ⟨h1, h2⟩ := (Base58.isBase58_iff b s).1 (base58_unique.1 e)
    unfold Val.base58Decode
    simp only [hk, decode_raw_eq]
    rw [if_pos h1, h2]

theorem toLong_error (l : List Val) (v : Int) (pre : Nat) (e : PyErr) : Val.toLong v pre l = .error e ↔ e = .valueError ∧ ∃ x ∈ l, ∀ n, x ≠ .int n := by
  induction l generalizing v pre with
  | nil => simp [Val.toLong]
  | cons x l ih =>
    cases x with
    | int c => rw [Val.toLong, ih]; simp
    | _ => simp [Val.toLong, eq_comm]

/-- C135, what base58 without a checksum refuses: None and numbers with a TypeError; text, and lists and tuples with an element that is no integer, with a ValueError. -/
theorem C135_base58_refused (E : Env) (v ck : Val) (hk : IsFalse ck) (e : PyErr) : Val.base58Encode E v ck = .error e ↔
    e = .typeError ∧ (v = .none ∨ ∃ n, v = .int n) ∨
    e = .valueError ∧ ((∃ c s, v = .str (c :: s)) ∨ ∃ l, (v = .list l ∨ v = .tuple l) ∧ ∃ x ∈ l, ∀ n, x ≠ .int n) := by
  have hk : ck.truthy = false := by
    cases c : ck.truthy
    · rfl
    · exact absurd hk ((truthy_iff ck).1 c)
  have key : ∀ l : List Val, ((Val.toLong 0 0 l >>= fun r => Base58.fromLong r.1.toNat r.2 Base58.base (fun v => Base58.alphabet[v]?) >>= fun out =>
      (.ok (Base58.asciiDecode out) : Py PyStr)) = .error e) ↔ e = .valueError ∧ ∃ x ∈ l, ∀ n, x ≠ .int n := by
    intro l
    rw [← toLong_error l 0 0 e]
    cases Val.toLong 0 0 l with
    | error e' => exact ⟨fun h => by cases h; rfl, fun h => by cases h; rfl⟩
    | ok r =>
      rw [ok_bind, Base58.fromLong_ok Base58.base _ Base58.b58Byte (by rw [Base58.base_eq]; omega)
        (fun k hk => (Base58.digit_facts k (by rw [Base58.base_eq] at hk; exact hk)).1), ok_bind]
      exact ⟨(fun h => nomatch h), (fun h => nomatch h)⟩
  have enc_ok : ∀ b, Base58.encode E b false = .ok (Base58.enc b) := fun b => encode_eq E b false
  cases v with
  | none => simp [Val.base58Encode, hk, Val.iter, bind, Except.bind, eq_comm]
  | int n => simp [Val.base58Encode, hk, Val.iter, bind, Except.bind, eq_comm]
  | bytes b => simp [Val.base58Encode, hk, enc_ok]
  | bytearray b => simp [Val.base58Encode, hk, enc_ok]
  | obj c a b =>
    have h : Octets (Val.obj c a b) b := by unfold Octets; exact .inl (by simp [Byteslike, Val.content])
    rw [base58Encode_octets E _ b h ck hk]; simp
  | str s =>
    unfold Val.base58Encode
    rw [hk]
    refine (key _).trans ?_
    cases s <;> simp
  | list l =>
    unfold Val.base58Encode
    rw [hk]
    refine (key _).trans ?_
    simp
  | tuple l =>
    unfold Val.base58Encode
    rw [hk]
    refine (key _).trans ?_
    simp

/-- base58 of the number 7 is a TypeError, of `[1, None]` a ValueError. -/
example : Val.base58Encode toyEnv (.int 7) .none = .error .typeError ∧ Val.base58Encode toyEnv (.list [.int 1, .none]) .none = .error .valueError :=
  ⟨(C135_base58_refused toyEnv _ .none (.inl rfl) _).2 (.inl ⟨rfl, .inr ⟨7, rfl⟩⟩),
    (C135_base58_refused toyEnv _ .none (.inl rfl) _).2 (.inr ⟨rfl, .inr ⟨_, .inl rfl, .none, by simp, (fun _ h => nomatch h)⟩⟩)⟩

/-- C135: only strings are decoded; a string that is not base58 is a ValueError, all else an AttributeError. -/
theorem C135_base58_decode (E : Env) (hH : E.H.LengthOK) (v ck : Val) (r : Py Bytes) : Val.base58Decode E v ck = r ↔
    (∃ s b, v = .str s ∧ (IsFalse ck → IsBase58 b s) ∧ (¬ IsFalse ck → IsBase58 (b ++ (E.hash256 b).take 4) s) ∧ r = .ok b) ∨
    (∃ s, v = .str s ∧ r = .error .valueError ∧ ∀ b, ¬ ((IsFalse ck → IsBase58 b s) ∧ (¬ IsFalse ck → IsBase58 (b ++ (E.hash256 b).take 4) s))) ∨
    (∀ s, v ≠ .str s) ∧ r = .error .attributeError := by
  cases v with
  | str s =>
    have key : ∀ b, Base58.decode E s ck.truthy = .ok b ↔ (IsFalse ck → IsBase58 b s) ∧ (¬ IsFalse ck → IsBase58 (b ++ (E.hash256 b).take 4) s) := by
      intro b
      cases c : ck.truthy
      · have hf : IsFalse ck := by by_contra h; rw [← truthy_iff, c] at h; cases h
        simp only [hf, true_imp_iff, not_true, false_imp_iff, and_true, decode_raw_eq, Base58.isBase58_iff]
        by_cases ha : ∀ c ∈ s, c ∈ b58Alphabet
        · rw [if_pos ha]; simp only [Except.ok.injEq]; exact ⟨fun h => ⟨ha, h⟩, fun h => h.2⟩
        · rw [if_neg ha]; exact ⟨(fun h => nomatch h), fun h => absurd h.1 ha⟩
      · have hf : ¬ IsFalse ck := by rw [← truthy_iff, c]
        simp only [hf, not_false_iff, true_imp_iff, false_imp_iff, true_and]
        exact C18_accepts_iff E hH s b
    change Base58.decode E s ck.truthy = r ↔ _
    cases hd : Base58.decode E s ck.truthy with
    | ok b =>
      have hb := (key b).1 hd
      constructor
      · rintro rfl; exact .inl ⟨s, b, rfl, hb.1, hb.2, rfl⟩
      · rintro (⟨s', b', h1, h2, h3, rfl⟩ | ⟨s', h1, -, h2⟩ | ⟨h1, -⟩)
        · cases h1; rw [← hd]; exact (key b').2 ⟨h2, h3⟩
        · cases h1; exact absurd hb (h2 b)
        · exact absurd rfl (h1 s)
    | error e =>
      have he : e = .valueError := C18_only_valueError E s _ e hd
      subst he
      have hn : ∀ b, ¬ ((IsFalse ck → IsBase58 b s) ∧ (¬ IsFalse ck → IsBase58 (b ++ (E.hash256 b).take 4) s)) := fun b hb => by
        rw [← key, hd] at hb; cases hb
      constructor
      · rintro rfl; exact .inr (.inl ⟨s, rfl, rfl, hn⟩)
      · rintro (⟨s', b', h1, h2, h3, rfl⟩ | ⟨s', h1, rfl, h2⟩ | ⟨h1, -⟩)
        · cases h1; exact absurd ⟨h2, h3⟩ (hn b')
        · rfl
        · exact absurd rfl (h1 s)
  | _ => simp [Val.base58Decode, eq_comm]

/-- C135: without a checksum also of lists of other integers, as if the excess were carried over: what is read back is not what was given. -/
theorem C135_base58_false (E : Env) : ¬ (∃ b, Octets (.list [.int 300]) b) ∧ ∃ s, Val.base58Encode E (.list [.int 300]) .none = .ok s ∧ Val.base58Decode E (.str s) .none = .ok [1, 44] := by
  have e : Val.base58Encode E (.list [.int 300]) .none = .ok (Base58.enc [1, 44]) := by
    have hc := Base58.encode_core [1, 44]
    have h1 : Base58.toLong 256 (fun x => some x.toNat) [1, 44] = .ok (300, 0) := by decide +kernel
    have h2 : Val.toLong 0 0 [.int 300] = .ok (300, 0) := rfl
    rw [h1, ok_bind] at hc
    have h3 : Val.base58Encode E (.list [.int 300]) .none = (Val.toLong 0 0 [.int 300] >>= fun r =>
        Base58.fromLong r.1.toNat r.2 Base58.base (fun v => Base58.alphabet[v]?) >>= fun out => .ok (Base58.asciiDecode out)) := rfl
    rw [h3, h2, ok_bind]
    exact hc
  refine ⟨?_, Base58.enc [1, 44], e, ?_⟩
  · rintro ⟨b, h | h | h⟩
    · exact nomatch h
    · injection h with h
      cases b with
      | nil => exact nomatch h
      | cons x b =>
        injection h with h _
        injection h with h
        have := x.toNat_lt
        omega
    · exact nomatch h
  · exact (C135_base58_plain E (.bytes [1, 44]) .none [1, 44] (.inl rfl) (.inl rfl) _).2 (base58Encode_octets E (.bytes [1, 44]) [1, 44] (.inl rfl) .none rfl)

/-! ### compact sizes -/

theorem make_three {n : Nat} (h : n < 2 ^ 64) (h1 : 2 ^ 16 ≤ n) : ∃ m, VarInt.make (n : Int) (some 3) = .ok ⟨0xfd :: m, n⟩ ∧ leValue m = n ∧ m.getLast? ≠ some 0 := by
  obtain ⟨m, hm, h2, -, h3, -⟩ := C03_i2le_minimal n
  have hl : 3 ≤ m.length := by
    by_contra c
    have := leToNat_lt m
    rw [leToNat_eq_leValue, h2] at this
    have := Nat.lt_of_lt_of_le this (Nat.pow_le_pow_right (show 0 < 256 by omega) (show m.length ≤ 2 by omega))
    omega
  refine ⟨m, ?_, h2, h3 (by omega)⟩
  unfold VarInt.make
  rw [if_neg (by omega), if_neg (by omega), if_neg (by omega), if_pos (.inr rfl), hm]
  simp [show 3 - (m.length + 1) = 0 by omega]

theorem make_five {n : Nat} (h : n < 2 ^ 64) (h1 : 2 ^ 32 ≤ n) : ∃ m, VarInt.make (n : Int) (some 5) = .ok ⟨0xfe :: m, n⟩ ∧ leValue m = n ∧ m.getLast? ≠ some 0 := by
  obtain ⟨m, hm, h2, -, h3, -⟩ := C03_i2le_minimal n
  have hl : 5 ≤ m.length := by
    by_contra c
    have := leToNat_lt m
    rw [leToNat_eq_leValue, h2] at this
    have := Nat.lt_of_lt_of_le this (Nat.pow_le_pow_right (show 0 < 256 by omega) (show m.length ≤ 4 by omega))
    omega
  refine ⟨m, ?_, h2, h3 (by omega)⟩
  unfold VarInt.make
  rw [if_neg (by omega), if_neg (by omega), if_neg (by omega), if_neg (by simp; omega), if_pos (.inr rfl), hm]
  simp [show 5 - (m.length + 1) = 0 by omega]

/-- C135: `VarInt` takes integers below 2^64 only, a number beyond them is a ValueError and anything else a TypeError, whatever the length. Without a length, the object has the bytes of
the compact size. -/
theorem C135_varint (number : Val) (r : Py Val) : Dyn.varInt number .none = r ↔
    (∃ n : Nat, n < 2 ^ 64 ∧ number = .int n ∧ r = .ok (.obj .other [number] (compactSize n))) ∨
    (∃ n : Int, number = .int n ∧ ¬ (0 ≤ n ∧ n < 2 ^ 64) ∧ r = .error .valueError) ∨ (∀ n, number ≠ .int n) ∧ r = .error .typeError := by
  cases number with
  | int n =>
    by_cases c : 0 ≤ n ∧ n < 2 ^ 64
    · obtain ⟨m, rfl⟩ := Int.eq_ofNat_of_zero_le c.1
      have hm : m < 2 ^ 64 := by omega
      have e : Dyn.varInt (.int m) .none = .ok (.obj .other [.int m] (compactSize m)) := by
        unfold Dyn.varInt
        simp only [VarInt.make_nat hm, ok_bind, compactSize_eq]
      rw [e]
      constructor
      · rintro rfl; exact .inl ⟨m, hm, rfl, rfl⟩
      · rintro (⟨k, -, h, rfl⟩ | ⟨k, h, h', -⟩ | ⟨h, -⟩)
        · injection h with h
          have : m = k := by omega
          subst this; rfl
        · injection h with h; subst h; exact absurd c h'
        · exact absurd rfl (h _)
    · have e : Dyn.varInt (.int n) .none = .error .valueError := by
        unfold Dyn.varInt
        simp only [(C06_varint_range n).2 c]
        rfl
      rw [e]
      constructor
      · rintro rfl; exact .inr (.inl ⟨n, rfl, c, rfl⟩)
      · rintro (⟨k, hk, h, rfl⟩ | ⟨k, h, h', rfl⟩ | ⟨h, -⟩)
        · injection h with h; exact absurd ⟨by omega, by omega⟩ c
        · rfl
        · exact absurd rfl (h _)
  | _ => simp [Dyn.varInt, eq_comm]

/-- C135: the length that may be given does one thing: numbers below 253 get zeros up to it. For others it has no effect, except that it is wrong to ask for 3 bytes, or for 5, if the
number needs more: the object then has the prefix of the shorter form, and the bytes of the number after it. -/
theorem C135_varint_length (n : Nat) (hn : n < 2 ^ 64) (l : Int) : ∃ b, Dyn.varInt (.int n) (.int l) = .ok (.obj .other [.int n] b) ∧
    (n < 253 → b = UInt8.ofNat n :: List.replicate (l.toNat - 1) 0) ∧
    (253 ≤ n → (l = 3 → n < 2 ^ 16) → (l = 5 → n < 2 ^ 32) → b = compactSize n) ∧
    (2 ^ 16 ≤ n → l = 3 → ∃ m, b = 0xfd :: m ∧ leValue m = n ∧ m.getLast? ≠ some 0) ∧
    (2 ^ 32 ≤ n → l = 5 → ∃ m, b = 0xfe :: m ∧ leValue m = n ∧ m.getLast? ≠ some 0) := by
  have key : ∀ v, VarInt.make (n : Int) (some l.toNat) = .ok v → Dyn.varInt (.int n) (.int l) = .ok (.obj .other [.int n] v.bytes) := by
    intro v h
    unfold Dyn.varInt
    simp only [h, ok_bind]
  by_cases c : n < 253
  · exact ⟨_, key _ (make_small_eq c _), fun _ => rfl, fun h => by omega, fun h => by omega, fun h => by omega⟩
  by_cases c3 : 2 ^ 16 ≤ n ∧ l = 3
  · obtain ⟨h1, rfl⟩ := c3
    obtain ⟨m, hm, h2, h3⟩ := make_three hn h1
    exact ⟨_, key _ hm, fun h => absurd h c, fun _ h => absurd (h rfl) (by omega), fun _ _ => ⟨m, rfl, h2, h3⟩, fun _ h => by omega⟩
  by_cases c5 : 2 ^ 32 ≤ n ∧ l = 5
  · obtain ⟨h1, rfl⟩ := c5
    obtain ⟨m, hm, h2, h3⟩ := make_five hn h1
    exact ⟨_, key _ hm, fun h => absurd h c, fun _ _ h => absurd (h rfl) (by omega), fun _ h => by omega, fun _ _ => ⟨m, rfl, h2, h3⟩⟩
  · refine ⟨_, key _ (VarInt.make_ge253 hn (by omega) _ ?_ ?_), fun h => absurd h c, fun _ _ _ => (compactSize_eq n).symm, fun h h' => absurd ⟨h, h'⟩ c3, fun h h' => absurd ⟨h, h'⟩ c5⟩
    · intro h; injection h with h
      by_contra g; exact c3 ⟨by omega, by omega⟩
    · intro h; injection h with h
      by_contra g; exact c5 ⟨by omega, by omega⟩

/-- C135: so an object asked for with the length 3 can be read as another number, on every network. -/
theorem C135_varint_false (net : Network) : ∃ b v, Dyn.varInt (.int 70000) (.int 3) = .ok (.obj .other [.int 70000] b) ∧ VarInt.fromBytes net b = .ok v ∧ v.number = 4464 := by
  refine ⟨[0xfd, 0x70, 0x11, 0x01], ⟨[0xfd, 0x70, 0x11], 4464⟩, rfl, ?_, rfl⟩
  unfold VarInt.fromBytes
  simp only [VarInt.split]
  rfl

/-- C135: a length that is not an integer is refused with a TypeError if the number is below 253, or if it has more than two bytes and the length is an object of the library. Otherwise it
has no effect. -/
theorem C135_varint_other (n : Nat) (hn : n < 2 ^ 64) (l : Val) (h0 : l ≠ .none) (h1 : ∀ k, l ≠ .int k) :
    (n < 253 ∨ 2 ^ 16 ≤ n ∧ (∃ c a b, l = .obj c a b) → Dyn.varInt (.int n) l = .error .typeError) ∧
    (¬ (n < 253 ∨ 2 ^ 16 ≤ n ∧ ∃ c a b, l = .obj c a b) → Dyn.varInt (.int n) l = .ok (.obj .other [.int n] (compactSize n))) := by
  have e : (VarInt.make (n : Int) >>= fun v => Except.ok (Val.obj .other [.int n] v.bytes)) = .ok (.obj .other [.int n] (compactSize n)) := by
    rw [VarInt.make_nat hn, ok_bind, compactSize_eq]
  cases l with
  | none => exact absurd rfl h0
  | int k => exact absurd rfl (h1 k)
  | obj c a b =>
    unfold Dyn.varInt
    simp only [e]
    rw [if_neg (by omega)]
    constructor
    · intro h
      by_cases c1 : n < 253
      · rw [if_pos (by omega)]
      · rw [if_neg (by omega), if_neg (by omega)]
    · intro h
      have h2 : ¬ n < 253 := fun c => h (.inl c)
      have h3 : ¬ 2 ^ 16 ≤ n := fun g => h (.inr ⟨g, c, a, b, rfl⟩)
      rw [if_neg (by omega), if_pos (by omega)]
  | _ =>
    unfold Dyn.varInt
    simp only [e, reduceCtorEq, exists_false, and_false, or_false]
    rw [if_neg (by omega)]
    exact ⟨fun h => by rw [if_pos (by omega)], fun h => by rw [if_neg (by omega)]⟩

/-- C135: nothing but an integer is taken for a number: an object of the library is refused with a TypeError, anything else with an AttributeError. -/
theorem C135_not_int (v l : Val) (h : ∀ n, v ≠ .int n) :
    ((∃ c a b, v = .obj c a b) → Val.i2leOf v = .error .typeError ∧ Val.i2beOf v = .error .typeError ∧ Val.i2leScriptOf v = .error .typeError ∧
      Val.i2lePaddedOf v l = .error .typeError ∧ Val.i2bePaddedOf v l = .error .typeError) ∧
    ((∀ c a b, v ≠ .obj c a b) → Val.i2leOf v = .error .attributeError ∧ Val.i2beOf v = .error .attributeError ∧ Val.i2leScriptOf v = .error .attributeError ∧
      Val.i2lePaddedOf v l = .error .attributeError ∧ Val.i2bePaddedOf v l = .error .attributeError) := by
  cases v with
  | int n => exact absurd rfl (h n)
  | obj c a b => exact ⟨fun _ => ⟨rfl, rfl, rfl, rfl, rfl⟩, fun h => absurd rfl (h c a b)⟩
  | _ => exact ⟨fun ⟨_, _, _, h⟩ => (nomatch h), fun _ => ⟨rfl, rfl, rfl, rfl, rfl⟩⟩

/-- C135: which integers are refused: negative numbers and numbers too big for the length with an OverflowError, a negative length with a ValueError, a length that is no integer with a
TypeError. -/
theorem C135_int_refused (n : Int) (l : Val) (e : PyErr) :
    (Val.i2leOf (.int n) = .error e ↔ n < 0 ∧ e = .overflowError) ∧ (Val.i2beOf (.int n) = .error e ↔ n < 0 ∧ e = .overflowError) ∧
    (Val.i2lePaddedOf (.int n) l = .error e ↔ (∀ k, l ≠ .int k) ∧ e = .typeError ∨
      ∃ k : Int, l = .int k ∧ (k < 0 ∧ e = .valueError ∨ 0 ≤ k ∧ ¬ (0 ≤ n ∧ n < (256 ^ k.toNat : Nat)) ∧ e = .overflowError)) ∧
    (Val.i2bePaddedOf (.int n) l = .error e ↔ Val.i2lePaddedOf (.int n) l = .error e) := by
  have h1 : Val.i2leOf (.int n) = .error e ↔ n < 0 ∧ e = .overflowError := by
    rcases Int.lt_or_le n 0 with hn | hn
    · simp only [Val.i2leOf, (C03_negative n hn).1, Except.error.injEq, hn, true_and, eq_comm]
    · obtain ⟨m, rfl⟩ := Int.eq_ofNat_of_zero_le hn
      obtain ⟨b, hb, -⟩ := C03_i2le_minimal m
      simp only [Val.i2leOf, hb, reduceCtorEq, false_iff]
      omega
  have h2 : Val.i2beOf (.int n) = .error e ↔ n < 0 ∧ e = .overflowError := by
    rcases Int.lt_or_le n 0 with hn | hn
    · simp only [Val.i2beOf, (C03_negative n hn).2, Except.error.injEq, hn, true_and, eq_comm]
    · obtain ⟨m, rfl⟩ := Int.eq_ofNat_of_zero_le hn
      obtain ⟨b, hb, -⟩ := C03_i2le_minimal m
      have : i2be (m : Int) = .ok (changeEndianness b) := (C03_i2be _ _).2 (by rw [hb]; simp [changeEndianness])
      simp only [Val.i2beOf, this, reduceCtorEq, false_iff]
      omega
  have key : ∀ f : Int → Nat → Py Bytes, (∀ n k, ((∃ b, f n k = .ok b) ↔ 0 ≤ n ∧ n < (256 ^ k : Nat)) ∧ (¬ (0 ≤ n ∧ n < (256 ^ k : Nat)) → f n k = .error .overflowError)) →
      ((match l with
        | .int k => if k < 0 then Except.error PyErr.valueError else f n k.toNat
        | _ => .error .typeError) = .error e ↔ (∀ k, l ≠ .int k) ∧ e = .typeError ∨
      ∃ k : Int, l = .int k ∧ (k < 0 ∧ e = .valueError ∨ 0 ≤ k ∧ ¬ (0 ≤ n ∧ n < (256 ^ k.toNat : Nat)) ∧ e = .overflowError)) := by
    intro f hf
    cases l with
    | int k =>
      simp only [ne_eq, Val.int.injEq, forall_eq', false_and, false_or, exists_eq_left']
      by_cases c : k < 0
      · rw [if_pos c]
        simp only [Except.error.injEq, c, true_and, show ¬ 0 ≤ k by omega, false_and, or_false, eq_comm]
      · rw [if_neg c]
        simp only [c, false_and, false_or, show 0 ≤ k by omega, true_and]
        by_cases g : 0 ≤ n ∧ n < (256 ^ k.toNat : Nat)
        · obtain ⟨b, hb⟩ := (hf n k.toNat).1.2 g
          simp only [hb, reduceCtorEq, g, and_self, not_true, false_and]
        · simp only [(hf n k.toNat).2 g, Except.error.injEq, g, not_false_iff, true_and, eq_comm]
    | _ => simp [eq_comm]
  refine ⟨h1, h2, key i2lePadded C01_i2le_padded_range, ?_⟩
  exact (key i2bePadded C02_i2be_padded_range).trans (key i2lePadded C01_i2le_padded_range).symm

/-- Values of all these kinds. -/
example : Octets (.list [.int 1, .int 2]) [1, 2] ∧ Octets (.obj .txOut [] [1, 2]) [1, 2] ∧ Val.le2iOf (.tuple [.int 1, .int 2]) (.int 0) = .ok 513 ∧
    Val.be2iOf (.bytearray [255, 2]) (.str ['x']) = .ok (-254) ∧ OutOfRange (.list [.int 7, .int 256, .none]) ∧
    Val.le2iOf (.list [.int 7, .int 256, .none]) .none = .error .valueError ∧ Val.le2iOf (.list [.int 7, .none, .int 256]) .none = .error .typeError ∧
    Val.i2lePaddedOf (.int 513) (.int 3) = .ok [1, 2, 0] ∧ Val.i2beOf (.int 513) = .ok [2, 1] ∧ Val.i2leScriptOf (.int 255) = .ok (pystr "ff00") :=
  ⟨.inr (.inl rfl), .inl rfl, by decide +kernel, by decide +kernel, ⟨[7], 256, [.none], by omega, .inl rfl⟩, by decide +kernel, by decide +kernel, by decide +kernel, by decide +kernel,
    by decide +kernel⟩

example : (Val.base58Encode toyEnv (.bytearray [0, 1, 2]) (.int 1)).isOk = true ∧ Val.base58Encode toyEnv (.tuple [.int 0, .int 57]) .none = .ok (pystr "1z") ∧
    Val.base58Decode toyEnv (.str (pystr "1z")) .none = .ok [0, 57] ∧ Val.base58Decode toyEnv (.str (pystr "0")) .none = .error .valueError := by
  refine ⟨?_, ?_, ?_, ?_⟩ <;> decide +kernel

/-- C135: `change_endianness` twice gives the value back, with its type; of an object of the library, its bytes. Numbers and None raise TypeError. -/
theorem C135_reversed_twice (v : Val) :
    ((v = .none ∨ ∃ n, v = .int n) → Val.changeEndiannessOf v = .error .typeError) ∧
    (¬ (v = .none ∨ ∃ n, v = .int n) → ∃ w, Val.changeEndiannessOf v = .ok w ∧
      ((∀ c a b, v ≠ .obj c a b) → Val.changeEndiannessOf w = .ok v) ∧ ∀ c a b, v = .obj c a b → Val.changeEndiannessOf w = .ok (.bytes b)) := by
  cases v <;> simp [Val.changeEndiannessOf]

example : ∃ w, Val.changeEndiannessOf (.bytearray [1, 2]) = .ok w ∧ Val.changeEndiannessOf w = .ok (.bytearray [1, 2]) := by
  obtain ⟨w, h, h', -⟩ := (C135_reversed_twice (.bytearray [1, 2])).2 (by simp)
  exact ⟨w, h, h' (by simp)⟩

/-- C135: `has_checksum` says of a string whether it is the base58 of some data and its checksum; anything else is an AttributeError. -/
theorem C135_has_checksum (E : Env) (hH : E.H.LengthOK) (v : Val) :
    (∀ s, v = .str s → ∃ r, Val.hasChecksum E v = .ok r ∧ (r = true ↔ ∃ d, IsBase58 (d ++ (E.hash256 d).take 4) s)) ∧
    ((∀ s, v ≠ .str s) → Val.hasChecksum E v = .error .attributeError) := by
  cases v with
  | str s => exact ⟨fun s' h => by cases h; exact C18_has_checksum E hH s, fun h => absurd rfl (h s)⟩
  | _ => simp [Val.hasChecksum]

/-- C135: whatever the length, `VarInt` raises ValueError for integers below 0 or from 2^64 on, and TypeError for what is no integer. -/
theorem C135_varint_range (v l : Val) : (∀ n : Int, v = .int n → n < 0 ∨ 2 ^ 64 ≤ n → Dyn.varInt v l = .error .valueError) ∧
    ((∀ n : Int, v ≠ .int n) → Dyn.varInt v l = .error .typeError) := by
  constructor
  · rintro n rfl hn
    have hn' : n < 0 ∨ 0xffffffffffffffff < n := by omega
    have hm : ∀ k, VarInt.make n k = .error .valueError := by
      intro k
      unfold VarInt.make
      rcases hn' with h | h
      · rw [if_pos h]
      · rw [if_neg (by omega), if_pos h]
    cases l <;> simp [Dyn.varInt, hm, hn', bind, Except.bind]
  · intro h
    cases v with
    | int n => exact absurd rfl (h n)
    | _ => rfl

example : Dyn.varInt (.int (2 ^ 64)) (.obj .other [] []) = .error .valueError :=
  (C135_varint_range _ _).1 _ rfl (.inr (by decide))

end Verif.Props
