import Verif.Lemmas.BchCash
import Verif.Lemmas.Bech32

namespace Verif.Cashaddr
open LinCode
open Bech32 (CHARSET symC symC_facts charset_facts regroup_back regroup_length bytes_digits ofNat_map_toNat)

theorem ofInt_ofNat (l : List Nat) : (l.map Int.ofNat).map (BitVec.ofInt 40) = l.map (BitVec.ofNat 40) := by
  rw [List.map_map]; apply List.map_congr_left; intro x _
  simp only [Function.comp_apply, Int.ofNat_eq_natCast]
  exact BitVec.ofInt_natCast 40 x

/-- The checksum symbols as naturals. -/
def checksumNat (pre : PyStr) (payload : List Int) : List Nat :=
  (List.range 8).map fun i =>
    ((polymod (prefixExpand pre ++ payload ++ [0, 0, 0, 0, 0, 0, 0, 0]) >>> (5 * (7 - i))) &&& 0x1f#40).toNat

theorem calculateChecksum_eq (pre : PyStr) (payload : List Int) :
    calculateChecksum pre payload = (checksumNat pre payload).map Int.ofNat := by
  unfold calculateChecksum checksumNat
  rw [List.map_map]; rfl

theorem checksumNat_length (pre : PyStr) (payload : List Int) : (checksumNat pre payload).length = 8 := by
  simp [checksumNat]

theorem checksumNat_digits (pre : PyStr) (payload : List Int) : Digits 5 (checksumNat pre payload) := by
  intro d hd
  simp only [checksumNat, List.mem_map] at hd
  obtain ⟨i, _, rfl⟩ := hd
  rw [BitVec.toNat_and]
  exact Nat.lt_of_le_of_lt (Nat.and_le_right) (by decide)

theorem verify_nat (pre : PyStr) (payload : List Nat) : verifyChecksum pre (payload.map Int.ofNat) =
    (polymod (prefixExpand pre ++ payload.map Int.ofNat) == 0) := by
  unfold verifyChecksum
  split
  · next v hv =>
    have := List.mem_of_getLast? hv
    rw [List.mem_map] at this
    obtain ⟨x, _, rfl⟩ := this
    simp
  · simp

theorem polymod_create (pre : PyStr) (payload : List Int) :
    polymod (prefixExpand pre ++ (payload ++ calculateChecksum pre payload)) = 0 := by
  rw [← List.append_assoc, polymod_eq, List.map_append, run_append, run_eq A_lin]
  have hc : (calculateChecksum pre payload).map (BitVec.ofInt 40) =
      (List.range 8).map fun i => (polymod (prefixExpand pre ++ payload ++ [0, 0, 0, 0, 0, 0, 0, 0]) >>> (5 * (8 - 1 - i))) &&&
        BitVec.ofNat 40 31 := by
    rw [calculateChecksum_eq, ofInt_ofNat]
    unfold checksumNat
    rw [List.map_map]
    apply List.map_congr_left
    intro i _
    simp only [Function.comp_apply]
    rw [BitVec.ofNat_toNat, BitVec.setWidth_eq]
  rw [hc, run_symbols (k := 8) rfl (A_zero A_lin) A_shift]
  have hz : polymod (prefixExpand pre ++ payload ++ [0, 0, 0, 0, 0, 0, 0, 0]) =
      A^[8] (run A 1#40 ((prefixExpand pre ++ payload).map (BitVec.ofInt 40))) ^^^ 1#40 := by
    rw [polymod_eq, List.map_append, run_append]
    congr 1
    exact run_zeros A_lin _ 8
  rw [hz, List.length_map, List.length_range]
  generalize A^[8] (run A 1#40 ((prefixExpand pre ++ payload).map (BitVec.ofInt 40))) = T
  have : T ^^^ 1#40 ^^^ T ^^^ 1#40 = (T ^^^ T) ^^^ (1#40 ^^^ 1#40) := by ac_rfl
  rw [this]; simp

theorem digits_sym {l : List Nat} (h : Digits 5 l) : ∀ x ∈ l.map (BitVec.ofNat 40), Sym x := by
  intro x hx
  rw [List.mem_map] at hx
  obtain ⟨d, hd, rfl⟩ := hx
  unfold Sym
  have := h d hd
  rw [BitVec.toNat_ofNat, Nat.mod_eq_of_lt (by omega)]
  exact this

theorem weight_zip {a b : List Nat} (ha : Digits 5 a) (hb : Digits 5 b) :
    weight (List.zipWith (· ^^^ ·) (a.map (BitVec.ofNat 40)) (b.map (BitVec.ofNat 40))) = diffs a b := by
  induction a generalizing b with
  | nil => simp [weight, diffs]
  | cons x xs ih =>
    cases b with
    | nil => simp [weight, diffs]
    | cons y ys =>
      have hi := ih (b := ys) (fun d hd => ha d (by simp [hd])) (fun d hd => hb d (by simp [hd]))
      unfold weight at hi ⊢
      simp only [List.map_cons, List.zipWith_cons_cons, List.countP_cons, diffs, hi]
      have hx := ha x (by simp)
      have hy := hb y (by simp)
      have : (BitVec.ofNat 40 x ^^^ BitVec.ofNat 40 y = 0#40) ↔ x = y := by
        rw [BitVec.xor_eq_zero_iff]
        constructor
        · intro h
          have := congrArg BitVec.toNat h
          rw [BitVec.toNat_ofNat, BitVec.toNat_ofNat] at this
          omega
        · rintro rfl; rfl
      by_cases hxy : x = y
      · simp [this, hxy]
      · simp [this, hxy, Nat.add_comm]

theorem run_verify_diff (pre : PyStr) (a b : List Nat) (hl : a.length = b.length)
    (h : verifyChecksum pre (a.map Int.ofNat) = true) (h' : verifyChecksum pre (b.map Int.ofNat) = true) :
    run A 0#40 (List.zipWith (· ^^^ ·) (a.map (BitVec.ofNat 40)) (b.map (BitVec.ofNat 40))) = 0#40 := by
  rw [verify_nat, beq_iff_eq, polymod_eq, List.map_append, run_append, ofInt_ofNat] at h h'
  generalize run A 1#40 ((prefixExpand pre).map (BitVec.ofInt 40)) = c at h h'
  have hd := run_diff A_lin c c (a.map (BitVec.ofNat 40)) (b.map (BitVec.ofNat 40)) (by simpa using hl)
  rw [BitVec.xor_self] at hd
  rw [← hd, BitVec.xor_eq_zero_iff.1 h, BitVec.xor_eq_zero_iff.1 h']
  rfl

theorem zip_sym {a b : List (BitVec 40)} (ha : ∀ x ∈ a, Sym x) (hb : ∀ x ∈ b, Sym x) :
    ∀ x ∈ List.zipWith (· ^^^ ·) a b, Sym x := by
  intro x hx
  rw [List.mem_iff_getElem] at hx
  obtain ⟨i, hi, rfl⟩ := hx
  rw [List.getElem_zipWith]
  rw [List.length_zipWith] at hi
  have h1 := ha (a[i]'(by omega)) (List.getElem_mem _)
  have h2 := hb (b[i]'(by omega)) (List.getElem_mem _)
  unfold Sym at *
  rw [BitVec.toNat_xor]
  exact Nat.xor_lt_two_pow (n := 5) h1 h2

theorem verify_single (pre : PyStr) (a b : List Nat) (ha : Digits 5 a) (hb : Digits 5 b) (hl : a.length = b.length)
    (hd : diffs a b = 1) (h : verifyChecksum pre (a.map Int.ofNat) = true) : verifyChecksum pre (b.map Int.ofNat) = false := by
  by_contra hn
  rw [Bool.not_eq_false] at hn
  exact single_error A_lin A_inj _ ((weight_zip ha hb).trans hd) (run_verify_diff pre a b hl h hn)

theorem verify_few (pre : PyStr) (a b : List Nat) (ha : Digits 5 a) (hb : Digits 5 b) (hl : a.length = b.length)
    (h128 : a.length ≤ 128) (hd : 0 < diffs a b) (hd4 : diffs a b ≤ 4) (h : verifyChecksum pre (a.map Int.ofNat) = true) :
    verifyChecksum pre (b.map Int.ofNat) = false := by
  by_contra hn
  rw [Bool.not_eq_false] at hn
  refine polymod_few (zip_sym (digits_sym ha) (digits_sym hb)) (by simp; omega) ?_ ?_ (run_verify_diff pre a b hl h hn)
  · rw [weight_zip ha hb]; exact hd
  · rw [weight_zip ha hb]; exact hd4

/-! ### strings -/

theorem b32encode_eq {ds : List Nat} (h : Digits 5 ds) : b32encode (ds.map Int.ofNat) = .ok (ds.map symC) := by
  induction ds with
  | nil => rfl
  | cons d ds ih =>
    have hlt := h d (by simp)
    have hd := symC_facts d hlt
    have h32 : CHARSET.length = 32 := by decide
    have : getItem CHARSET (Int.ofNat d) = .ok (symC d) := by
      unfold getItem pyIndex
      have hlt' : d < 32 := hlt
      simp only [Int.ofNat_eq_natCast, h32, Int.natCast_nonneg, if_true]
      rw [if_pos (by omega)]
      simp only [Int.toNat_natCast]
      rw [hd.1]
    simp only [List.map_cons, b32encode, this, ok_bind, ih (fun x hx => h x (by simp [hx]))]

theorem b32decode_symC {ds : List Nat} (h : Digits 5 ds) : b32decode (ds.map symC) = ds.map Int.ofNat := by
  unfold b32decode
  rw [List.map_map]
  apply List.map_congr_left
  intro d hd
  have := symC_facts d (h d hd)
  simp only [Function.comp_apply, charsetFind, this.2.1, if_true, this.2.2.1]
  rfl

theorem b32decode_neg {s : PyStr} (h : ∃ c ∈ s, c ∉ CHARSET) : ∃ x ∈ b32decode s, x < 0 := by
  obtain ⟨c, hc, hn⟩ := h
  refine ⟨charsetFind c, List.mem_map_of_mem hc, ?_⟩
  unfold charsetFind
  rw [if_neg (by simpa using hn)]; decide

/-- Every accepted payload consists of alphabet characters. -/
theorem charset_of_convert {s : PyStr} {p : Bool} {f t : Nat} {r : List Nat} (h : convertbits (b32decode s) f t p = some r) :
    ∀ c ∈ s, c ∈ CHARSET := by
  by_contra hn
  push Not at hn
  unfold convertbits at h
  rw [cash_convertLoop_neg _ _ _ _ _ _ (b32decode_neg hn)] at h
  cases h

theorem splitColon_ne_nil (s : PyStr) : splitColon s ≠ [] := by
  induction s with
  | nil => simp [splitColon]
  | cons c cs ih =>
    unfold splitColon
    split
    · simp
    · split <;> simp

theorem splitColon_none {s : PyStr} (h : ':' ∉ s) : splitColon s = [s] := by
  induction s with
  | nil => rfl
  | cons c cs ih =>
    simp only [List.mem_cons, not_or] at h
    unfold splitColon
    rw [if_neg (fun e => h.1 e.symm), ih h.2]

theorem splitColon_two {a b : PyStr} (ha : ':' ∉ a) (hb : ':' ∉ b) : splitColon (a ++ ':' :: b) = [a, b] := by
  induction a with
  | nil => simp [splitColon, splitColon_none hb]
  | cons c cs ih =>
    simp only [List.mem_cons, not_or] at ha
    rw [List.cons_append]
    unfold splitColon
    rw [if_neg (fun e => ha.1 e.symm), ih ha.2]

theorem splitColon_eq_one {s a : PyStr} (h : splitColon s = [a]) : a = s ∧ ':' ∉ s := by
  induction s generalizing a with
  | nil => simp [splitColon] at h; simp [h]
  | cons c cs ih =>
    unfold splitColon at h
    split at h
    · next hc => exact absurd (List.cons.inj h).2 (splitColon_ne_nil cs)
    · next hc =>
      split at h
      · next hs => exact absurd hs (splitColon_ne_nil cs)
      · next t ts hs =>
        simp only [List.cons.injEq] at h
        obtain ⟨rfl, rfl⟩ := h
        obtain ⟨rfl, hn⟩ := ih hs
        exact ⟨rfl, by simp only [List.mem_cons, not_or]; exact ⟨fun e => hc e.symm, hn⟩⟩

theorem splitColon_eq_two {s a b : PyStr} (h : splitColon s = [a, b]) : s = a ++ ':' :: b ∧ ':' ∉ a ∧ ':' ∉ b := by
  induction s generalizing a with
  | nil => simp [splitColon] at h
  | cons c cs ih =>
    unfold splitColon at h
    split at h
    · next hc =>
      simp only [List.cons.injEq] at h
      obtain ⟨rfl, h⟩ := h
      obtain ⟨rfl, hn⟩ := splitColon_eq_one h
      subst hc
      exact ⟨rfl, by simp, hn⟩
    · next hc =>
      split at h
      · next hs => exact absurd hs (splitColon_ne_nil cs)
      · next t ts hs =>
        simp only [List.cons.injEq] at h
        obtain ⟨rfl, rfl⟩ := h
        obtain ⟨rfl, hn, hb⟩ := ih hs
        exact ⟨rfl, by simp only [List.mem_cons, not_or]; exact ⟨fun e => hc e.symm, hn⟩, hb⟩

theorem cash_prefix {net : Network} (hs : net.Supported) {pre : PyStr} (h : net.cashaddrPrefix = some pre) : ':' ∉ pre := by
  have key : ∀ net : Network, net.Supported → ∀ pre ∈ net.cashaddrPrefix, ':' ∉ pre := by
    unfold Network.Supported; decide +kernel
  exact key net hs pre h

/-- The string of the encoder. -/
def addrStr (pre : PyStr) (r : List Nat) : PyStr := pre ++ ':' :: (r ++ checksumNat pre (r.map Int.ofNat)).map symC

theorem encode_eq {net : Network} {pre : PyStr} (hp : net.cashaddrPrefix = some pre) (d : Bytes) :
    ∃ r, Regroups 8 5 (d.map UInt8.toNat) r ∧ encode net d = .ok (addrStr pre r) := by
  obtain ⟨r, hr, hreg⟩ := convertbits_pad (f := 8) (t := 5) (by omega) (d.map UInt8.toNat) (bytes_digits d)
  refine ⟨r, hreg, ?_⟩
  unfold encode
  rw [hp]
  have : (d.map fun x => Int.ofNat x.toNat) = (d.map UInt8.toNat).map Int.ofNat := by rw [List.map_map]; rfl
  simp only [this, cash_convertbits, hr]
  rw [calculateChecksum_eq, ← List.map_append, b32encode_eq]
  · simp [addrStr]
  · intro x hx; rw [List.mem_append] at hx; exact hx.elim (hreg.2.1 x) (checksumNat_digits _ _ x)

/-- What `decode` accepts. -/
theorem decode_ok {net : Network} {pre : PyStr} (hp : net.cashaddrPrefix = some pre) {s : PyStr} {d : Bytes}
    (h : decode net s = .ok d) : ∃ pre' q, s = pre' ++ ':' :: q ∧ ':' ∉ pre' ∧ ':' ∉ q ∧ pre <+: s ∧ (∀ c ∈ q, c ∈ CHARSET) ∧
      verifyChecksum pre' (b32decode q) = true := by
  unfold decode at h
  rw [hp] at h
  simp only [] at h
  split at h
  · cases h
  · next hst =>
    split at h
    · next pre' q hsp =>
      obtain ⟨e, h1, h2⟩ := splitColon_eq_two hsp
      split at h
      · cases h
      · next hv =>
        split at h
        · cases h
        · next conv hc =>
          refine ⟨pre', q, e, h1, h2, ?_, charset_of_convert hc, by simpa using hv⟩
          rw [← List.isPrefixOf_iff_prefix]
          simpa [startsWith] using hst
    · cases h

theorem b32decode_digits {q : PyStr} (h : ∀ c ∈ q, c ∈ CHARSET) : b32decode q = (q.map fun c => CHARSET.idxOf c).map Int.ofNat ∧
    Digits 5 (q.map fun c => CHARSET.idxOf c) := by
  have h2 := (Bech32.idxOf_map_inv h)
  refine ⟨?_, h2.2⟩
  conv_lhs => rw [← h2.1]
  exact b32decode_symC h2.2

theorem decode_addrStr {net : Network} (hs : net.Supported) {pre : PyStr} (hp : net.cashaddrPrefix = some pre) {d : Bytes} {r : List Nat}
    (hreg : Regroups 8 5 (d.map UInt8.toNat) r) :
    decode net (addrStr pre r) = .ok (if d.length % 5 = 0 then d.dropLast else d) := by
  have hD : Digits 5 (r ++ checksumNat pre (r.map Int.ofNat)) := by
    intro x hx; rw [List.mem_append] at hx; exact hx.elim (hreg.2.1 x) (checksumNat_digits _ _ x)
  have hq : ':' ∉ (r ++ checksumNat pre (r.map Int.ofNat)).map symC := by
    intro hm
    rw [List.mem_map] at hm
    obtain ⟨x, hx, he⟩ := hm
    have h1 := (symC_facts x (hD x hx)).2.1
    rw [he] at h1
    exact absurd h1 (by decide)
  unfold decode
  rw [hp]
  simp only []
  rw [if_neg, addrStr, splitColon_two (cash_prefix hs hp) hq]
  · simp only []
    rw [b32decode_symC hD, if_neg]
    · obtain ⟨conv, hc, hreg2⟩ := convertbits_pad (f := 5) (t := 8) (by omega) _ hD
      rw [cash_convertbits, hc]
      simp only []
      congr 1
      obtain ⟨_, hdc, k2, hk2, hbits2⟩ := hreg2
      obtain ⟨hd1, _, k, hk, hbits⟩ := hreg
      have hl2 := congrArg List.length hbits2
      have hl := congrArg List.length hbits
      simp only [bitsOf_length, List.length_append, List.length_replicate, checksumNat_length, List.length_map] at hl hl2
      rw [bitsOf_append, hbits, List.append_assoc, List.append_assoc] at hbits2
      have htake : ∀ n, n ≤ d.length → conv.take n = (d.take n).map UInt8.toNat := by
        intro n hn
        have e1 : conv.take n ++ conv.drop n = conv := List.take_append_drop n conv
        have e2 : (d.map UInt8.toNat).take n ++ (d.map UInt8.toNat).drop n = d.map UInt8.toNat := List.take_append_drop n _
        rw [← e1, ← e2, bitsOf_append, bitsOf_append, List.append_assoc] at hbits2
        have := List.append_inj hbits2 (by simp only [bitsOf_length, List.length_take, List.length_map]; congr 1; omega)
        have h3 := bitsOf_inj (by omega) (fun x hx => hdc x (List.mem_of_mem_take hx))
          (fun x hx => hd1 x (List.mem_of_mem_take hx)) this.1
        rw [h3, List.map_take]
      unfold dropLastN
      split
      · next h5 =>
        rw [htake _ (by omega), ofNat_map_toNat, List.dropLast_eq_take]
        congr 1; omega
      · next h5 =>
        have hk0 : k ≠ 0 := by omega
        have : conv.length - 6 = d.length := by omega
        rw [this, htake _ (Nat.le_refl _), ofNat_map_toNat, List.take_length]
    · rw [Classical.not_not, List.map_append, ← calculateChecksum_eq]
      have := polymod_create pre (r.map Int.ofNat)
      rw [calculateChecksum_eq, ← List.map_append] at this ⊢
      rw [verify_nat, beq_iff_eq]; exact this
  · rw [Classical.not_not]
    unfold startsWith
    rw [List.isPrefixOf_iff_prefix]
    exact ⟨_, rfl⟩

end Verif.Cashaddr
