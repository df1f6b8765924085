import Verif.Lemmas.Bytes
import Verif.Model.Networks

/-! Properties C33, C34: the network table and network selection. -/

namespace Verif.Props
open Verif

/-! ## C33 -/

/-- What a coherent network entry looks like (independent of how the code uses it). -/
structure Coherent (key : PyStr) (n : Network) : Prop where
  name_eq : n.name = key
  prefixes_differ : n.p2pkhPrefix ≠ n.p2shPrefix
  prefix_len : n.p2pkhPrefix.length = n.p2shPrefix.length ∧ (n.p2pkhPrefix.length = 1 ∨ n.p2pkhPrefix.length = 2)
  witness_prefixes : n.p2wpkhPrefix = [0x00, 0x14] ∧ n.p2wshPrefix = [0x00, 0x20]
  not_witness : n.p2pkhPrefix ≠ n.p2wpkhPrefix ∧ n.p2pkhPrefix ≠ n.p2wshPrefix ∧
    n.p2shPrefix ≠ n.p2wpkhPrefix ∧ n.p2shPrefix ≠ n.p2wshPrefix
  hrp_only_segwit : n.bech32Hrp ≠ none → n.segwit = true
  hrp_ok : ∀ h ∈ n.bech32Hrp, h ≠ [] ∧ ∀ c ∈ h, 97 ≤ c.toNat ∧ c.toNat ≤ 122
  segwit_encoder : n.segwit = true → n.segwitEncoder = .bech32 → n.bech32Hrp ≠ none
  cash_all_or_none :
    (n.cashaddrPrefix = none ∧ n.cashaddrP2pkh = none ∧ n.cashaddrP2sh = none) ∨
    (∃ p a b, n.cashaddrPrefix = some p ∧ n.cashaddrP2pkh = some a ∧ n.cashaddrP2sh = some b ∧ a ≠ b ∧
      a.length = n.p2pkhPrefix.length ∧ b.length = n.p2shPrefix.length ∧ ∀ c ∈ p, 97 ≤ c.toNat ∧ c.toNat ≤ 122)
  cash_not_segwit : n.cashaddrPrefix ≠ none → n.segwit = false
  forkid_small : ∀ f ∈ n.forkid, f < 2 ^ 24
  one_family : (n.isSprout.toNat + n.isOverwinter.toNat + n.isSapling.toNat = n.isZcash.toNat) ∧
    (n.isDecred = true → n.isZcash = false)
  flag : n.segwitTxFlag = [0x00, 0x01]

/-- C33: every supported network is coherent. -/
theorem C33_all_coherent : ∀ p ∈ supported, Coherent p.1 p.2 := by
  have h1 : ∀ p ∈ supported, p.2.name = p.1 := by decide +kernel
  have h2 : ∀ p ∈ supported, p.2.p2pkhPrefix ≠ p.2.p2shPrefix := by decide +kernel
  have h3 : ∀ p ∈ supported, p.2.p2pkhPrefix.length = p.2.p2shPrefix.length ∧
      (p.2.p2pkhPrefix.length = 1 ∨ p.2.p2pkhPrefix.length = 2) := by decide +kernel
  have h4 : ∀ p ∈ supported, p.2.p2wpkhPrefix = [0x00, 0x14] ∧ p.2.p2wshPrefix = [0x00, 0x20] := by decide +kernel
  have h5 : ∀ p ∈ supported, p.2.p2pkhPrefix ≠ p.2.p2wpkhPrefix ∧ p.2.p2pkhPrefix ≠ p.2.p2wshPrefix ∧
    p.2.p2shPrefix ≠ p.2.p2wpkhPrefix ∧ p.2.p2shPrefix ≠ p.2.p2wshPrefix := by decide +kernel
  have h6 : ∀ p ∈ supported, p.2.bech32Hrp ≠ none → p.2.segwit = true := by decide +kernel
  have h7 : ∀ p ∈ supported, ∀ h ∈ p.2.bech32Hrp, h ≠ [] ∧ ∀ c ∈ h, 97 ≤ c.toNat ∧ c.toNat ≤ 122 := by
    decide +kernel
  have h8 : ∀ p ∈ supported, p.2.segwit = true → p.2.segwitEncoder = .bech32 → p.2.bech32Hrp ≠ none := by
    decide +kernel
  have h9 : ∀ p ∈ supported, (p.2.cashaddrPrefix = none ∧ p.2.cashaddrP2pkh = none ∧ p.2.cashaddrP2sh = none) ∨
      (p.2.cashaddrPrefix.isSome ∧ p.2.cashaddrP2pkh.isSome ∧ p.2.cashaddrP2sh.isSome ∧
        p.2.cashaddrP2pkh ≠ p.2.cashaddrP2sh ∧
        (∀ a ∈ p.2.cashaddrP2pkh, a.length = p.2.p2pkhPrefix.length) ∧
        (∀ a ∈ p.2.cashaddrP2sh, a.length = p.2.p2shPrefix.length) ∧
        ∀ q ∈ p.2.cashaddrPrefix, ∀ c ∈ q, 97 ≤ c.toNat ∧ c.toNat ≤ 122) := by decide +kernel
  have h10 : ∀ p ∈ supported, p.2.cashaddrPrefix ≠ none → p.2.segwit = false := by decide +kernel
  have h11 : ∀ p ∈ supported, ∀ f ∈ p.2.forkid, f < 2 ^ 24 := by decide +kernel
  have h12 : ∀ p ∈ supported,
    (p.2.isSprout.toNat + p.2.isOverwinter.toNat + p.2.isSapling.toNat = p.2.isZcash.toNat) ∧
    (p.2.isDecred = true → p.2.isZcash = false) := by decide +kernel
  have h13 : ∀ p ∈ supported, p.2.segwitTxFlag = [0x00, 0x01] := by decide +kernel
  intro p hp
  refine ⟨h1 p hp, h2 p hp, h3 p hp, h4 p hp, h5 p hp, h6 p hp, h7 p hp, h8 p hp, ?_, h10 p hp, h11 p hp, h12 p hp,
    h13 p hp⟩
  rcases h9 p hp with h | ⟨ha, hb, hc, hd, he, hf, hg⟩
  · exact .inl h
  · right
    obtain ⟨x, hx⟩ := Option.isSome_iff_exists.1 ha
    obtain ⟨y, hy⟩ := Option.isSome_iff_exists.1 hb
    obtain ⟨z, hz⟩ := Option.isSome_iff_exists.1 hc
    refine ⟨x, y, z, hx, hy, hz, ?_, he y (by simp [hy]), hf z (by simp [hz]), hg x (by simp [hx])⟩
    rintro rfl; exact hd (by rw [hy, hz])

/-- C33: `get_network(key)` finds exactly the table entries; keys are unique. -/
theorem C33_lookup (name : PyStr) (n : Network) :
    getNetwork name = .ok n ↔ (name, n) ∈ supported := by
  unfold getNetwork
  have hkeys : ∀ p ∈ supported, supported.lookup p.1 = some p.2 := by decide +kernel
  constructor
  · intro h
    have h' : supported.lookup name = some n := by
      cases hl : supported.lookup name with
      | none => simp [hl] at h
      | some m => simp [hl] at h; subst h; rfl
    have key : ∀ (l : List (PyStr × Network)), l.lookup name = some n → (name, n) ∈ l := by
      intro l
      induction l with
      | nil => simp
      | cons p l ih =>
        obtain ⟨k, m⟩ := p
        simp only [List.lookup]
        split
        · intro h; have : m = n := by simpa using h
          rename_i hb; have hb' : name = k := by simpa using hb
          subst this; subst hb'; simp
        · intro h; exact List.mem_cons_of_mem _ (ih h)
    exact key _ h'
  · intro h; have := hkeys (name, n) h; simp only at this; rw [this]

example : (pystr "zcash_sapling_main", zcashSaplingMain) ∈ supported := by decide +kernel

/-! ## C34 -/

/-- The outcome of a whole history of `select_network` calls from library import. -/
def runSelects (calls : List PyStr) : Network := calls.foldl (fun cur name => (selectNetwork name cur).2) initialNetwork

/-- C34: after any history of calls the current network's name is the last supported name passed (or `bitcoin_main`), and
the network is the table entry of that name. -/
theorem C34_last_success_wins (calls : List PyStr) :
    (runSelects calls).name =
      ((calls.filter fun n => supported.any fun p => p.1 = n).getLast?).getD (pystr "bitcoin_main") ∧
    ((runSelects calls).name, runSelects calls) ∈ supported := by
  have hname : ∀ p ∈ supported, p.2.name = p.1 := fun p hp => (C33_all_coherent p hp).name_eq
  have hin : ∀ (cur : Network) (name : PyStr),
      (∃ n, (name, n) ∈ supported ∧ selectNetwork name cur = (.ok (), n)) ∨
      ((supported.any fun p => p.1 = name) = false ∧ (selectNetwork name cur).2 = cur) := by
    intro cur name
    unfold selectNetwork
    cases h : getNetwork name with
    | ok n => exact .inl ⟨n, (C33_lookup name n).1 h, rfl⟩
    | error e =>
      right
      refine ⟨?_, rfl⟩
      rw [Bool.eq_false_iff]
      intro hany
      obtain ⟨p, hp, he⟩ := List.any_eq_true.1 hany
      have he' : p.1 = name := by simpa using he
      have := (C33_lookup name p.2).2 (by rw [← he']; exact hp)
      rw [this] at h; cases h
  have key : ∀ (calls : List PyStr) (cur : Network), (cur.name, cur) ∈ supported →
      let r := calls.foldl (fun cur name => (selectNetwork name cur).2) cur
      r.name = ((calls.filter fun n => supported.any fun p => p.1 = n).getLast?).getD cur.name ∧
      (r.name, r) ∈ supported := by
    intro calls
    induction calls with
    | nil => intro cur h; exact ⟨rfl, h⟩
    | cons c cs ih =>
      intro cur h
      rcases hin cur c with ⟨n, hn, he⟩ | ⟨hno, he⟩
      · have hnm : n.name = c := hname _ hn
        have := ih n (by rw [hnm]; exact hn)
        have hc : (supported.any fun p => p.1 = c) = true := List.any_eq_true.2 ⟨_, hn, by simp⟩
        simp only [List.foldl_cons, he]
        refine ⟨?_, this.2⟩
        rw [this.1, List.filter_cons_of_pos (p := fun n => supported.any fun p => decide (p.1 = n)) hc, List.getLast?_cons, hnm]
        simp
      · have := ih cur h
        simp only [List.foldl_cons, he]
        refine ⟨?_, this.2⟩
        rw [this.1, List.filter_cons_of_neg (p := fun n => supported.any fun p => decide (p.1 = n)) (by rw [hno]; simp)]
  exact key calls initialNetwork (by decide +kernel)

/-- C34: a call with a supported name succeeds and makes `get_current_network_name()` that name; any other name raises
ValueError and leaves the current network alone. -/
theorem C34_select (name : PyStr) (cur : Network) :
    ((∃ n, (name, n) ∈ supported) →
      (selectNetwork name cur).1 = .ok () ∧ (selectNetwork name cur).2.name = name) ∧
    ((¬ ∃ n, (name, n) ∈ supported) → selectNetwork name cur = (.error .valueError, cur)) := by
  constructor
  · rintro ⟨n, hn⟩
    have := (C33_lookup name n).2 hn
    unfold selectNetwork
    rw [this]
    exact ⟨rfl, (C33_all_coherent _ hn).name_eq⟩
  · intro h
    unfold selectNetwork
    cases hg : getNetwork name with
    | ok n => exact absurd ⟨n, (C33_lookup name n).1 hg⟩ h
    | error e =>
      unfold getNetwork at hg
      cases hl : supported.lookup name with
      | none => simp [hl] at hg; subst hg; rfl
      | some m => simp [hl] at hg

example : runSelects [pystr "litecoin_test", pystr "nonsense", pystr "dash_main", pystr "x"] = dashMain := by
  decide +kernel

end Verif.Props
