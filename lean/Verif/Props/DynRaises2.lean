import Verif.Props.DynRaises

/-! Property C131: which exceptions the functions of the library raise, exactly. -/

namespace Verif.Props
open Verif Spec Dyn

/-! ### what a program can hold -/

/-- The values that a program can come to hold while the network is selected. -/
inductive CanHold (E : Env) : Val → Prop
  | lit (l : Lit) : CanHold E l.val
  | list (l : List Val) : (∀ x ∈ l, CanHold E x) → CanHold E (.list l)
  | call (f : Fn) (args : List Val) (v : Val) : (∀ a ∈ args, CanHold E a) → call E f args = .ok v → CanHold E v

theorem mapM_index {vals : List Val} : ∀ args : List Val, (∀ a ∈ args, a ∈ vals) → ∃ is : List Nat, is.mapM (fun i => vals[i]?) = some args
  | [], _ => ⟨[], rfl⟩
  | a :: args, h => by
    obtain ⟨i, hi⟩ := List.mem_iff_getElem?.1 (h a (.head _))
    obtain ⟨is, his⟩ := mapM_index args fun x hx => h x (.tail _ hx)
    exact ⟨i :: is, by rw [List.mapM_cons, hi, his]; rfl⟩

/-- From a state of a program one can go on to another, with the same network, that holds the value too. -/
def Holds (H : Hashes) (s : Session) (vs : List Val) : Prop := ∃ s', Reach H s' ∧ s'.net = s.net ∧ (∀ x ∈ s.vals, x ∈ s'.vals) ∧ ∀ v ∈ vs, v ∈ s'.vals

theorem holds_all {H : Hashes} {vs : List Val} {n : Network} (h : ∀ v ∈ vs, ∀ s, Reach H s → s.net = n → Holds H s [v]) : ∀ s, Reach H s → s.net = n → Holds H s vs := by
  induction vs with
  | nil => exact fun s hs _ => ⟨s, hs, rfl, fun _ hx => hx, nofun⟩
  | cons v vs ih =>
    intro s hs hn
    obtain ⟨s1, r1, n1, k1, m1⟩ := h v (.head _) s hs hn
    obtain ⟨s2, r2, n2, k2, m2⟩ := ih (fun w hw => h w (.tail _ hw)) s1 r1 (n1.trans hn)
    refine ⟨s2, r2, n2.trans n1, fun x hx => k2 x (k1 x hx), fun w hw => ?_⟩
    rcases List.mem_cons.1 hw with rfl | hw
    · exact k2 _ (m1 _ (by simp))
    · exact m2 w hw

theorem holds_step {H : Hashes} {s s1 : Session} {v : Val} (o : Op) (hs : Reach H s1) (hn : s1.net = s.net) (hk : ∀ x ∈ s.vals, x ∈ s1.vals) (ho : ∀ name, o ≠ .select name)
    (hg : s1.give H o = some v) : Holds H s [v] := by
  refine ⟨s1.step H o, .step s1 o hs, ?_, fun x hx => ?_, fun x hx => ?_⟩
  · cases o <;> first | exact hn | exact absurd rfl (ho _)
  · exact List.mem_append.2 (.inl (hk x hx))
  · obtain rfl : x = v := by simpa using hx
    refine List.mem_append.2 (.inr ?_)
    rw [hg]; simp

theorem canHold {H : Hashes} {n : Network} {v : Val} (h : CanHold ⟨n, H⟩ v) : ∀ s, Reach H s → s.net = n → Holds H s [v] := by
  induction h with
  | lit l => exact fun s hs _ => holds_step (.lit l) hs rfl (fun _ hx => hx) nofun rfl
  | list l hl ih =>
    intro s hs hn
    obtain ⟨s1, r1, n1, k1, m1⟩ := holds_all (fun x hx => ih x hx) s hs hn
    obtain ⟨is, his⟩ := mapM_index l m1
    exact holds_step (.list is) r1 n1 k1 nofun (by simp only [Session.give, his]; rfl)
  | call f args v ha hc ih =>
    intro s hs hn
    obtain ⟨s1, r1, n1, k1, m1⟩ := holds_all (fun x hx => ih x hx) s hs hn
    obtain ⟨is, his⟩ := mapM_index args m1
    refine holds_step (.call f is) r1 n1 k1 nofun ?_
    simp only [Session.give, his]
    rw [n1.trans hn, hc]; rfl

/-! ### calls that raise -/

/-- Values for the calls: literals and lists of numbers. -/
inductive W where
  | O | I (n : Int) | T (s : PyStr) | B (b : Bytes) | D (b : Bytes) | N (l : List Int)

/-- The value. -/
def W.val : W → Val
  | .O => .none
  | .I n => .int n
  | .T s => .str s
  | .B b => .bytes b
  | .D b => .obj .other [] b
  | .N l => .list (l.map .int)

theorem W.can (E : Env) (w : W) : CanHold E w.val := by
  cases w with
  | O => exact .lit .none
  | I n => exact .lit (.int n)
  | T s => exact .lit (.str s)
  | B b => exact .lit (.bytes b)
  | D b => exact .lit (.byteData b)
  | N l =>
    refine .list _ fun x hx => ?_
    obtain ⟨n, -, rfl⟩ := List.mem_map.1 hx
    exact .lit (.int n)

/-- Zeros. -/
def z (n : Nat) : Bytes := List.replicate n 0

theorem W.given : ∀ w : W, w ≠ .O → w.val ≠ .none := by
  intro w hw h
  cases w <;> first | exact hw rfl | cases h

/-- With a network that can be selected and values that a program can hold while it is, the function raises the exception. -/
def Occurs (H : Hashes) (f : Fn) (e : PyErr) : Prop :=
  ∃ name net args, getNetwork name = .ok net ∧ args.length = arity f ∧ (∀ a ∈ args, CanHold ⟨net, H⟩ a) ∧ call ⟨net, H⟩ f args = .error e

theorem occ {H : Hashes} {f : Fn} {e : PyErr} (name : PyStr) (net : Network) (hn : getNetwork name = .ok net) (ws : List W) (hl : ws.length = arity f)
    (hc : call ⟨net, H⟩ f (ws.map W.val) = .error e) : Occurs H f e :=
  ⟨name, net, ws.map W.val, hn, by rw [List.length_map, hl], fun a ha => by obtain ⟨w, -, rfl⟩ := List.mem_map.1 ha; exact w.can _, hc⟩

/-- The same of a constructor, with arguments that are given (not None). -/
def OccursInit (H : Hashes) (c : Cls) (e : PyErr) : Prop :=
  ∃ name net args, getNetwork name = .ok net ∧ args.length = initArity c ∧ (∀ a ∈ args, CanHold ⟨net, H⟩ a ∧ a ≠ .none) ∧ initOf ⟨net, H⟩ c args = .error e

theorem occI {H : Hashes} {c : Cls} {e : PyErr} (name : PyStr) (net : Network) (hn : getNetwork name = .ok net) (ws : List W) (hl : ws.length = initArity c)
    (hg : ∀ w ∈ ws, w ≠ .O) (hc : initOf ⟨net, H⟩ c (ws.map W.val) = .error e) : OccursInit H c e :=
  ⟨name, net, ws.map W.val, hn, by rw [List.length_map, hl], fun a ha => by obtain ⟨w, hw, rfl⟩ := List.mem_map.1 ha; exact ⟨w.can _, w.given (hg w hw)⟩, hc⟩

theorem raises_tx_output (H : Hashes) : readTx ⟨bitcoinMain, H⟩ (.bytes [0, 0, 0, 0, 0, 2, 0, 0, 0, 0, 0, 0, 0, 0, 252]) = .error .notImplementedError := by
  have hm : (Val.bytes (slice [0, 0, 0, 0, 0, 2, 0, 0, 0, 0, 0, 0, 0, 0, 252] 4 6)).neBytes bitcoinMain.segwitTxFlag = true := by decide +kernel
  unfold readTx
  simp only [Val.slice, Val.from_, ok_bind, hm, Bool.true_eq_false, if_false]
  rw [show readVarInt bitcoinMain (.bytes (List.drop 4 [0, 0, 0, 0, 0, 2, 0, 0, 0, 0, 0, 0, 0, 0, 252])) = .ok ⟨[0], 0⟩ from rfl, ok_bind]
  simp only [List.length_cons, List.length_nil, Nat.reduceAdd]
  rw [show readMany (readTxIn bitcoinMain) (Val.bytes [0, 0, 0, 0, 0, 2, 0, 0, 0, 0, 0, 0, 0, 0, 252]) 0 5 = .ok ([], 5) from rfl, ok_bind]
  simp only
  rw [show readVarInt bitcoinMain (.bytes (List.drop 5 [0, 0, 0, 0, 0, 2, 0, 0, 0, 0, 0, 0, 0, 0, 252])) = .ok ⟨[2], 2⟩ from rfl, ok_bind]
  simp only [List.length_cons, List.length_nil, Nat.reduceAdd]
  rw [show readMany (readTxOut bitcoinMain) (Val.bytes [0, 0, 0, 0, 0, 2, 0, 0, 0, 0, 0, 0, 0, 0, 252]) 2 6 = .error .notImplementedError from rfl]
  rfl

theorem not_base58 {E : Env} {a : PyStr} (h : '0' ∈ a) : Base58.decode E a = .error .valueError := by
  rcases Addresses.b58_cases E a with ⟨d, hd⟩ | h'
  · rw [Props.decode_check_eq] at hd
    split at hd
    · next hc => exact absurd (hc.1 '0' h) (by decide)
    · cases hd
  · exact h'

theorem parses_address (H : Hashes) : Dyn.toOutputScript ⟨bitcoinMain, H⟩ (.str (pystr "bc1qw508d6qejxtdg4y5r3zarvary0c5xw7kv8f3t4")) =
    .ok (.bytearray [0x00, 0x14, 0x75, 0x1e, 0x76, 0xe8, 0x19, 0x91, 0x96, 0xd4, 0x54, 0x94, 0x1c, 0x45, 0xd1, 0xb3, 0xa3, 0x23, 0xf1, 0x43, 0x3b, 0xd6]) := by
  have hp : Addresses.parse ⟨bitcoinMain, H⟩ (pystr "bc1qw508d6qejxtdg4y5r3zarvary0c5xw7kv8f3t4") =
      .ok [0x00, 0x14, 0x75, 0x1e, 0x76, 0xe8, 0x19, 0x91, 0x96, 0xd4, 0x54, 0x94, 0x1c, 0x45, 0xd1, 0xb3, 0xa3, 0x23, 0xf1, 0x43, 0x3b, 0xd6] :=
    Addresses.parse_segwit (not_base58 (by decide +kernel))
      (show Bech32.decode bitcoinMain (pystr "bc1qw508d6qejxtdg4y5r3zarvary0c5xw7kv8f3t4") = _ by decide +kernel)
  unfold Dyn.toOutputScript
  simp only
  rw [Addresses.toOutputScript_eq, hp, ok_bind, ok_bind]
  rfl

theorem parses_not (H : Hashes) : Dyn.toOutputScript ⟨bitcoinMain, H⟩ (.str (pystr "0")) = .error .valueError := by
  have hp : Addresses.parse ⟨bitcoinMain, H⟩ (pystr "0") = .error .valueError := by
    rw [Addresses.parse_not_base58 (not_base58 (by decide))]
    rfl
  unfold Dyn.toOutputScript
  simp only
  rw [hp]; rfl

/-- A proof of zeros. -/
def zeroSprout : Val := .obj .sproutProof ([33, 33, 65, 33, 33, 33, 33, 33].map fun n => .bytes (z n)) (z 296)

/-- A proof of zeros. -/
def zeroSapling : Val := .obj .saplingProof ([48, 96, 48].map fun n => .bytes (z n)) (z 192)

set_option maxRecDepth 4000 in
theorem can_sprout (H : Hashes) : CanHold ⟨zcashSproutMain, H⟩ zeroSprout :=
  .call (.init .sproutProof) ([33, 33, 65, 33, 33, 33, 33, 33].map fun n => .bytes (z n)) _
    (fun a ha => by obtain ⟨n, -, rfl⟩ := List.mem_map.1 ha; exact .lit (.bytes _)) rfl

theorem can_sapling (H : Hashes) : CanHold ⟨zcashSaplingMain, H⟩ zeroSapling :=
  .call (.init .saplingProof) ([48, 96, 48].map fun n => .bytes (z n)) _ (fun a ha => by obtain ⟨n, -, rfl⟩ := List.mem_map.1 ha; exact .lit (.bytes _)) rfl

theorem js_args {E : Env} {p : Val} (hp : CanHold E p) (hn : p ≠ .none) : ∀ a ∈ List.replicate 8 (Val.int 0) ++ [p, Val.int 0], CanHold E a ∧ a ≠ .none := by
  have hz : CanHold E (.int 0) ∧ Val.int 0 ≠ .none := ⟨.lit (.int 0), nofun⟩
  intro a ha
  rcases List.mem_append.1 ha with ha | ha
  · rw [(List.mem_replicate.1 ha).2]; exact hz
  · rcases List.mem_cons.1 ha with rfl | ha
    · exact ⟨hp, hn⟩
    · obtain rfl : a = .int 0 := by simpa using ha
      exact hz

open W

theorem occurs_init (H : Hashes) {c : Cls} {e : PyErr} (hc : c ≠ .other) (he : e ∈ initExcs c) : OccursInit H c e := by
  cases c with
  | outpoint =>
    simp only [initExcs, List.mem_cons, List.not_mem_nil, or_false] at he
    subst he
    exact occI (pystr "bitcoin_main") bitcoinMain rfl [I 0, I 0] rfl (by simp) rfl
  | txOut =>
    simp only [initExcs, List.mem_cons, List.not_mem_nil, or_false] at he
    subst he
    exact occI (pystr "bitcoin_main") bitcoinMain rfl [I 0, I 0] rfl (by simp) rfl
  | item =>
    simp only [initExcs, List.mem_cons, List.not_mem_nil, or_false] at he
    subst he
    exact occI (pystr "bitcoin_main") bitcoinMain rfl [I 0] rfl (by simp) rfl
  | txIn =>
    simp only [initExcs, List.mem_cons, List.not_mem_nil, or_false] at he
    rcases he with rfl | rfl
    · exact occI (pystr "bitcoin_main") bitcoinMain rfl [I 0, I 0, I 0, I 0] rfl (by simp) rfl
    · exact occI (pystr "bitcoin_main") bitcoinMain rfl [B (z 36), D [], B [], B (z 4)] rfl (by simp) rfl
  | witness =>
    simp only [initExcs, List.mem_cons, List.not_mem_nil, or_false] at he
    rcases he with rfl | rfl
    · exact occI (pystr "bitcoin_main") bitcoinMain rfl [N [0]] rfl (by simp) rfl
    · exact occI (pystr "bitcoin_main") bitcoinMain rfl [I 0] rfl (by simp) rfl
  | tx =>
    simp only [initExcs, List.mem_cons, List.not_mem_nil, or_false] at he
    rcases he with rfl | rfl | rfl
    · exact occI (pystr "bitcoin_main") bitcoinMain rfl [I 0, I 0, I 0, I 0, I 0, I 0] rfl (by simp) rfl
    · exact occI (pystr "bitcoin_main") bitcoinMain rfl [B (z 4), B [0, 1], I 0, I 0, I 0, B (z 4)] rfl (by simp) rfl
    · exact occI (pystr "bitcoin_main") bitcoinMain rfl [B (z 4), I 0, I 0, I 0, I 0, B (z 4)] rfl (by simp) rfl
  | sproutProof =>
    simp only [initExcs, List.mem_cons, List.not_mem_nil, or_false] at he
    subst he
    exact occI (pystr "bitcoin_main") bitcoinMain rfl [I 0, I 0, I 0, I 0, I 0, I 0, I 0, I 0] rfl (by simp) rfl
  | saplingProof =>
    simp only [initExcs, List.mem_cons, List.not_mem_nil, or_false] at he
    subst he
    exact occI (pystr "bitcoin_main") bitcoinMain rfl [I 0, I 0, I 0] rfl (by simp) rfl
  | saplingSpend =>
    simp only [initExcs, List.mem_cons, List.not_mem_nil, or_false] at he
    subst he
    exact occI (pystr "bitcoin_main") bitcoinMain rfl [I 0, I 0, I 0, I 0, I 0, I 0] rfl (by simp) rfl
  | saplingOutput =>
    simp only [initExcs, List.mem_cons, List.not_mem_nil, or_false] at he
    subst he
    exact occI (pystr "bitcoin_main") bitcoinMain rfl [I 0, I 0, I 0, I 0, I 0, I 0] rfl (by simp) rfl
  | sproutJs =>
    simp only [initExcs, List.mem_cons, List.not_mem_nil, or_false] at he
    rcases he with rfl | rfl
    · exact occI (pystr "bitcoin_main") bitcoinMain rfl [I 0, I 0, I 0, I 0, I 0, I 0, I 0, I 0, I 0, I 0] rfl (by simp) rfl
    · exact ⟨pystr "zcash_sprout_main", zcashSproutMain, _, rfl, rfl, js_args (can_sprout H) nofun, rfl⟩
  | saplingJs =>
    simp only [initExcs, List.mem_cons, List.not_mem_nil, or_false] at he
    rcases he with rfl | rfl
    · exact occI (pystr "bitcoin_main") bitcoinMain rfl [I 0, I 0, I 0, I 0, I 0, I 0, I 0, I 0, I 0, I 0] rfl (by simp) rfl
    · exact ⟨pystr "zcash_sapling_main", zcashSaplingMain, _, rfl, rfl, js_args (can_sapling H) nofun, rfl⟩
  | sproutTx =>
    simp only [initExcs, List.mem_cons, List.not_mem_nil, or_false] at he
    rcases he with rfl | rfl
    · exact occI (pystr "bitcoin_main") bitcoinMain rfl [I 0, I 0, I 0, I 0, I 0, I 0, I 0] rfl (by simp) rfl
    · exact occI (pystr "zcash_sprout_main") zcashSproutMain rfl [B (z 4), I 0, I 0, B (z 4), I 0, I 0, I 0] rfl (by simp) rfl
  | overwinterTx =>
    simp only [initExcs, List.mem_cons, List.not_mem_nil, or_false] at he
    rcases he with rfl | rfl
    · exact occI (pystr "bitcoin_main") bitcoinMain rfl [I 0, I 0, I 0, I 0, I 0, I 0, I 0] rfl (by simp) rfl
    · exact occI (pystr "zcash_overwinter_main") zcashOverwinterMain rfl [I 0, I 0, B (z 4), B (z 4), I 0, I 0, I 0] rfl (by simp) rfl
  | saplingTx =>
    simp only [initExcs, List.mem_cons, List.not_mem_nil, or_false] at he
    rcases he with rfl | rfl
    · exact occI (pystr "bitcoin_main") bitcoinMain rfl [I 0, I 0, I 0, I 0, I 0, I 0, I 0, I 0, I 0, I 0, I 0] rfl (by simp) rfl
    · exact occI (pystr "zcash_sapling_main") zcashSaplingMain rfl [I 0, I 0, B (z 4), B (z 4), B (z 8), I 0, I 0, I 0, I 0, I 0, I 0] rfl (by simp) rfl
  | dcrOutpoint =>
    simp only [initExcs, List.mem_cons, List.not_mem_nil, or_false] at he
    subst he
    exact occI (pystr "bitcoin_main") bitcoinMain rfl [I 0, I 0, I 0] rfl (by simp) rfl
  | dcrTxIn =>
    simp only [initExcs, List.mem_cons, List.not_mem_nil, or_false] at he
    subst he
    exact occI (pystr "bitcoin_main") bitcoinMain rfl [I 0, I 0] rfl (by simp) rfl
  | dcrTxOut =>
    simp only [initExcs, List.mem_cons, List.not_mem_nil, or_false] at he
    subst he
    exact occI (pystr "bitcoin_main") bitcoinMain rfl [I 0, I 0, I 0] rfl (by simp) rfl
  | dcrWitness =>
    simp only [initExcs, List.mem_cons, List.not_mem_nil, or_false] at he
    rcases he with rfl | rfl
    · exact occI (pystr "bitcoin_main") bitcoinMain rfl [I 0, I 0, I 0, I 0, I 0] rfl (by simp) rfl
    · exact occI (pystr "decred_main") decredMain rfl [B (z 8), B (z 4), B (z 4), D [], B []] rfl (by simp) rfl
  | dcrTx =>
    simp only [initExcs, List.mem_cons, List.not_mem_nil, or_false] at he
    rcases he with rfl | rfl
    · exact occI (pystr "bitcoin_main") bitcoinMain rfl [I 0, I 0, I 0, I 0, I 0, I 0] rfl (by simp) rfl
    · exact occI (pystr "decred_main") decredMain rfl [B (z 4), I 0, I 0, B (z 4), B (z 4), I 0] rfl (by simp) rfl
  | other => exact absurd rfl hc

theorem occurs_read (H : Hashes) {c : Cls} {e : PyErr} (he : e ∈ readExcs c) : Occurs H (.fromBytes c) e := by
  cases c with
  | outpoint =>
    simp only [readExcs, List.mem_cons, List.not_mem_nil, or_false] at he
    rcases he with rfl | rfl
    · exact occ (pystr "bitcoin_main") bitcoinMain rfl [B []] rfl rfl
    · exact occ (pystr "bitcoin_main") bitcoinMain rfl [O] rfl rfl
  | sproutProof =>
    simp only [readExcs, List.mem_cons, List.not_mem_nil, or_false] at he
    rcases he with rfl | rfl
    · exact occ (pystr "bitcoin_main") bitcoinMain rfl [B []] rfl rfl
    · exact occ (pystr "bitcoin_main") bitcoinMain rfl [O] rfl rfl
  | saplingProof =>
    simp only [readExcs, List.mem_cons, List.not_mem_nil, or_false] at he
    rcases he with rfl | rfl
    · exact occ (pystr "bitcoin_main") bitcoinMain rfl [B []] rfl rfl
    · exact occ (pystr "bitcoin_main") bitcoinMain rfl [O] rfl rfl
  | sproutJs =>
    simp only [readExcs, List.mem_cons, List.not_mem_nil, or_false] at he
    rcases he with rfl | rfl
    · exact occ (pystr "bitcoin_main") bitcoinMain rfl [B []] rfl rfl
    · exact occ (pystr "bitcoin_main") bitcoinMain rfl [O] rfl rfl
  | saplingJs =>
    simp only [readExcs, List.mem_cons, List.not_mem_nil, or_false] at he
    rcases he with rfl | rfl
    · exact occ (pystr "bitcoin_main") bitcoinMain rfl [B []] rfl rfl
    · exact occ (pystr "bitcoin_main") bitcoinMain rfl [O] rfl rfl
  | saplingSpend =>
    simp only [readExcs, List.mem_cons, List.not_mem_nil, or_false] at he
    rcases he with rfl | rfl
    · exact occ (pystr "bitcoin_main") bitcoinMain rfl [B []] rfl rfl
    · exact occ (pystr "bitcoin_main") bitcoinMain rfl [O] rfl rfl
  | saplingOutput =>
    simp only [readExcs, List.mem_cons, List.not_mem_nil, or_false] at he
    rcases he with rfl | rfl
    · exact occ (pystr "bitcoin_main") bitcoinMain rfl [B []] rfl rfl
    · exact occ (pystr "bitcoin_main") bitcoinMain rfl [O] rfl rfl
  | dcrOutpoint =>
    simp only [readExcs, List.mem_cons, List.not_mem_nil, or_false] at he
    rcases he with rfl | rfl
    · exact occ (pystr "bitcoin_main") bitcoinMain rfl [B []] rfl rfl
    · exact occ (pystr "bitcoin_main") bitcoinMain rfl [O] rfl rfl
  | dcrTxIn =>
    simp only [readExcs, List.mem_cons, List.not_mem_nil, or_false] at he
    rcases he with rfl | rfl
    · exact occ (pystr "bitcoin_main") bitcoinMain rfl [B []] rfl rfl
    · exact occ (pystr "bitcoin_main") bitcoinMain rfl [O] rfl rfl
  | txIn =>
    simp only [readExcs, List.mem_cons, List.not_mem_nil, or_false] at he
    rcases he with rfl | rfl | rfl
    · exact occ (pystr "bitcoin_main") bitcoinMain rfl [B []] rfl rfl
    · exact occ (pystr "bitcoin_main") bitcoinMain rfl [O] rfl rfl
    · exact occ (pystr "bitcoin_main") bitcoinMain rfl [B [0, 0, 0, 0, 0, 0, 0, 0, 0, 0, 0, 0, 0, 0, 0, 0, 0, 0, 0, 0, 0, 0, 0, 0, 0, 0, 0, 0, 0, 0, 0, 0, 0, 0, 0, 0]] rfl rfl
  | item =>
    simp only [readExcs, List.mem_cons, List.not_mem_nil, or_false] at he
    rcases he with rfl | rfl | rfl | rfl | rfl
    · exact occ (pystr "bitcoin_main") bitcoinMain rfl [B [253]] rfl rfl
    · exact occ (pystr "bitcoin_main") bitcoinMain rfl [O] rfl rfl
    · exact occ (pystr "bitcoin_main") bitcoinMain rfl [B []] rfl rfl
    · exact occ (pystr "bitcoin_main") bitcoinMain rfl [N [253]] rfl rfl
    · exact occ (pystr "bitcoin_main") bitcoinMain rfl [N [256]] rfl rfl
  | witness =>
    simp only [readExcs, List.mem_cons, List.not_mem_nil, or_false] at he
    rcases he with rfl | rfl | rfl | rfl | rfl
    · exact occ (pystr "bitcoin_main") bitcoinMain rfl [B [253]] rfl rfl
    · exact occ (pystr "bitcoin_main") bitcoinMain rfl [O] rfl rfl
    · exact occ (pystr "bitcoin_main") bitcoinMain rfl [B []] rfl rfl
    · exact occ (pystr "bitcoin_main") bitcoinMain rfl [N [253]] rfl rfl
    · exact occ (pystr "bitcoin_main") bitcoinMain rfl [N [256]] rfl rfl
  | txOut =>
    simp only [readExcs, List.mem_cons, List.not_mem_nil, or_false] at he
    rcases he with rfl | rfl | rfl | rfl | rfl | rfl
    · exact occ (pystr "bitcoin_main") bitcoinMain rfl [B [0, 0, 0, 0, 0, 0, 0, 0, 253]] rfl rfl
    · exact occ (pystr "bitcoin_main") bitcoinMain rfl [O] rfl rfl
    · exact occ (pystr "bitcoin_main") bitcoinMain rfl [B []] rfl rfl
    · exact occ (pystr "bitcoin_main") bitcoinMain rfl [N [0, 0, 0, 0, 0, 0, 0, 0, 253]] rfl rfl
    · exact occ (pystr "bitcoin_main") bitcoinMain rfl [N [0, 0, 0, 0, 0, 0, 0, 0, 256]] rfl rfl
    · exact occ (pystr "bitcoin_main") bitcoinMain rfl [B [0, 0, 0, 0, 0, 0, 0, 0, 252]] rfl rfl
  | dcrTxOut =>
    simp only [readExcs, List.mem_cons, List.not_mem_nil, or_false] at he
    rcases he with rfl | rfl | rfl | rfl | rfl | rfl
    · exact occ (pystr "bitcoin_main") bitcoinMain rfl [B [0, 0, 0, 0, 0, 0, 0, 0, 0, 0, 253]] rfl rfl
    · exact occ (pystr "bitcoin_main") bitcoinMain rfl [O] rfl rfl
    · exact occ (pystr "bitcoin_main") bitcoinMain rfl [B []] rfl rfl
    · exact occ (pystr "bitcoin_main") bitcoinMain rfl [N [0, 0, 0, 0, 0, 0, 0, 0, 0, 0, 253]] rfl rfl
    · exact occ (pystr "bitcoin_main") bitcoinMain rfl [N [0, 0, 0, 0, 0, 0, 0, 0, 0, 0, 256]] rfl rfl
    · exact occ (pystr "bitcoin_main") bitcoinMain rfl [B [0, 0, 0, 0, 0, 0, 0, 0, 0, 0, 252]] rfl rfl
  | tx =>
    simp only [readExcs, List.mem_cons, List.not_mem_nil, or_false] at he
    rcases he with rfl | rfl | rfl | rfl | rfl | rfl
    · exact occ (pystr "bitcoin_main") bitcoinMain rfl [B [0, 0, 0, 0, 253]] rfl rfl
    · exact occ (pystr "bitcoin_main") bitcoinMain rfl [O] rfl rfl
    · exact occ (pystr "bitcoin_main") bitcoinMain rfl [B []] rfl rfl
    · exact occ (pystr "bitcoin_main") bitcoinMain rfl [N [0, 0, 0, 0, 253]] rfl rfl
    · exact occ (pystr "bitcoin_main") bitcoinMain rfl [N [0, 0, 0, 0, 256]] rfl rfl
    · exact occ (pystr "bitcoin_main") bitcoinMain rfl [B [0, 0, 0, 0, 0, 2, 0, 0, 0, 0, 0, 0, 0, 0, 252]] rfl (raises_tx_output H)
  | sproutTx =>
    simp only [readExcs, List.mem_cons, List.not_mem_nil, or_false] at he
    rcases he with rfl | rfl | rfl | rfl | rfl | rfl
    · exact occ (pystr "bitcoin_main") bitcoinMain rfl [B [0, 0, 0, 0, 253]] rfl rfl
    · exact occ (pystr "bitcoin_main") bitcoinMain rfl [O] rfl rfl
    · exact occ (pystr "bitcoin_main") bitcoinMain rfl [B []] rfl rfl
    · exact occ (pystr "bitcoin_main") bitcoinMain rfl [N [0, 0, 0, 0, 253]] rfl rfl
    · exact occ (pystr "bitcoin_main") bitcoinMain rfl [N [0, 0, 0, 0, 256]] rfl rfl
    · exact occ (pystr "bitcoin_main") bitcoinMain rfl [B [0, 0, 0, 0, 0, 1, 0, 0, 0, 0, 0, 0, 0, 0, 252]] rfl rfl
  | overwinterTx =>
    simp only [readExcs, List.mem_cons, List.not_mem_nil, or_false] at he
    rcases he with rfl | rfl | rfl | rfl | rfl
    · exact occ (pystr "bitcoin_main") bitcoinMain rfl [B []] rfl rfl
    · exact occ (pystr "bitcoin_main") bitcoinMain rfl [O] rfl rfl
    · exact occ (pystr "bitcoin_main") bitcoinMain rfl [B [3, 0, 0, 128, 112, 130, 196, 3]] rfl rfl
    · exact occ (pystr "bitcoin_main") bitcoinMain rfl [N []] rfl rfl
    · exact occ (pystr "bitcoin_main") bitcoinMain rfl [B [3, 0, 0, 128, 112, 130, 196, 3, 0, 1, 0, 0, 0, 0, 0, 0, 0, 0, 252]] rfl rfl
  | saplingTx =>
    simp only [readExcs, List.mem_cons, List.not_mem_nil, or_false] at he
    rcases he with rfl | rfl | rfl | rfl | rfl
    · exact occ (pystr "bitcoin_main") bitcoinMain rfl [B []] rfl rfl
    · exact occ (pystr "bitcoin_main") bitcoinMain rfl [O] rfl rfl
    · exact occ (pystr "bitcoin_main") bitcoinMain rfl [B [4, 0, 0, 128, 133, 32, 47, 137]] rfl rfl
    · exact occ (pystr "bitcoin_main") bitcoinMain rfl [N []] rfl rfl
    · exact occ (pystr "bitcoin_main") bitcoinMain rfl [B [4, 0, 0, 128, 133, 32, 47, 137, 0, 1, 0, 0, 0, 0, 0, 0, 0, 0, 252]] rfl rfl
  | dcrWitness =>
    simp only [readExcs, List.mem_cons, List.not_mem_nil, or_false] at he
    subst he
    exact occ (pystr "bitcoin_main") bitcoinMain rfl [O] rfl rfl
  | dcrTx =>
    simp only [readExcs, List.mem_cons, List.not_mem_nil, or_false] at he
    subst he
    exact occ (pystr "bitcoin_main") bitcoinMain rfl [O] rfl rfl
  | other =>
    simp only [readExcs, List.mem_cons, List.not_mem_nil, or_false] at he
    subst he
    exact occ (pystr "bitcoin_main") bitcoinMain rfl [O] rfl rfl

theorem occurs_hex_txIn_valueError (H : Hashes) : Occurs H (.fromHex .txIn) .valueError :=
  occ (pystr "bitcoin_main") bitcoinMain rfl [T (pystr "")] rfl rfl

theorem occurs_hex_txIn_typeError (H : Hashes) : Occurs H (.fromHex .txIn) .typeError :=
  occ (pystr "bitcoin_main") bitcoinMain rfl [O] rfl rfl

theorem occurs_hex_txIn_indexError (H : Hashes) : Occurs H (.fromHex .txIn) .indexError :=
  occ (pystr "bitcoin_main") bitcoinMain rfl [T (pystr "000000000000000000000000000000000000000000000000000000000000000000000000")] rfl rfl

theorem occurs_hex_item_valueError (H : Hashes) : Occurs H (.fromHex .item) .valueError :=
  occ (pystr "bitcoin_main") bitcoinMain rfl [T (pystr "fd")] rfl rfl

theorem occurs_hex_item_typeError (H : Hashes) : Occurs H (.fromHex .item) .typeError :=
  occ (pystr "bitcoin_main") bitcoinMain rfl [O] rfl rfl

theorem occurs_hex_item_indexError (H : Hashes) : Occurs H (.fromHex .item) .indexError :=
  occ (pystr "bitcoin_main") bitcoinMain rfl [T (pystr "")] rfl rfl

theorem occurs_hex_witness_valueError (H : Hashes) : Occurs H (.fromHex .witness) .valueError :=
  occ (pystr "bitcoin_main") bitcoinMain rfl [T (pystr "fd")] rfl rfl

theorem occurs_hex_witness_typeError (H : Hashes) : Occurs H (.fromHex .witness) .typeError :=
  occ (pystr "bitcoin_main") bitcoinMain rfl [O] rfl rfl

theorem occurs_hex_witness_indexError (H : Hashes) : Occurs H (.fromHex .witness) .indexError :=
  occ (pystr "bitcoin_main") bitcoinMain rfl [T (pystr "")] rfl rfl

theorem occurs_hex_txOut_valueError (H : Hashes) : Occurs H (.fromHex .txOut) .valueError :=
  occ (pystr "bitcoin_main") bitcoinMain rfl [T (pystr "0000000000000000fd")] rfl rfl

theorem occurs_hex_txOut_typeError (H : Hashes) : Occurs H (.fromHex .txOut) .typeError :=
  occ (pystr "bitcoin_main") bitcoinMain rfl [O] rfl rfl

theorem occurs_hex_txOut_indexError (H : Hashes) : Occurs H (.fromHex .txOut) .indexError :=
  occ (pystr "bitcoin_main") bitcoinMain rfl [T (pystr "")] rfl rfl

theorem occurs_hex_txOut_notImplementedError (H : Hashes) : Occurs H (.fromHex .txOut) .notImplementedError :=
  occ (pystr "bitcoin_main") bitcoinMain rfl [T (pystr "0000000000000000fc")] rfl rfl

theorem occurs_hex_dcrTxOut_valueError (H : Hashes) : Occurs H (.fromHex .dcrTxOut) .valueError :=
  occ (pystr "bitcoin_main") bitcoinMain rfl [T (pystr "00000000000000000000fd")] rfl rfl

theorem occurs_hex_dcrTxOut_typeError (H : Hashes) : Occurs H (.fromHex .dcrTxOut) .typeError :=
  occ (pystr "bitcoin_main") bitcoinMain rfl [O] rfl rfl

theorem occurs_hex_dcrTxOut_indexError (H : Hashes) : Occurs H (.fromHex .dcrTxOut) .indexError :=
  occ (pystr "bitcoin_main") bitcoinMain rfl [T (pystr "")] rfl rfl

theorem occurs_hex_dcrTxOut_notImplementedError (H : Hashes) : Occurs H (.fromHex .dcrTxOut) .notImplementedError :=
  occ (pystr "bitcoin_main") bitcoinMain rfl [T (pystr "00000000000000000000fc")] rfl rfl

theorem occurs_hex_tx_valueError (H : Hashes) : Occurs H (.fromHex .tx) .valueError :=
  occ (pystr "bitcoin_main") bitcoinMain rfl [T (pystr "00000000fd")] rfl rfl

theorem occurs_hex_tx_typeError (H : Hashes) : Occurs H (.fromHex .tx) .typeError :=
  occ (pystr "bitcoin_main") bitcoinMain rfl [O] rfl rfl

theorem occurs_hex_tx_indexError (H : Hashes) : Occurs H (.fromHex .tx) .indexError :=
  occ (pystr "bitcoin_main") bitcoinMain rfl [T (pystr "")] rfl rfl

theorem hex_tx_output (H : Hashes) : readHexOf ⟨bitcoinMain, H⟩ .tx (.str (pystr "0000000000020000000000000000fc")) = .error .notImplementedError := by
  have h : fromHex (pystr "0000000000020000000000000000fc") = .ok [0, 0, 0, 0, 0, 2, 0, 0, 0, 0, 0, 0, 0, 0, 252] := by decide +kernel
  unfold readHexOf
  simp only
  rw [h, ok_bind]
  exact raises_tx_output H

theorem occurs_hex_tx_notImplementedError (H : Hashes) : Occurs H (.fromHex .tx) .notImplementedError :=
  occ (pystr "bitcoin_main") bitcoinMain rfl [T (pystr "0000000000020000000000000000fc")] rfl (hex_tx_output H)

theorem occurs_hex_sproutTx_valueError (H : Hashes) : Occurs H (.fromHex .sproutTx) .valueError :=
  occ (pystr "bitcoin_main") bitcoinMain rfl [T (pystr "00000000fd")] rfl rfl

theorem occurs_hex_sproutTx_typeError (H : Hashes) : Occurs H (.fromHex .sproutTx) .typeError :=
  occ (pystr "bitcoin_main") bitcoinMain rfl [O] rfl rfl

theorem occurs_hex_sproutTx_indexError (H : Hashes) : Occurs H (.fromHex .sproutTx) .indexError :=
  occ (pystr "bitcoin_main") bitcoinMain rfl [T (pystr "")] rfl rfl

theorem occurs_hex_sproutTx_notImplementedError (H : Hashes) : Occurs H (.fromHex .sproutTx) .notImplementedError :=
  occ (pystr "bitcoin_main") bitcoinMain rfl [T (pystr "0000000000010000000000000000fc")] rfl rfl

theorem occurs_hex_overwinterTx_valueError (H : Hashes) : Occurs H (.fromHex .overwinterTx) .valueError :=
  occ (pystr "bitcoin_main") bitcoinMain rfl [T (pystr "")] rfl rfl

theorem occurs_hex_overwinterTx_typeError (H : Hashes) : Occurs H (.fromHex .overwinterTx) .typeError :=
  occ (pystr "bitcoin_main") bitcoinMain rfl [O] rfl rfl

theorem occurs_hex_overwinterTx_indexError (H : Hashes) : Occurs H (.fromHex .overwinterTx) .indexError :=
  occ (pystr "bitcoin_main") bitcoinMain rfl [T (pystr "030000807082c403")] rfl rfl

theorem occurs_hex_overwinterTx_notImplementedError (H : Hashes) : Occurs H (.fromHex .overwinterTx) .notImplementedError :=
  occ (pystr "bitcoin_main") bitcoinMain rfl [T (pystr "030000807082c40300010000000000000000fc")] rfl rfl

theorem occurs_hex_saplingTx_valueError (H : Hashes) : Occurs H (.fromHex .saplingTx) .valueError :=
  occ (pystr "bitcoin_main") bitcoinMain rfl [T (pystr "")] rfl rfl

theorem occurs_hex_saplingTx_typeError (H : Hashes) : Occurs H (.fromHex .saplingTx) .typeError :=
  occ (pystr "bitcoin_main") bitcoinMain rfl [O] rfl rfl

theorem occurs_hex_saplingTx_indexError (H : Hashes) : Occurs H (.fromHex .saplingTx) .indexError :=
  occ (pystr "bitcoin_main") bitcoinMain rfl [T (pystr "0400008085202f89")] rfl rfl

theorem occurs_hex_saplingTx_notImplementedError (H : Hashes) : Occurs H (.fromHex .saplingTx) .notImplementedError :=
  occ (pystr "bitcoin_main") bitcoinMain rfl [T (pystr "0400008085202f8900010000000000000000fc")] rfl rfl

theorem occurs_hex_dcrWitness_valueError (H : Hashes) : Occurs H (.fromHex .dcrWitness) .valueError :=
  occ (pystr "bitcoin_main") bitcoinMain rfl [T (pystr "g")] rfl rfl

theorem occurs_hex_dcrWitness_typeError (H : Hashes) : Occurs H (.fromHex .dcrWitness) .typeError :=
  occ (pystr "bitcoin_main") bitcoinMain rfl [O] rfl rfl

theorem occurs_hex_dcrWitness_notImplementedError (H : Hashes) : Occurs H (.fromHex .dcrWitness) .notImplementedError :=
  occ (pystr "bitcoin_main") bitcoinMain rfl [T (pystr "")] rfl rfl

theorem occurs_hex_dcrTx_valueError (H : Hashes) : Occurs H (.fromHex .dcrTx) .valueError :=
  occ (pystr "bitcoin_main") bitcoinMain rfl [T (pystr "g")] rfl rfl

theorem occurs_hex_dcrTx_typeError (H : Hashes) : Occurs H (.fromHex .dcrTx) .typeError :=
  occ (pystr "bitcoin_main") bitcoinMain rfl [O] rfl rfl

theorem occurs_hex_dcrTx_notImplementedError (H : Hashes) : Occurs H (.fromHex .dcrTx) .notImplementedError :=
  occ (pystr "bitcoin_main") bitcoinMain rfl [T (pystr "")] rfl rfl

theorem occurs_hex (H : Hashes) {c : Cls} {e : PyErr} (he : e ∈ hexExcs c) : Occurs H (.fromHex c) e := by
  cases c with
  | outpoint =>
    simp only [hexExcs, List.mem_cons, List.not_mem_nil, or_false] at he
    rcases he with rfl | rfl
    · exact occ (pystr "bitcoin_main") bitcoinMain rfl [T (pystr "")] rfl rfl
    · exact occ (pystr "bitcoin_main") bitcoinMain rfl [O] rfl rfl
  | sproutProof =>
    simp only [hexExcs, List.mem_cons, List.not_mem_nil, or_false] at he
    rcases he with rfl | rfl
    · exact occ (pystr "bitcoin_main") bitcoinMain rfl [T (pystr "")] rfl rfl
    · exact occ (pystr "bitcoin_main") bitcoinMain rfl [O] rfl rfl
  | saplingProof =>
    simp only [hexExcs, List.mem_cons, List.not_mem_nil, or_false] at he
    rcases he with rfl | rfl
    · exact occ (pystr "bitcoin_main") bitcoinMain rfl [T (pystr "")] rfl rfl
    · exact occ (pystr "bitcoin_main") bitcoinMain rfl [O] rfl rfl
  | sproutJs =>
    simp only [hexExcs, List.mem_cons, List.not_mem_nil, or_false] at he
    rcases he with rfl | rfl
    · exact occ (pystr "bitcoin_main") bitcoinMain rfl [T (pystr "")] rfl rfl
    · exact occ (pystr "bitcoin_main") bitcoinMain rfl [O] rfl rfl
  | saplingJs =>
    simp only [hexExcs, List.mem_cons, List.not_mem_nil, or_false] at he
    rcases he with rfl | rfl
    · exact occ (pystr "bitcoin_main") bitcoinMain rfl [T (pystr "")] rfl rfl
    · exact occ (pystr "bitcoin_main") bitcoinMain rfl [O] rfl rfl
  | saplingSpend =>
    simp only [hexExcs, List.mem_cons, List.not_mem_nil, or_false] at he
    rcases he with rfl | rfl
    · exact occ (pystr "bitcoin_main") bitcoinMain rfl [T (pystr "")] rfl rfl
    · exact occ (pystr "bitcoin_main") bitcoinMain rfl [O] rfl rfl
  | saplingOutput =>
    simp only [hexExcs, List.mem_cons, List.not_mem_nil, or_false] at he
    rcases he with rfl | rfl
    · exact occ (pystr "bitcoin_main") bitcoinMain rfl [T (pystr "")] rfl rfl
    · exact occ (pystr "bitcoin_main") bitcoinMain rfl [O] rfl rfl
  | dcrOutpoint =>
    simp only [hexExcs, List.mem_cons, List.not_mem_nil, or_false] at he
    rcases he with rfl | rfl
    · exact occ (pystr "bitcoin_main") bitcoinMain rfl [T (pystr "")] rfl rfl
    · exact occ (pystr "bitcoin_main") bitcoinMain rfl [O] rfl rfl
  | dcrTxIn =>
    simp only [hexExcs, List.mem_cons, List.not_mem_nil, or_false] at he
    rcases he with rfl | rfl
    · exact occ (pystr "bitcoin_main") bitcoinMain rfl [T (pystr "")] rfl rfl
    · exact occ (pystr "bitcoin_main") bitcoinMain rfl [O] rfl rfl
  | txIn =>
    simp only [hexExcs, List.mem_cons, List.not_mem_nil, or_false] at he
    rcases he with rfl | rfl | rfl
    · exact occurs_hex_txIn_valueError H
    · exact occurs_hex_txIn_typeError H
    · exact occurs_hex_txIn_indexError H
  | item =>
    simp only [hexExcs, List.mem_cons, List.not_mem_nil, or_false] at he
    rcases he with rfl | rfl | rfl
    · exact occurs_hex_item_valueError H
    · exact occurs_hex_item_typeError H
    · exact occurs_hex_item_indexError H
  | witness =>
    simp only [hexExcs, List.mem_cons, List.not_mem_nil, or_false] at he
    rcases he with rfl | rfl | rfl
    · exact occurs_hex_witness_valueError H
    · exact occurs_hex_witness_typeError H
    · exact occurs_hex_witness_indexError H
  | txOut =>
    simp only [hexExcs, List.mem_cons, List.not_mem_nil, or_false] at he
    rcases he with rfl | rfl | rfl | rfl
    · exact occurs_hex_txOut_valueError H
    · exact occurs_hex_txOut_typeError H
    · exact occurs_hex_txOut_indexError H
    · exact occurs_hex_txOut_notImplementedError H
  | dcrTxOut =>
    simp only [hexExcs, List.mem_cons, List.not_mem_nil, or_false] at he
    rcases he with rfl | rfl | rfl | rfl
    · exact occurs_hex_dcrTxOut_valueError H
    · exact occurs_hex_dcrTxOut_typeError H
    · exact occurs_hex_dcrTxOut_indexError H
    · exact occurs_hex_dcrTxOut_notImplementedError H
  | tx =>
    simp only [hexExcs, List.mem_cons, List.not_mem_nil, or_false] at he
    rcases he with rfl | rfl | rfl | rfl
    · exact occurs_hex_tx_valueError H
    · exact occurs_hex_tx_typeError H
    · exact occurs_hex_tx_indexError H
    · exact occurs_hex_tx_notImplementedError H
  | sproutTx =>
    simp only [hexExcs, List.mem_cons, List.not_mem_nil, or_false] at he
    rcases he with rfl | rfl | rfl | rfl
    · exact occurs_hex_sproutTx_valueError H
    · exact occurs_hex_sproutTx_typeError H
    · exact occurs_hex_sproutTx_indexError H
    · exact occurs_hex_sproutTx_notImplementedError H
  | overwinterTx =>
    simp only [hexExcs, List.mem_cons, List.not_mem_nil, or_false] at he
    rcases he with rfl | rfl | rfl | rfl
    · exact occurs_hex_overwinterTx_valueError H
    · exact occurs_hex_overwinterTx_typeError H
    · exact occurs_hex_overwinterTx_indexError H
    · exact occurs_hex_overwinterTx_notImplementedError H
  | saplingTx =>
    simp only [hexExcs, List.mem_cons, List.not_mem_nil, or_false] at he
    rcases he with rfl | rfl | rfl | rfl
    · exact occurs_hex_saplingTx_valueError H
    · exact occurs_hex_saplingTx_typeError H
    · exact occurs_hex_saplingTx_indexError H
    · exact occurs_hex_saplingTx_notImplementedError H
  | dcrWitness =>
    simp only [hexExcs, List.mem_cons, List.not_mem_nil, or_false] at he
    rcases he with rfl | rfl | rfl
    · exact occurs_hex_dcrWitness_valueError H
    · exact occurs_hex_dcrWitness_typeError H
    · exact occurs_hex_dcrWitness_notImplementedError H
  | dcrTx =>
    simp only [hexExcs, List.mem_cons, List.not_mem_nil, or_false] at he
    rcases he with rfl | rfl | rfl
    · exact occurs_hex_dcrTx_valueError H
    · exact occurs_hex_dcrTx_typeError H
    · exact occurs_hex_dcrTx_notImplementedError H
  | other =>
    simp only [hexExcs, List.mem_cons, List.not_mem_nil, or_false] at he
    rcases he with rfl | rfl
    · exact occ (pystr "bitcoin_main") bitcoinMain rfl [T (pystr "g")] rfl rfl
    · exact occ (pystr "bitcoin_main") bitcoinMain rfl [O] rfl rfl

theorem occurs (H : Hashes) {f : Fn} {e : PyErr} (hf : f ≠ .copy) (hi : f ≠ .init .other) (he : e ∈ excs f) : Occurs H f e := by
  cases f with
  | init c =>
    obtain ⟨name, net, args, h1, h2, h3, h4⟩ := occurs_init H (fun e => hi (by rw [e])) he
    exact ⟨name, net, args, h1, h2, fun a ha => (h3 a ha).1, h4⟩
  | fromBytes c => exact occurs_read H he
  | fromHex c => exact occurs_hex H he
  | copy => exact absurd rfl hf
  | makeOutput =>
    simp only [excs, List.mem_cons, List.not_mem_nil, or_false] at he
    subst he
    exact occ (pystr "bitcoin_main") bitcoinMain rfl [O, O, O] rfl rfl
  | makeShOutput =>
    simp only [excs, List.mem_cons, List.not_mem_nil, or_false] at he
    rcases he with rfl | rfl | rfl | rfl | rfl
    · exact occ (pystr "bitcoin_main") bitcoinMain rfl [I 0, T (pystr "zz"), I 0] rfl rfl
    · exact occ (pystr "bitcoin_main") bitcoinMain rfl [D [], O, O] rfl rfl
    · exact occ (pystr "bitcoin_main") bitcoinMain rfl [O, O, O] rfl rfl
    · exact occ (pystr "bitcoin_main") bitcoinMain rfl [I (-1), O, O] rfl rfl
    · exact occ (pystr "bitcoin_main") bitcoinMain rfl [I 0, T (pystr "OP_CODESEPARATOR"), I 0] rfl rfl
  | makePkhOutput =>
    simp only [excs, List.mem_cons, List.not_mem_nil, or_false] at he
    rcases he with rfl | rfl | rfl | rfl
    · exact occ (pystr "bitcoin_main") bitcoinMain rfl [I 0, O, I 0] rfl rfl
    · exact occ (pystr "bitcoin_main") bitcoinMain rfl [D [], O, O] rfl rfl
    · exact occ (pystr "bitcoin_main") bitcoinMain rfl [O, O, O] rfl rfl
    · exact occ (pystr "bitcoin_main") bitcoinMain rfl [I (-1), O, O] rfl rfl
  | makeOpReturnOutput =>
    simp only [excs, List.mem_cons, List.not_mem_nil, or_false] at he
    rcases he with rfl | rfl
    · exact occ (pystr "bitcoin_main") bitcoinMain rfl [B (z 78)] rfl rfl
    · exact occ (pystr "bitcoin_main") bitcoinMain rfl [O] rfl rfl
  | makeWitness =>
    simp only [excs, List.mem_cons, List.not_mem_nil, or_false] at he
    rcases he with rfl | rfl
    · exact occ (pystr "bitcoin_main") bitcoinMain rfl [N [0]] rfl rfl
    · exact occ (pystr "bitcoin_main") bitcoinMain rfl [O] rfl rfl
  | makeOutpoint =>
    simp only [excs, List.mem_cons, List.not_mem_nil, or_false] at he
    rcases he with rfl | rfl | rfl | rfl
    · exact occ (pystr "bitcoin_main") bitcoinMain rfl [O, I 0, O] rfl rfl
    · exact occ (pystr "bitcoin_main") bitcoinMain rfl [O, D [], O] rfl rfl
    · exact occ (pystr "bitcoin_main") bitcoinMain rfl [O, O, O] rfl rfl
    · exact occ (pystr "bitcoin_main") bitcoinMain rfl [O, I (-1), O] rfl rfl
  | makeDecredInput =>
    simp only [excs, List.mem_cons, List.not_mem_nil, or_false] at he
    rcases he with rfl | rfl | rfl | rfl
    · exact occ (pystr "bitcoin_main") bitcoinMain rfl [O, I 0] rfl rfl
    · exact occ (pystr "bitcoin_main") bitcoinMain rfl [O, D []] rfl rfl
    · exact occ (pystr "bitcoin_main") bitcoinMain rfl [O, O] rfl rfl
    · exact occ (pystr "bitcoin_main") bitcoinMain rfl [O, I (-1)] rfl rfl
  | makeLegacyInput =>
    simp only [excs, List.mem_cons, List.not_mem_nil, or_false] at he
    rcases he with rfl | rfl | rfl | rfl
    · exact occ (pystr "bitcoin_main") bitcoinMain rfl [O, O, O, I 0] rfl rfl
    · exact occ (pystr "bitcoin_main") bitcoinMain rfl [O, O, O, D []] rfl rfl
    · exact occ (pystr "bitcoin_main") bitcoinMain rfl [O, O, O, O] rfl rfl
    · exact occ (pystr "bitcoin_main") bitcoinMain rfl [O, O, O, I (-1)] rfl rfl
  | makeWitnessInput =>
    simp only [excs, List.mem_cons, List.not_mem_nil, or_false] at he
    rcases he with rfl | rfl | rfl | rfl
    · exact occ (pystr "bitcoin_main") bitcoinMain rfl [O, I 0] rfl rfl
    · exact occ (pystr "bitcoin_main") bitcoinMain rfl [O, D []] rfl rfl
    · exact occ (pystr "bitcoin_main") bitcoinMain rfl [O, O] rfl rfl
    · exact occ (pystr "bitcoin_main") bitcoinMain rfl [O, I (-1)] rfl rfl
  | makeTx =>
    simp only [excs, List.mem_cons, List.not_mem_nil, or_false] at he
    rcases he with rfl | rfl | rfl | rfl
    · exact occ (pystr "bitcoin_main") bitcoinMain rfl [I 0, N [], N [], I 0, O, O, O, O, O, O, O, O, O] rfl rfl
    · exact occ (pystr "bitcoin_main") bitcoinMain rfl [D [], O, O, O, O, O, O, O, O, O, O, O, O] rfl rfl
    · exact occ (pystr "bitcoin_main") bitcoinMain rfl [O, O, O, O, O, O, O, O, O, O, O, O, O] rfl rfl
    · exact occ (pystr "bitcoin_main") bitcoinMain rfl [I (-1), O, O, O, O, O, O, O, O, O, O, O, O] rfl rfl
  | simpleOutput =>
    simp only [excs, List.mem_cons, List.not_mem_nil, or_false] at he
    rcases he with rfl | rfl | rfl | rfl
    · exact occ (pystr "bitcoin_main") bitcoinMain rfl [O, T (pystr "0")] rfl (show (Dyn.toOutputScript _ (.str (pystr "0")) >>= _) = _ by rw [parses_not]; rfl)
    · exact occ (pystr "bitcoin_main") bitcoinMain rfl [D [], T (pystr "bc1qw508d6qejxtdg4y5r3zarvary0c5xw7kv8f3t4")] rfl (show (Dyn.toOutputScript _ (.str (pystr "bc1qw508d6qejxtdg4y5r3zarvary0c5xw7kv8f3t4")) >>= _) = _ by rw [parses_address]; rfl)
    · exact occ (pystr "bitcoin_main") bitcoinMain rfl [O, O] rfl rfl
    · exact occ (pystr "bitcoin_main") bitcoinMain rfl [I (-1), T (pystr "bc1qw508d6qejxtdg4y5r3zarvary0c5xw7kv8f3t4")] rfl (show (Dyn.toOutputScript _ (.str (pystr "bc1qw508d6qejxtdg4y5r3zarvary0c5xw7kv8f3t4")) >>= _) = _ by rw [parses_address]; rfl)
  | simpleOutpoint =>
    simp only [excs, List.mem_cons, List.not_mem_nil, or_false] at he
    rcases he with rfl | rfl | rfl | rfl
    · exact occ (pystr "bitcoin_main") bitcoinMain rfl [T (pystr "g"), O, O] rfl rfl
    · exact occ (pystr "bitcoin_main") bitcoinMain rfl [T (pystr ""), D [], O] rfl rfl
    · exact occ (pystr "bitcoin_main") bitcoinMain rfl [T (pystr ""), O, O] rfl rfl
    · exact occ (pystr "bitcoin_main") bitcoinMain rfl [T (pystr ""), I (-1), O] rfl rfl
  | simpleInput =>
    simp only [excs, List.mem_cons, List.not_mem_nil, or_false] at he
    rcases he with rfl | rfl | rfl | rfl
    · exact occ (pystr "bitcoin_main") bitcoinMain rfl [O, I 0] rfl rfl
    · exact occ (pystr "bitcoin_main") bitcoinMain rfl [O, D []] rfl rfl
    · exact occ (pystr "bitcoin_main") bitcoinMain rfl [O, O] rfl rfl
    · exact occ (pystr "bitcoin_main") bitcoinMain rfl [O, I (-1)] rfl rfl
  | simpleLegacyTx =>
    simp only [excs, List.mem_cons, List.not_mem_nil, or_false] at he
    rcases he with rfl | rfl | rfl | rfl
    · exact occ (pystr "bitcoin_main") bitcoinMain rfl [N [], N [], I 0, I 0, I 0, N [], N [], N []] rfl rfl
    · exact occ (pystr "bitcoin_main") bitcoinMain rfl [O, O, D [], O, O, O, O, O] rfl rfl
    · exact occ (pystr "bitcoin_main") bitcoinMain rfl [O, O, O, O, O, O, O, O] rfl rfl
    · exact occ (pystr "bitcoin_main") bitcoinMain rfl [O, O, I (-1), O, O, O, O, O] rfl rfl
  | simpleWitnessTx =>
    simp only [excs, List.mem_cons, List.not_mem_nil, or_false] at he
    rcases he with rfl | rfl | rfl | rfl
    · exact occ (pystr "bitcoin_main") bitcoinMain rfl [N [], N [], I 0, I 0] rfl rfl
    · exact occ (pystr "bitcoin_main") bitcoinMain rfl [N [], N [], D [], O] rfl rfl
    · exact occ (pystr "bitcoin_main") bitcoinMain rfl [N [], N [], O, O] rfl rfl
    · exact occ (pystr "bitcoin_main") bitcoinMain rfl [N [], N [], I (-1), O] rfl rfl

theorem keep_given {a b : Val} (h : a ≠ .none) : keep a b = a := by
  cases a <;> first | rfl | exact absurd rfl h

/-- If all arguments are given, `copy` is the constructor. -/
theorem copy_given {E : Env} {c : Cls} {t : List Val} {b : Bytes} {args : List Val} (hc : HasCopy c = true) (hlt : t.length = attrCount c) (hl : args.length = initArity c)
    (ha : ∀ a ∈ args, a ≠ .none) : copyOf E (.obj c t b) args = initOf E c args := by
  cases c <;> simp only [HasCopy, Bool.false_eq_true] at hc
  case outpoint =>
    match args, hl, t, hlt, ha with
    | [_, _], _, [_, _], _, ha =>
      simp only [List.mem_cons, List.not_mem_nil, or_false, forall_eq_or_imp, forall_eq] at ha
      simp only [copyOf, initOf, copyOutpoint, keep_given, ha, ne_eq, not_false_eq_true]
  case txIn =>
    match args, hl, t, hlt, ha with
    | [_, _, _, _], _, [_, _, _, _, _], _, ha =>
      simp only [List.mem_cons, List.not_mem_nil, or_false, forall_eq_or_imp, forall_eq] at ha
      simp only [copyOf, initOf, copyTxIn, keep_given, ha, ne_eq, not_false_eq_true]
  case txOut =>
    match args, hl, t, hlt, ha with
    | [_, _], _, [_, _], _, ha =>
      simp only [List.mem_cons, List.not_mem_nil, or_false, forall_eq_or_imp, forall_eq] at ha
      simp only [copyOf, initOf, copyTxOut, keep_given, ha, ne_eq, not_false_eq_true]
  case witness =>
    match args, hl, t, hlt, ha with
    | [_], _, [_], _, ha =>
      simp only [List.mem_cons, List.not_mem_nil, or_false, forall_eq_or_imp, forall_eq] at ha
      simp only [copyOf, initOf, copyWitness, keep_given, ha, ne_eq, not_false_eq_true]
  case tx =>
    match args, hl, t, hlt, ha with
    | [_, _, _, _, _, _], _, [_, _, _, _, _, _, _, _, _, _], _, ha =>
      simp only [List.mem_cons, List.not_mem_nil, or_false, forall_eq_or_imp, forall_eq] at ha
      simp only [copyOf, initOf, copyTx, keep_given, ha, ne_eq, not_false_eq_true]
  case sproutTx =>
    match args, hl, t, hlt, ha with
    | [_, _, _, _, _, _, _], _, [_, _, _, _, _, _, _, _, _, _, _], _, ha =>
      simp only [List.mem_cons, List.not_mem_nil, or_false, forall_eq_or_imp, forall_eq] at ha
      simp only [copyOf, initOf, copySprout, keep_given, ha, ne_eq, not_false_eq_true]
  case overwinterTx =>
    match args, hl, t, hlt, ha with
    | [_, _, _, _, _, _, _], _, [_, _, _, _, _, _, _, _, _, _, _], _, ha =>
      simp only [List.mem_cons, List.not_mem_nil, or_false, forall_eq_or_imp, forall_eq] at ha
      simp only [copyOf, initOf, copyOverwinter, keep_given, ha, ne_eq, not_false_eq_true]
  case saplingTx =>
    match args, hl, t, hlt, ha with
    | [_, _, _, _, _, _, _, _, _, _, _], _, [_, _, _, _, _, _, _, _, _, _, _, _, _, _, _], _, ha =>
      simp only [List.mem_cons, List.not_mem_nil, or_false, forall_eq_or_imp, forall_eq] at ha
      simp only [copyOf, initOf, copySapling, keep_given, ha, ne_eq, not_false_eq_true]
  case dcrOutpoint =>
    match args, hl, t, hlt, ha with
    | [_, _, _], _, [_, _, _], _, ha =>
      simp only [List.mem_cons, List.not_mem_nil, or_false, forall_eq_or_imp, forall_eq] at ha
      simp only [copyOf, initOf, copyDcrOutpoint, keep_given, ha, ne_eq, not_false_eq_true]
  case dcrTxIn =>
    match args, hl, t, hlt, ha with
    | [_, _], _, [_, _], _, ha =>
      simp only [List.mem_cons, List.not_mem_nil, or_false, forall_eq_or_imp, forall_eq] at ha
      simp only [copyOf, initOf, copyDcrTxIn, keep_given, ha, ne_eq, not_false_eq_true]
  case dcrTxOut =>
    match args, hl, t, hlt, ha with
    | [_, _, _], _, [_, _, _, _], _, ha =>
      simp only [List.mem_cons, List.not_mem_nil, or_false, forall_eq_or_imp, forall_eq] at ha
      simp only [copyOf, initOf, copyDcrTxOut, keep_given, ha, ne_eq, not_false_eq_true]
  case dcrWitness =>
    match args, hl, t, hlt, ha with
    | [_, _, _, _, _], _, [_, _, _, _, _, _, _], _, ha =>
      simp only [List.mem_cons, List.not_mem_nil, or_false, forall_eq_or_imp, forall_eq] at ha
      simp only [copyOf, initOf, copyDcrWitness, keep_given, ha, ne_eq, not_false_eq_true]
  case dcrTx =>
    match args, hl, t, hlt, ha with
    | [_, _, _, _, _, _], _, [_, _, _, _, _, _, _, _], _, ha =>
      simp only [List.mem_cons, List.not_mem_nil, or_false, forall_eq_or_imp, forall_eq] at ha
      simp only [copyOf, initOf, copyDcrTx, keep_given, ha, ne_eq, not_false_eq_true]

theorem reach_select {H : Hashes} {s : Session} (hs : Reach H s) {name : PyStr} {net : Network} (hn : getNetwork name = .ok net) : Reach H ⟨net, s.vals⟩ := by
  have h : s.step H (.select name) = ⟨net, s.vals⟩ := by
    show Session.mk (selectNetwork name s.net).2 (s.vals ++ []) = _
    unfold selectNetwork
    rw [hn, List.append_nil]
  rw [← h]
  exact .step s _ hs

/-- C131: which exceptions a function of the library raises, of all that programs call it with: those of the table, no others and each of them. The program may hold whatever it likes
(C130), select any network and change lists and bytearrays; the hashes are any. Only the number of arguments is right. -/
theorem C131_raises (H : Hashes) (f : Fn) (hf : f ≠ .copy) (hi : f ≠ .init .other) (e : PyErr) :
    (∃ s args, Reach H s ∧ (∀ a ∈ args, a ∈ s.vals) ∧ args.length = arity f ∧ call ⟨s.net, H⟩ f args = .error e) ↔ e ∈ excs f := by
  constructor
  · rintro ⟨s, args, hs, ha, hl, hc⟩
    obtain ⟨hn, hg⟩ := reach_good hs
    exact raises_call hn (fun a h => hg a (ha a h)) hf hi hl e hc
  · intro he
    obtain ⟨name, net, args, h1, h2, h3, h4⟩ := occurs H hf hi he
    obtain ⟨s, r, n, -, m⟩ := holds_all (fun a ha => canHold (h3 a ha)) _ (reach_select .start h1) rfl
    exact ⟨s, args, r, m, h2, by rw [n]; exact h4⟩

/-- C131: the same of `copy`, of any object that a program holds and whose class has the method: it raises what the constructor raises. -/
theorem C131_copy (H : Hashes) (s : Session) (hs : Reach H s) (c : Cls) (t : List Val) (b : Bytes) (hm : .obj c t b ∈ s.vals) (hc : HasCopy c = true) (e : PyErr) :
    (∃ s' args, Reach H s' ∧ .obj c t b ∈ s'.vals ∧ (∀ a ∈ args, a ∈ s'.vals) ∧ args.length = initArity c ∧ call ⟨s'.net, H⟩ .copy (.obj c t b :: args) = .error e) ↔
    e ∈ initExcs c := by
  constructor
  · rintro ⟨s', args, hs', hm', ha, hl, h⟩
    obtain ⟨hn, hg⟩ := reach_good hs'
    exact raises_copy (hg _ hm') (fun a h => hg a (ha a h)) hc hl e h
  · intro he
    have hco : c ≠ .other := by rintro rfl; cases hc
    obtain ⟨name, net, args, h1, h2, h3, h4⟩ := occurs_init H hco he
    obtain ⟨s', r, n, k, m⟩ := holds_all (fun a ha => canHold (h3 a ha).1) _ (reach_select hs h1) rfl
    refine ⟨s', args, r, k _ hm, m, h2, ?_⟩
    have hlt : t.length = attrCount c := good_count ((reach_good hs).2 _ hm) hco
    rw [n]
    show copyOf ⟨net, H⟩ (.obj c t b) args = .error e
    rw [← h4]
    exact copy_given hc hlt h2 fun a ha => (h3 a ha).2

/-! The hypotheses are met by a program that holds an input whose outpoint it cleared (C130): its `copy` may raise a TypeError, but never an OverflowError. -/

example : (∃ s args, Reach toyEnv.H s ∧ exCleared ∈ s.vals ∧ (∀ a ∈ args, a ∈ s.vals) ∧ args.length = 4 ∧ call ⟨s.net, toyEnv.H⟩ .copy (exCleared :: args) = .error .typeError) ∧
    ¬ ∃ s args, Reach toyEnv.H s ∧ exCleared ∈ s.vals ∧ (∀ a ∈ args, a ∈ s.vals) ∧ args.length = 4 ∧ call ⟨s.net, toyEnv.H⟩ .copy (exCleared :: args) = .error .overflowError :=
  ⟨(C131_copy toyEnv.H _ exReach .txIn _ _ (by simp [exVals, exCleared]) rfl .typeError).2 (by decide),
    fun h => absurd ((C131_copy toyEnv.H _ exReach .txIn _ _ (by simp [exVals, exCleared]) rfl .overflowError).1 h) (by decide)⟩

example (H : Hashes) : (∃ s args, Reach H s ∧ (∀ a ∈ args, a ∈ s.vals) ∧ args.length = 1 ∧ call ⟨s.net, H⟩ (.fromBytes .tx) args = .error .exception) ∧
    ¬ ∃ s args, Reach H s ∧ (∀ a ∈ args, a ∈ s.vals) ∧ args.length = 1 ∧ call ⟨s.net, H⟩ (.fromHex .tx) args = .error .exception :=
  ⟨(C131_raises H (.fromBytes .tx) nofun nofun .exception).2 (by decide), fun h => absurd ((C131_raises H (.fromHex .tx) nofun nofun .exception).1 h) (by decide)⟩

end Verif.Props
