import Verif.Lemmas.Interp
import Verif.Props.ExampleScripts

/-! # C103: who can spend the outputs that the library makes

Bitcoin's rules for spending are in `Spec/Interp`. Decred has other operations and is left out. -/

namespace Verif.Props

open Verif Spec Addresses Builder ExampleScripts Examples

/-- A world with the hash functions of the network, any signature check, any lock time. -/
def world (E : Env) (check : Bool → Bytes → Bytes → Bytes → Bool) (lock : Bytes → Bool) : World :=
  ⟨E.H.sha256, E.hash160, check, lock, E.net.segwit⟩


theorem spends_p2pkh (w : World) {h : Bytes} (hl : h.length = 20) (ss : Bytes) (wit : List Bytes) :
    spends w ss wit (p2pkhScript h) = true ↔
      wit = [] ∧ ∃ key sig rest, evalScript w false ss [] = some (key :: sig :: rest) ∧ w.hash160 key = h ∧
        w.checkSig false (p2pkhScript h) sig key = true := by
  unfold spends
  cases hst : evalScript w false ss [] with
  | none => simp
  | some st =>
    simp only [eval_p2pkh w false hl, (p2pkh_kind hl).1, (p2pkh_kind hl).2, ite_self]
    match st with
    | [] => simp
    | [_] => simp
    | key :: sig :: rest =>
      by_cases c : w.hash160 key = h
      · simp only [c, if_true, truthy_ofBool, Bool.and_eq_true, Option.some.injEq, List.cons.injEq]
        constructor
        · rintro ⟨h1, h2⟩
          exact ⟨by simpa using h2, key, sig, rest, ⟨rfl, rfl, rfl⟩, c, h1⟩
        · rintro ⟨h1, _, _, _, ⟨rfl, rfl, rfl⟩, -, h2⟩
          exact ⟨h2, by simpa using h1⟩
      · simp only [c, if_false]
        constructor
        · intro h; cases h
        · rintro ⟨-, _, _, _, h, h', -⟩
          simp only [Option.some.injEq, List.cons.injEq] at h
          rw [← h.1] at h'
          exact absurd h' c

/-- C103, pay to public key hash: the output is spent exactly by script sigs that leave a key with the right hash and a signature by it, and
no witness. -/
theorem C103_p2pkh (E : Env) (hs : E.net.Supported) (hH : E.H.LengthOK) (check : Bool → Bytes → Bytes → Bytes → Bool)
    (lock : Bytes → Bool) (hd : E.net.isDecred = false) (pubkey s : Bytes) (hm : makeP2pkhOutputScript E pubkey = .ok s)
    (ss : Bytes) (wit : List Bytes) :
    spends (world E check lock) ss wit s = true ↔
      wit = [] ∧ ∃ key sig rest, evalScript (world E check lock) false ss [] = some (key :: sig :: rest) ∧ E.hash160 key = E.hash160 pubkey ∧
        check false s sig key = true := by
  rw [(C29_templates E hs pubkey [] [] rfl).1] at hm
  cases hm
  exact spends_p2pkh _ (E.hash160_length hH _) ss wit

/-- C103, the script sig that the template in script/examples.py makes. -/
theorem C103_p2pkh_sig (E : Env) (hs : E.net.Supported) (hH : E.H.LengthOK) (check : Bool → Bytes → Bytes → Bytes → Bool)
    (lock : Bytes → Bool) (hd : E.net.isDecred = false) (pubkey sig key s ss : Bytes) (hm : makeP2pkhOutputScript E pubkey = .ok s)
    (h1 : 1 ≤ sig.length ∧ sig.length ≤ 520) (h2 : 1 ≤ key.length ∧ key.length ≤ 520)
    (hss : serialize E.net (p2pkhScriptSig (toHex sig) (toHex key)) = .ok ss) :
    spends (world E check lock) ss [] s = true ↔ E.hash160 key = E.hash160 pubkey ∧ check false s sig key = true := by
  rw [C103_p2pkh E hs hH check lock hd pubkey s hm]
  rw [C88_p2pkh_sig E.net hs sig key ⟨h1.1, by omega⟩ ⟨h2.1, by omega⟩] at hss
  cases hss
  have len : ∀ d : Bytes, (minimalPush d).length ≤ d.length + 3 := by
    intro d
    unfold minimalPush
    split
    · simp
    · split <;> simp
  have hl : (minimalPush sig ++ minimalPush key).length ≤ 10000 := by
    have := len sig; have := len key
    rw [List.length_append]; omega
  have := (eval_pushes (world E check lock) false _ [sig, key] (by simpa using ⟨h1, h2⟩) (by simp) hl).1
  rw [this]
  simp only [List.reverse_cons, List.reverse_nil, List.nil_append, List.cons_append, Option.some.injEq, List.cons.injEq, true_and]
  constructor
  · rintro ⟨_, _, _, ⟨rfl, rfl, -⟩, h, h'⟩
    exact ⟨h, h'⟩
  · rintro ⟨h, h'⟩
    exact ⟨_, _, _, ⟨rfl, rfl, rfl⟩, h, h'⟩

theorem spends_witness (w : World) (hw : w.segwit = true) {prog : Bytes} (h1 : 2 ≤ prog.length) (h2 : prog.length ≤ 40) (ss : Bytes)
    (wit : List Bytes) :
    spends w ss wit (0 :: UInt8.ofNat prog.length :: prog) = true ↔ ss = [] ∧ truthy prog = true ∧ verifyWitness w 0 prog wit = true := by
  unfold spends
  cases hst : evalScript w false ss [] with
  | none =>
    constructor
    · intro h; cases h
    · rintro ⟨rfl, -⟩
      have : evalScript w false [] [] = some [] := rfl
      rw [this] at hst
      cases hst
  | some st =>
    simp only [eval_witness w false (show 1 ≤ prog.length by omega) (show prog.length ≤ 75 by omega), witness_kind h1 h2, hw, if_true,
      Bool.and_eq_true, beq_iff_eq]
    constructor
    · rintro ⟨a, b, c⟩; exact ⟨b, a, c⟩
    · rintro ⟨a, b, c⟩; exact ⟨b, a, c⟩

theorem verify_p2wpkh (w : World) {h : Bytes} (hl : h.length = 20) (wit : List Bytes) :
    verifyWitness w 0 h wit = true ↔ ∃ sig key, wit = [sig, key] ∧ sig.length ≤ 520 ∧ key.length ≤ 520 ∧ w.hash160 key = h ∧
      w.checkSig true (p2pkhScript h) sig key = true := by
  have fold : ([0x76, 0xa9, 0x14] ++ h ++ [0x88, 0xac] : Bytes) = p2pkhScript h := rfl
  unfold verifyWitness
  simp only [hl, if_true, fold, eval_p2pkh w true hl]
  match wit with
  | [] => simp
  | [_] => simp
  | _ :: _ :: _ :: _ => simp
  | [sig, key] =>
    by_cases c : w.hash160 key = h
    · simp [c, truthy_ofBool]
      constructor
      · rintro ⟨⟨a, b⟩, d⟩; exact ⟨b, a, d⟩
      · rintro ⟨b, a, d⟩; exact ⟨⟨a, b⟩, d⟩
    · simp [c]

/-- C103, pay to witness public key hash: exactly by an empty script sig and a witness of a signature and a key with the right hash. (An
output whose hash is zero or negative zero cannot be spent.) -/
theorem C103_p2wpkh (E : Env) (hs : E.net.Supported) (hH : E.H.LengthOK) (check : Bool → Bytes → Bytes → Bytes → Bool)
    (lock : Bytes → Bool) (hd : E.net.isDecred = false) (pubkey s : Bytes) (hm : makeP2wpkhOutputScript E pubkey = .ok s)
    (ss : Bytes) (wit : List Bytes) :
    spends (world E check lock) ss wit s = true ↔
      ss = [] ∧ truthy (E.hash160 pubkey) = true ∧ ∃ sig key, wit = [sig, key] ∧ sig.length ≤ 520 ∧ key.length ≤ 520 ∧
        E.hash160 key = E.hash160 pubkey ∧ check true (p2pkhScript (E.hash160 pubkey)) sig key = true := by
  have t := C29_templates E hs pubkey [] [] rfl
  cases hsw : E.net.segwit with
  | false => rw [(t.2.2.2 hsw).1] at hm; cases hm
  | true =>
    rw [(t.2.2.1 hsw).1] at hm
    cases hm
    have hl := E.hash160_length hH pubkey
    have e : p2wpkhScript (E.hash160 pubkey) = 0 :: UInt8.ofNat (E.hash160 pubkey).length :: E.hash160 pubkey := by rw [hl]; rfl
    rw [e, spends_witness _ hsw (by omega) (by omega), verify_p2wpkh _ hl]
    rfl

theorem spends_p2sh (w : World) {h : Bytes} (hl : h.length = 20) (ss : Bytes) (wit : List Bytes) :
    spends w ss wit (p2shScript h) = true ↔
      pushOnly ss = true ∧ ∃ r st y st', evalScript w false ss [] = some (r :: st) ∧ w.hash160 r = h ∧
        evalScript w false r st = some (y :: st') ∧ truthy y = true ∧
        match (if w.segwit then witnessProgram r else none) with
        | some (v, prog) => ss = minimalPush r ∧ verifyWitness w v prog wit = true
        | none => wit = [] := by
  unfold spends
  cases hst : evalScript w false ss [] with
  | none => simp
  | some st =>
    simp only [eval_p2sh w false hl, (p2sh_kind hl).1, (p2sh_kind hl).2, ite_self, if_true]
    match st with
    | [] => simp
    | r :: st =>
      simp only [truthy_ofBool, Bool.and_eq_true, beq_iff_eq, Option.some.injEq, List.cons.injEq]
      cases hr : evalScript w false r st with
      | none =>
        constructor
        · rintro ⟨-, -, h⟩; cases h
        · rintro ⟨-, _, _, _, _, ⟨rfl, rfl⟩, -, h, -⟩
          rw [hr] at h; cases h
      | some l =>
        match l with
        | [] =>
          constructor
          · rintro ⟨-, -, h⟩; cases h
          · rintro ⟨-, _, _, _, _, ⟨rfl, rfl⟩, -, h, -⟩
            rw [hr] at h; cases h
        | y :: st' =>
          simp only [Bool.and_eq_true]
          cases hw : (if w.segwit then witnessProgram r else none) with
          | none =>
            constructor
            · rintro ⟨h1, h2, h3, h4⟩
              exact ⟨h2, r, st, y, st', ⟨rfl, rfl⟩, h1.symm, hr, h3, by rw [hw]; simpa using h4⟩
            · rintro ⟨h1, _, _, _, _, ⟨rfl, rfl⟩, h2, h3, h4, h5⟩
              rw [hr] at h3
              cases h3
              rw [hw] at h5
              exact ⟨h2.symm, h1, h4, by simpa using h5⟩
          | some p =>
            obtain ⟨v, prog⟩ := p
            constructor
            · rintro ⟨h1, h2, h3, h4⟩
              exact ⟨h2, r, st, y, st', ⟨rfl, rfl⟩, h1.symm, hr, h3, by rw [hw]; simpa using h4⟩
            · rintro ⟨h1, _, _, _, _, ⟨rfl, rfl⟩, h2, h3, h4, h5⟩
              rw [hr] at h3
              cases h3
              rw [hw] at h5
              exact ⟨h2.symm, h1, h4, by simpa using h5⟩

/-- C103, pay to script hash: whoever spends the output shows a script of at most 520 bytes with the right hash, and elements on which that
script comes out true. -/
theorem C103_p2sh (E : Env) (hs : E.net.Supported) (hH : E.H.LengthOK) (check : Bool → Bytes → Bytes → Bytes → Bool)
    (lock : Bytes → Bool) (hd : E.net.isDecred = false) (redeem : PyStr) (b s : Bytes) (hb : serialize E.net redeem = .ok b)
    (hm : makeP2shOutputScript E redeem = .ok s) (ss : Bytes) (wit : List Bytes)
    (h : spends (world E check lock) ss wit s = true) :
    ∃ r st y st', evalScript (world E check lock) false ss [] = some (r :: st) ∧ r.length ≤ 520 ∧ E.hash160 r = E.hash160 b ∧
      evalScript (world E check lock) false r st = some (y :: st') ∧ truthy y = true := by
  rw [(C29_templates E hs [] redeem b hb).2.1] at hm
  cases hm
  obtain ⟨hp, r, st, y, st', h1, h2, h3, h4, -⟩ := (spends_p2sh _ (E.hash160_length hH b) ss wit).1 h
  exact ⟨r, st, y, st', h1, eval_pushOnly_small hp h1 r (by simp), h2, h3, h4⟩

/-- C103, the script sig that `make_script_sig` makes of a stack script of pushes spends the output of the redeem script exactly if the redeem
script has at most 520 bytes and comes out true on what the stack script pushes. -/
theorem C103_p2sh_sig (E : Env) (hs : E.net.Supported) (hH : E.H.LengthOK) (check : Bool → Bytes → Bytes → Bytes → Bool)
    (lock : Bytes → Bool) (hd : E.net.isDecred = false) (stack redeem : PyStr) (x b s ss : Bytes) (hx : serialize E.net stack = .ok x)
    (hb : serialize E.net redeem = .ok b) (hm : makeP2shOutputScript E redeem = .ok s) (hss : makeScriptSig E stack redeem = .ok ss)
    (hb1 : 1 ≤ b.length) (hw : witnessProgram b = none) (hp : pushOnly x = true) (hl : x.length ≤ 8000) :
    spends (world E check lock) ss [] s = true ↔
      b.length ≤ 520 ∧ ∃ st y st', evalScript (world E check lock) false x [] = some st ∧
        evalScript (world E check lock) false b st = some (y :: st') ∧ truthy y = true := by
  rw [(C29_templates E hs [] redeem b hb).2.1] at hm
  cases hm
  have hb2 : b.length ≤ 1000 := by
    refine Nat.le_of_not_lt fun hc => ?_
    rw [(C70_script_sig_ends E hs stack redeem x b hx hb).1 hc] at hss
    cases hss
  rw [C70_script_sig E hs stack redeem x b hx hb hb1 hb2] at hss
  cases hss
  have len : (minimalPush b).length ≤ b.length + 3 := by
    unfold minimalPush
    split
    · simp
    · split <;> simp
  obtain ⟨e1, e2⟩ := eval_append_push (world E check lock) false hp hb1 (by omega) (by rw [List.length_append]; omega)
  rw [spends_p2sh _ (E.hash160_length hH b), e2]
  constructor
  · rintro ⟨-, r, st, y, st', h1, -, h2, h3, -⟩
    by_cases c : b.length ≤ 520
    · rw [if_pos c] at h1
      cases hv : evalScript (world E check lock) false x [] with
      | none => rw [hv] at h1; cases h1
      | some q =>
        rw [hv] at h1
        cases h1
        exact ⟨c, st, y, st', rfl, h2, h3⟩
    · rw [if_neg c] at h1; cases h1
  · rintro ⟨c, st, y, st', h1, h2, h3⟩
    refine ⟨e1, b, st, y, st', by rw [if_pos c, h1]; rfl, rfl, h2, h3, ?_⟩
    rw [hw, ite_self]

/-- C103 fails for large redeem scripts: the library makes the address, the output and (up to 1000 bytes) the script sig, but the script sig does
not spend the output, nor does anything else that does not find another script with the same hash. -/
theorem C103_p2sh_false (E : Env) (hs : E.net.Supported) (hH : E.H.LengthOK) (check : Bool → Bytes → Bytes → Bytes → Bool)
    (lock : Bytes → Bool) (hd : E.net.isDecred = false) (redeem : PyStr) (b : Bytes) (hb : serialize E.net redeem = .ok b)
    (hl : 520 < b.length) :
    (∃ a s, makeP2shAddress E redeem = .ok (some a) ∧ makeP2shOutputScript E redeem = .ok s ∧ toOutputScript E a = .ok s ∧
      ∀ ss wit, spends (world E check lock) ss wit s = true → ∃ r, r ≠ b ∧ E.hash160 r = E.hash160 b) ∧
    (b.length ≤ 1000 → ∀ stack x, serialize E.net stack = .ok x → ∃ ss s, makeScriptSig E stack redeem = .ok ss ∧
      makeP2shOutputScript E redeem = .ok s ∧ (pushOnly x = true → x.length ≤ 8000 → ∀ wit, spends (world E check lock) ss wit s = false)) := by
  constructor
  · obtain ⟨a, _, s, h1, -, h2, h3, -⟩ := C29_p2sh E hs hH redeem b hb
    refine ⟨a, s, h1, h2, h3, fun ss wit h => ?_⟩
    obtain ⟨r, _, _, _, -, hr, e, -⟩ := C103_p2sh E hs hH check lock hd redeem b s hb h2 ss wit h
    exact ⟨r, fun c => by rw [c] at hr; omega, e⟩
  · intro hl' stack x hx
    refine ⟨_, _, C70_script_sig E hs stack redeem x b hx hb (by omega) hl', (C29_templates E hs [] redeem b hb).2.1, fun hp hl2 wit => ?_⟩
    have len : (minimalPush b).length ≤ b.length + 3 := by
      unfold minimalPush
      split
      · simp
      · split <;> simp
    have hb1 : 1 ≤ b.length := by omega
    have hb2 : b.length < 65536 := by omega
    have e2 := (eval_append_push (world E check lock) false hp hb1 hb2 (by rw [List.length_append]; omega)).2
    unfold spends
    rw [e2, if_neg (by omega)]

/-- C103, pay to witness script hash: exactly by an empty script sig and a witness that ends with a script with the right hash, on whose other
elements that script comes out true, with nothing else left. -/
theorem C103_p2wsh (E : Env) (hs : E.net.Supported) (hH : E.H.LengthOK) (check : Bool → Bytes → Bytes → Bytes → Bool)
    (lock : Bytes → Bool) (hd : E.net.isDecred = false) (script : PyStr) (b s : Bytes) (hb : serialize E.net script = .ok b)
    (hm : makeP2wshOutputScript E script = .ok s) (ss : Bytes) (wit : List Bytes) :
    spends (world E check lock) ss wit s = true ↔
      ss = [] ∧ truthy (E.H.sha256 b) = true ∧ ∃ items r y, wit = items ++ [r] ∧ E.H.sha256 r = E.H.sha256 b ∧ (∀ i ∈ items, i.length ≤ 520) ∧
        evalScript (world E check lock) true r items.reverse = some [y] ∧ truthy y = true := by
  have t := C29_templates E hs [] script b hb
  cases hsw : E.net.segwit with
  | false => rw [(t.2.2.2 hsw).2] at hm; cases hm
  | true =>
    rw [(t.2.2.1 hsw).2] at hm
    cases hm
    have hl : (E.H.sha256 b).length = 32 := hH.sha256 b
    have e : p2wshScript (E.H.sha256 b) = 0 :: UInt8.ofNat (E.H.sha256 b).length :: E.H.sha256 b := by rw [hl]; rfl
    rw [e, spends_witness _ hsw (by omega) (by omega)]
    refine and_congr_right fun _ => and_congr_right fun _ => ?_
    unfold verifyWitness
    simp only [if_true, hl]
    rw [if_neg (by decide)]
    have hwit : wit.reverse.reverse = wit := List.reverse_reverse wit
    cases hrev : wit.reverse with
    | nil =>
      constructor
      · intro h; cases h
      · rintro ⟨items, r, y, rfl, -⟩
        simp at hrev
    | cons r st =>
      rw [hrev, List.reverse_cons] at hwit
      simp only [Bool.and_eq_true, beq_iff_eq, List.all_eq_true, decide_eq_true_eq]
      constructor
      · rintro ⟨h1, h2, h3⟩
        split at h3
        · rename_i y hy
          exact ⟨st.reverse, r, y, hwit.symm, h1, fun i hi => h2 i (by simpa using hi), by rw [List.reverse_reverse]; exact hy, h3⟩
        · cases h3
      · rintro ⟨items, r', y, e', h1, h2, h3, h4⟩
        rw [← hwit] at e'
        obtain ⟨e1, e2⟩ := List.append_inj' e' rfl
        cases e2
        rw [← e1] at h2 h3
        rw [List.reverse_reverse] at h3
        refine ⟨h1, fun i hi => h2 i (by simpa using hi), ?_⟩
        rw [h3]
        exact h4

/-- C103 fails for large witness scripts: the library makes the address and the output, but nothing spends it that does not find another script
with the same hash. -/
theorem C103_p2wsh_false (E : Env) (hs : E.net.Supported) (hH : E.H.LengthOK) (check : Bool → Bytes → Bytes → Bytes → Bool)
    (lock : Bytes → Bool) (hd : E.net.isDecred = false) (hsw : E.net.segwit = true) (script : PyStr) (b : Bytes)
    (hb : serialize E.net script = .ok b) (hl : 10000 < b.length) :
    ∃ a s, makeP2wshAddress E script = .ok (some a) ∧ makeP2wshOutputScript E script = .ok s ∧
      ∀ ss wit, spends (world E check lock) ss wit s = true → ∃ r, r ≠ b ∧ E.H.sha256 r = E.H.sha256 b := by
  obtain ⟨a, s, h1, h2, -⟩ := C29_p2wsh E hs hH hsw script b hb
  refine ⟨a, s, h1, h2, fun ss wit h => ?_⟩
  obtain ⟨-, -, items, r, y, -, e, -, h3, -⟩ := (C103_p2wsh E hs hH check lock hd script b s hb h2 ss wit).1 h
  refine ⟨r, fun c => ?_, e⟩
  subst c
  unfold evalScript at h3
  rw [if_pos hl] at h3
  cases h3

/-- C103: outputs with data are never spent. -/
theorem C103_op_return (E : Env) (w : World) (d : Bytes) (o : TxOut) (hd : E.net.isDecred = false) (h : makeOpReturnOutput E d = .ok (.std o))
    (ss : Bytes) (wit : List Bytes) : spends w ss wit o.outputScript = false := by
  have hs' : ∃ p, o.outputScript = 0x6a :: p := by
    by_cases c : d.length ≤ 77
    · obtain ⟨o', h1, -, -, h2, -⟩ := (C67_accepts E hd d).1 c
      rw [h1] at h
      cases h
      exact ⟨_, h2⟩
    · rw [(C67_accepts E hd d).2 (by omega)] at h
      cases h
  obtain ⟨p, hp⟩ := hs'
  have ev : ∀ st, evalScript w false (0x6a :: p) st = none := by
    intro st
    unfold evalScript
    split
    · rfl
    · have hn : nextItem (0x6a :: p) = some (.op 0x6a, p) := by
        simp only [nextItem]
        rw [if_neg (by decide), if_neg (by decide), if_neg (by decide), if_neg (by decide)]
      rw [scriptItems_next hn]
      cases scriptItems p with
      | none => rfl
      | some is =>
        simp only [Option.map_some]
        rw [run_op (by decide) _ _ _ rfl]
        rfl
  unfold spends
  rw [hp]
  simp only [ev]
  split <;> rfl

theorem minimalPush_length (d : Bytes) : (minimalPush d).length ≤ d.length + 3 := by
  unfold minimalPush
  split
  · simp
  · split <;> simp

/-- C103, witness public key hash inside script hash: the output of the script `OP_0 <hash>` is spent by the script sig that pushes the script
and the witness of a signature and a key with that hash. -/
theorem C103_nested (E : Env) (hs : E.net.Supported) (hH : E.H.LengthOK) (check : Bool → Bytes → Bytes → Bytes → Bool)
    (lock : Bytes → Bool)
    (hd : E.net.isDecred = false) (hsw : E.net.segwit = true) (pubkey s : Bytes)
    (hm : makeP2shOutputScript E (pystr "OP_0 " ++ toHex (E.hash160 pubkey)) = .ok s) (wit : List Bytes) :
    spends (world E check lock) (minimalPush (p2wpkhScript (E.hash160 pubkey))) wit s = true ↔
      truthy (E.hash160 pubkey) = true ∧ ∃ sig key, wit = [sig, key] ∧ sig.length ≤ 520 ∧ key.length ≤ 520 ∧
        E.hash160 key = E.hash160 pubkey ∧ check true (p2pkhScript (E.hash160 pubkey)) sig key = true := by
  have hl := E.hash160_length hH pubkey
  have ser : serialize E.net (pystr "OP_0 " ++ toHex (E.hash160 pubkey)) = .ok (p2wpkhScript (E.hash160 pubkey)) := by
    have := (C88_outputs E.net hs (E.hash160 pubkey) (List.replicate 32 0) hl (by simp)).2.2.1
    simpa [p2w] using this
  rw [(C29_templates E hs [] _ _ ser).2.1] at hm
  cases hm
  have e : p2wpkhScript (E.hash160 pubkey) = 0 :: UInt8.ofNat (E.hash160 pubkey).length :: E.hash160 pubkey := by rw [hl]; rfl
  have len : (p2wpkhScript (E.hash160 pubkey)).length = 22 := by simp [p2wpkhScript, hl]
  have len' := minimalPush_length (p2wpkhScript (E.hash160 pubkey))
  obtain ⟨e1, e2⟩ := eval_pushes (world E check lock) false (minimalPush (p2wpkhScript (E.hash160 pubkey))) [p2wpkhScript (E.hash160 pubkey)]
    (by simp [len]) (by simp) (by omega)
  have ew := eval_witness (world E check lock) false (prog := E.hash160 pubkey) (by omega) (by omega)
  rw [← e] at ew
  have ek := witness_kind (prog := E.hash160 pubkey) (by omega) (by omega)
  rw [← e] at ek
  refine Iff.trans ?_ (and_congr_right fun _ => verify_p2wpkh (world E check lock) hl wit)
  rw [spends_p2sh _ (E.hash160_length hH _), e1]
  have hw : (world E check lock).segwit = true := hsw
  constructor
  · rintro ⟨-, r, st, y, st', h1, -, h3, h4, h5⟩
    cases h1
    rw [ew] at h3
    cases h3
    rw [hw, if_pos rfl, ek] at h5
    exact ⟨h4, h5.2⟩
  · rintro ⟨h1, h2⟩
    refine ⟨e2, _, _, _, _, rfl, rfl, ew [], h1, ?_⟩
    rw [hw, if_pos rfl, ek]
    exact ⟨rfl, h2⟩

/-- C103, two of two: the script sig made of the templates spends the output exactly if both signatures are good; and whoever spends it, with
whatever script sig, has signatures by both keys or another script with the same hash. -/
theorem C103_msig (E : Env) (hs : E.net.Supported) (hH : E.H.LengthOK) (check : Bool → Bytes → Bytes → Bytes → Bool)
    (lock : Bytes → Bool)
    (hd : E.net.isDecred = false) (a b : Bytes) (ha : 1 ≤ a.length ∧ a.length ≤ 75) (hb : 1 ≤ b.length ∧ b.length ≤ 75) :
    ∃ r s, serialize E.net (msigTwoTwo (toHex a) (toHex b)) = .ok r ∧ r.length ≤ 155 ∧ makeP2shOutputScript E (msigTwoTwo (toHex a) (toHex b)) = .ok s ∧
      (∀ x y : Bytes, 1 ≤ x.length ∧ x.length ≤ 520 → 1 ≤ y.length ∧ y.length ≤ 520 →
        ∃ ss, makeScriptSig E (msigTwoTwoStackScript (toHex x) (toHex y)) (msigTwoTwo (toHex a) (toHex b)) = .ok ss ∧
          (spends (world E check lock) ss [] s = true ↔ check false r x a = true ∧ check false r y b = true)) ∧
      ∀ ss wit, spends (world E check lock) ss wit s = true →
        (∃ x y, check false r x a = true ∧ check false r y b = true) ∨ ∃ r', r' ≠ r ∧ E.hash160 r' = E.hash160 r := by
  have ser := (C88_msig E.net hs a b a b ⟨ha.1, by omega⟩ ⟨hb.1, by omega⟩ ⟨ha.1, by omega⟩ ⟨hb.1, by omega⟩).1
  generalize hr : [0x52] ++ minimalPush a ++ minimalPush b ++ [0x52, 0xae] = r at ser
  have out := (C29_templates E hs [] _ _ ser).2.1
  have pa : minimalPush a = UInt8.ofNat a.length :: a := by unfold minimalPush; rw [if_pos ha.2]
  have pb : minimalPush b = UInt8.ofNat b.length :: b := by unfold minimalPush; rw [if_pos hb.2]
  have rlen : r.length = a.length + b.length + 5 := by
    rw [← hr, pa, pb]
    simp only [List.length_append, List.length_cons, List.length_nil]
    omega
  have hev := eval_msig (world E check lock) false ⟨ha.1, by omega⟩ ⟨hb.1, by omega⟩ hr.symm (by omega)
  have nw : witnessProgram r = none := by
    rw [← hr, pa]
    simp only [List.cons_append, List.nil_append, witnessProgram]
    rw [if_neg]
    rintro ⟨-, -, -, h⟩
    rw [UInt8.toNat_ofNat'] at h
    simp only [List.length_append, List.length_cons, List.length_nil] at h
    omega
  refine ⟨r, _, ser, by omega, out, fun x y hx hy => ?_, fun ss wit h => ?_⟩
  · have ser2 := (C88_msig E.net hs a b x y ⟨ha.1, by omega⟩ ⟨hb.1, by omega⟩ ⟨hx.1, by omega⟩ ⟨hy.1, by omega⟩).2
    have hss := C70_script_sig E hs _ _ _ r ser2 ser (by omega) (by omega)
    refine ⟨_, hss, ?_⟩
    have e : [0x00] ++ minimalPush x ++ minimalPush y = [ScriptItem.op 0, .push x, .push y].flatMap ScriptItem.wire := by
      simp [ScriptItem.wire]
    have hi : scriptItems ([0x00] ++ minimalPush x ++ minimalPush y) = some [.op 0, .push x, .push y] := by
      rw [e]
      refine scriptItems_wire _ ?_
      simp only [List.forall_mem_cons, PlainItem]
      exact ⟨.inl trivial, ⟨hx.1, by omega⟩, ⟨hy.1, by omega⟩, by simp⟩
    have hp : pushOnly ([0x00] ++ minimalPush x ++ minimalPush y) = true := by
      unfold pushOnly; rw [hi]; rfl
    have lx := minimalPush_length x
    have ly := minimalPush_length y
    have hl : ([0x00] ++ minimalPush x ++ minimalPush y).length ≤ 8000 := by
      simp only [List.length_append, List.length_cons, List.length_nil]; omega
    have ev : evalScript (world E check lock) false ([0x00] ++ minimalPush x ++ minimalPush y) [] = some [y, x, []] := by
      rw [evalScript_items (by omega) hi]
      have h1 : ¬ 520 < x.length := by omega
      have h2 : ¬ 520 < y.length := by omega
      simp [runItems, runItem, runOp, h1, h2]
    rw [C103_p2sh_sig E hs hH check lock hd _ _ _ r _ _ ser2 ser out hss (by omega) nw hp hl, ev]
    constructor
    · rintro ⟨-, st, z, st', h1, h2, h3⟩
      cases h1
      rw [hev] at h2
      cases h2
      rw [truthy_ofBool, Bool.and_eq_true] at h3
      exact ⟨h3.2, h3.1⟩
    · rintro ⟨h1, h2⟩
      refine ⟨by omega, _, _, _, rfl, by rw [hev], ?_⟩
      rw [truthy_ofBool, Bool.and_eq_true]
      exact ⟨h2, h1⟩
  · obtain ⟨r', st, y, st', -, -, e, h1, h2⟩ := C103_p2sh E hs hH check lock hd _ r _ ser out ss wit h
    by_cases c : r' = r
    · subst c
      rw [hev] at h1
      match st with
      | [] => cases h1
      | [_] => cases h1
      | [_, _] => cases h1
      | t :: u :: _ :: rest =>
        cases h1
        rw [truthy_ofBool, Bool.and_eq_true] at h2
        exact .inl ⟨u, t, h2.2, h2.1⟩
    · exact .inr ⟨r', c, e⟩

theorem eval_htlc_true {w : World} {code x p t q : Bytes} {st st' : List Bytes} {y : Bytes}
    (h : htlcStack w false code x p t q st = some (y :: st')) (hy : truthy y = true) :
    (∃ secret key sig, w.sha256 secret = x ∧ w.hash160 key = p ∧ w.checkSig false code sig key = true) ∨
    (w.lockTime t = true ∧ ∃ key sig, w.hash160 key = q ∧ w.checkSig false code sig key = true) := by
  unfold htlcStack at h
  match st with
  | [] => cases h
  | c :: st =>
    simp only at h
    by_cases hc : truthy c = true
    · rw [if_pos hc] at h
      match st with
      | [] => cases h
      | [_] => cases h
      | [_, _] => cases h
      | secret :: key :: sig :: rest =>
        simp only at h
        by_cases e : w.sha256 secret = x ∧ w.hash160 key = p
        · rw [if_pos e] at h
          cases h
          rw [truthy_ofBool] at hy
          exact .inl ⟨secret, key, sig, e.1, e.2, hy⟩
        · rw [if_neg e] at h; cases h
    · rw [if_neg hc] at h
      match st with
      | [] => cases h
      | [_] => cases h
      | key :: sig :: rest =>
        simp only at h
        by_cases e : w.lockTime t = true ∧ w.hash160 key = q
        · rw [if_pos e] at h
          cases h
          rw [truthy_ofBool] at hy
          exact .inr ⟨e.1, key, sig, e.2, hy⟩
        · rw [if_neg e] at h; cases h

/-- C103, the hash time-lock contract of examples/sapling_htlc_example.py: with the secret the first key can spend it, after the time the second
key can, and nobody else: whoever spends it shows a preimage of the hash of the secret with a signature by a key with the first hash, or the
time is over and they have a signature by a key with the second hash, or they know another script with the same hash. -/
theorem C103_htlc (E : Env) (hs : E.net.Supported) (hH : E.H.LengthOK) (check : Bool → Bytes → Bytes → Bytes → Bool)
    (lock : Bytes → Bool)
    (hd : E.net.isDecred = false) (secret pk0 pk1 timeout : Bytes) (h1 : 1 ≤ secret.length ∧ secret.length ≤ 520)
    (h2 : 1 ≤ pk0.length ∧ pk0.length ≤ 520) (h3 : 1 ≤ pk1.length ∧ pk1.length ≤ 520) (h4 : 1 ≤ timeout.length ∧ timeout.length ≤ 5)
    (v : Int) (hv : 0 ≤ v) (hv' : v < 2 ^ 64) :
    ∃ redeem a o r, htlcOutput E (toHex secret) (toHex pk0) (toHex pk1) (toHex timeout) v = .ok (redeem, some a, .std o) ∧
      serialize E.net redeem = .ok r ∧ r.length ≤ 126 ∧
      (∀ sig : Bytes, 1 ≤ sig.length ∧ sig.length ≤ 520 → ∃ ss, makeScriptSig E (htlcExecute (toHex sig) (toHex pk0) (toHex secret)) redeem = .ok ss ∧
        (spends (world E check lock) ss [] o.outputScript = true ↔ check false r sig pk0 = true)) ∧
      (∀ sig : Bytes, 1 ≤ sig.length ∧ sig.length ≤ 520 → ∃ ss, makeScriptSig E (htlcRefund (toHex sig) (toHex pk1)) redeem = .ok ss ∧
        (spends (world E check lock) ss [] o.outputScript = true ↔ lock timeout = true ∧ check false r sig pk1 = true)) ∧
      ∀ ss wit, spends (world E check lock) ss wit o.outputScript = true →
        (∃ secret' key sig, E.H.sha256 secret' = E.H.sha256 secret ∧ E.hash160 key = E.hash160 pk0 ∧ check false r sig key = true) ∨
        (lock timeout = true ∧ ∃ key sig, E.hash160 key = E.hash160 pk1 ∧ check false r sig key = true) ∨
        ∃ r', r' ≠ r ∧ E.hash160 r' = E.hash160 r := by
  have l1 : (E.H.sha256 secret).length = 32 := hH.sha256 secret
  have l2 := E.hash160_length hH pk0
  have l3 := E.hash160_length hH pk1
  obtain ⟨redeem, a, o, ho, r, hr, -, hos, -, -, -⟩ := C102_htlc_partial E hs hH hd secret pk0 pk1 timeout pk0 ⟨h1.1, by omega⟩ ⟨h2.1, by omega⟩
    ⟨h3.1, by omega⟩ h4 ⟨h2.1, by omega⟩ v hv hv'
  have hsig : ∀ sig : Bytes, 1 ≤ sig.length ∧ sig.length ≤ 520 →
      makeScriptSig E (htlcExecute (toHex sig) (toHex pk0) (toHex secret)) redeem =
        .ok (minimalPush sig ++ minimalPush pk0 ++ minimalPush secret ++ [0x51] ++ minimalPush r) ∧
      makeScriptSig E (htlcRefund (toHex sig) (toHex pk1)) redeem = .ok (minimalPush sig ++ minimalPush pk1 ++ [0x00] ++ minimalPush r) := by
    intro sig hsig
    obtain ⟨redeem', a', o', ho', r', hr', -, -, -, x1, x2⟩ := C102_htlc_partial E hs hH hd secret pk0 pk1 timeout sig ⟨h1.1, by omega⟩
      ⟨h2.1, by omega⟩ ⟨h3.1, by omega⟩ h4 ⟨hsig.1, by omega⟩ v hv hv'
    rw [ho] at ho'
    cases ho'
    rw [← hr] at hr'
    subst hr'
    exact ⟨x1, x2⟩
  have ser : serialize E.net redeem = .ok r := by
    have he : redeem = htlcRedeemScript (toHex (E.H.sha256 secret)) (toHex (E.hash160 pk0)) (toHex timeout) (toHex (E.hash160 pk1)) := by
      unfold htlcOutput at ho
      simp only [fromHex_toHex, ok_bind, bind_ok_iff] at ho
      obtain ⟨_, -, ho⟩ := ho
      split at ho
      · cases ho
      · simp only [bind_ok_iff] at ho
        obtain ⟨_, -, ho⟩ := ho
        cases ho
        rfl
    have := C88_htlc E.net hs (E.H.sha256 secret) (E.hash160 pk0) timeout (E.hash160 pk1) ⟨by omega, by omega⟩ ⟨by omega, by omega⟩
      ⟨h4.1, by omega⟩ ⟨by omega, by omega⟩
    rw [hd, if_neg (by simp)] at this
    rw [he, this, hr]
    simp
  have out := (C29_templates E hs [] redeem r ser).2.1
  have hr' : r = htlcBytes (E.H.sha256 secret) (E.hash160 pk0) timeout (E.hash160 pk1) := hr
  have rlen : 1 ≤ r.length ∧ r.length ≤ 126 := by
    rw [hr]
    unfold minimalPush
    rw [if_pos (by omega), if_pos (by omega), if_pos (by omega), if_pos (by omega)]
    simp only [List.length_append, List.length_cons, List.length_nil]
    omega
  have nw : witnessProgram r = none := by
    rw [hr]
    simp only [List.cons_append, List.nil_append, witnessProgram, List.append_assoc]
    rw [if_neg]
    rintro ⟨h | h, -⟩
    · revert h; decide
    · revert h; decide
  have hev : ∀ st, evalScript (world E check lock) false r st =
      htlcStack (world E check lock) false r (E.H.sha256 secret) (E.hash160 pk0) timeout (E.hash160 pk1) st := by
    intro st
    rw [hr']
    exact eval_htlc _ _ (by omega) (by omega) (by omega) (by omega) (by rw [← hr']; omega) st
  have t1 : truthy [1] = true := by decide
  have t0 : truthy [] = false := by decide
  refine ⟨redeem, a, o, r, ho, ser, rlen.2, fun sig hg => ⟨_, (hsig sig hg).1, ?_⟩, fun sig hg => ⟨_, (hsig sig hg).2, ?_⟩, fun ss wit h => ?_⟩
  · have e : minimalPush sig ++ minimalPush pk0 ++ minimalPush secret ++ [0x51] =
        [ScriptItem.push sig, .push pk0, .push secret, .op 0x51].flatMap ScriptItem.wire := by simp [ScriptItem.wire]
    have hi : scriptItems (minimalPush sig ++ minimalPush pk0 ++ minimalPush secret ++ [0x51]) =
        some [.push sig, .push pk0, .push secret, .op 0x51] := by
      rw [e]
      refine scriptItems_wire _ ?_
      simp only [List.forall_mem_cons, PlainItem]
      exact ⟨⟨hg.1, by omega⟩, ⟨h2.1, by omega⟩, ⟨h1.1, by omega⟩, .inr (by decide), by simp⟩
    have hp : pushOnly (minimalPush sig ++ minimalPush pk0 ++ minimalPush secret ++ [0x51]) = true := by unfold pushOnly; rw [hi]; rfl
    have q1 := minimalPush_length sig
    have q2 := minimalPush_length pk0
    have q3 := minimalPush_length secret
    have hl : (minimalPush sig ++ minimalPush pk0 ++ minimalPush secret ++ [0x51]).length ≤ 8000 := by
      simp only [List.length_append, List.length_cons, List.length_nil]; omega
    have ev : evalScript (world E check lock) false (minimalPush sig ++ minimalPush pk0 ++ minimalPush secret ++ [0x51]) [] =
        some [[1], secret, pk0, sig] := by
      rw [evalScript_items (by omega) hi]
      have c1 : ¬ 520 < sig.length := by omega
      have c2 : ¬ 520 < pk0.length := by omega
      have c3 : ¬ 520 < secret.length := by omega
      simp [runItems, runItem, runOp, c1, c2, c3]
    obtain ⟨f1, f2⟩ := eval_append_push (world E check lock) false hp rlen.1 (by omega) (by
      have := minimalPush_length r
      rw [List.length_append]; omega)
    rw [hos, spends_p2sh _ (E.hash160_length hH r), f2, ev, if_pos (show r.length ≤ 520 by omega)]
    constructor
    · rintro ⟨-, r', st, y, st', x1, -, x2, x3, -⟩
      cases x1
      rw [hev] at x2
      simp only [htlcStack, t1, if_true] at x2
      rw [if_pos ⟨rfl, rfl⟩] at x2
      cases x2
      rw [truthy_ofBool] at x3
      exact x3
    · intro hc
      refine ⟨f1, r, _, ofBool (check false r sig pk0), [], rfl, rfl, ?_, ?_, ?_⟩
      · rw [hev]
        simp only [htlcStack, t1, if_true]
        rw [if_pos ⟨rfl, rfl⟩]
        rfl
      · rw [truthy_ofBool]; exact hc
      · rw [nw, ite_self]
  · have e : minimalPush sig ++ minimalPush pk1 ++ [0x00] = [ScriptItem.push sig, .push pk1, .op 0x00].flatMap ScriptItem.wire := by
      simp [ScriptItem.wire]
    have hi : scriptItems (minimalPush sig ++ minimalPush pk1 ++ [0x00]) = some [.push sig, .push pk1, .op 0x00] := by
      rw [e]
      refine scriptItems_wire _ ?_
      simp only [List.forall_mem_cons, PlainItem]
      exact ⟨⟨hg.1, by omega⟩, ⟨h3.1, by omega⟩, .inl trivial, by simp⟩
    have hp : pushOnly (minimalPush sig ++ minimalPush pk1 ++ [0x00]) = true := by unfold pushOnly; rw [hi]; rfl
    have q1 := minimalPush_length sig
    have q2 := minimalPush_length pk1
    have hl : (minimalPush sig ++ minimalPush pk1 ++ [0x00]).length ≤ 8000 := by
      simp only [List.length_append, List.length_cons, List.length_nil]; omega
    have ev : evalScript (world E check lock) false (minimalPush sig ++ minimalPush pk1 ++ [0x00]) [] = some [[], pk1, sig] := by
      rw [evalScript_items (by omega) hi]
      have c1 : ¬ 520 < sig.length := by omega
      have c2 : ¬ 520 < pk1.length := by omega
      simp [runItems, runItem, runOp, c1, c2]
    obtain ⟨f1, f2⟩ := eval_append_push (world E check lock) false hp rlen.1 (by omega) (by
      have := minimalPush_length r
      rw [List.length_append]; omega)
    rw [hos, spends_p2sh _ (E.hash160_length hH r), f2, ev, if_pos (show r.length ≤ 520 by omega)]
    constructor
    · rintro ⟨-, r', st, y, st', x1, -, x2, x3, -⟩
      cases x1
      rw [hev] at x2
      simp only [htlcStack, t0] at x2
      by_cases c : lock timeout = true
      · rw [if_neg (by simp), if_pos ⟨c, rfl⟩] at x2
        cases x2
        rw [truthy_ofBool] at x3
        exact ⟨c, x3⟩
      · rw [if_neg (by simp), if_neg (fun x => c x.1)] at x2
        cases x2
    · rintro ⟨c, hc⟩
      refine ⟨f1, r, _, ofBool (check false r sig pk1), [], rfl, rfl, ?_, ?_, ?_⟩
      · rw [hev]
        simp only [htlcStack, t0]
        rw [if_neg (by simp), if_pos ⟨c, rfl⟩]
        rfl
      · rw [truthy_ofBool]; exact hc
      · rw [nw, ite_self]
  · rw [hos] at h
    obtain ⟨r', st, y, st', -, -, e, x1, x2⟩ := C103_p2sh E hs hH check lock hd redeem r _ ser out ss wit h
    by_cases c : r' = r
    · subst c
      rw [hev] at x1
      rcases eval_htlc_true x1 x2 with x | x
      · exact .inl x
      · exact .inr (.inl x)
    · exact .inr (.inr ⟨r', c, e⟩)

/-- A world in which a signature is good if it ends with the key. -/
def exWorld : World := world toyEnv (fun _ _ sig key => key.isSuffixOf sig) fun t => t == [9]

example : toyEnv.net.Supported ∧ toyEnv.H.LengthOK ∧ toyEnv.net.isDecred = false ∧ toyEnv.net.segwit = true :=
  ⟨by unfold Network.Supported; decide +kernel, toyHashes_ok, by decide, by decide⟩

/-- Outputs are spent in this world, by some and not by others. -/
example : ∃ s ss ss', makeP2pkhOutputScript toyEnv (List.replicate 33 2) = .ok s ∧ spends exWorld ss [] s = true ∧ spends exWorld ss' [] s = false := by
  refine ⟨_, minimalPush (1 :: List.replicate 33 2) ++ minimalPush (List.replicate 33 2), minimalPush [1] ++ minimalPush (List.replicate 33 2),
    rfl, ?_, ?_⟩ <;> decide +kernel

example : ∃ s, makeP2wpkhOutputScript toyEnv (List.replicate 33 2) = .ok s ∧
    spends exWorld [] [1 :: List.replicate 33 2, List.replicate 33 2] s = true ∧ spends exWorld [] [[1], List.replicate 33 2] s = false :=
  ⟨_, rfl, by decide +kernel, by decide +kernel⟩

theorem toy_supported : toyEnv.net.Supported := by unfold Network.Supported; decide +kernel

/-- Scripts that the hypotheses of `C103_p2sh_false` and `C103_p2wsh_false` speak of. -/
theorem long_script (n k : Nat) (h1 : 256 ≤ k) (h2 : k ≤ 1000) :
    ∃ s b, serialize toyEnv.net s = .ok b ∧ b.length = n * (k + 3) := by
  have := serialize_toks (net := toyEnv.net) (List.replicate n (toHex (List.replicate k 7), minimalPush (List.replicate k 7))) (by
    intro p hp
    rw [List.eq_of_mem_replicate hp]
    exact tok_hex toy_supported (by simp only [List.length_replicate]; omega) (by simp only [List.length_replicate]; omega))
  refine ⟨_, _, this, ?_⟩
  have l : (minimalPush (List.replicate k 7)).length = k + 3 := by
    unfold minimalPush
    simp only [List.length_replicate]
    rw [if_neg (by omega), if_neg (by omega)]
    simp
  rw [List.length_flatMap, List.map_replicate, List.sum_replicate, l]
  simp

example : ∃ s b, serialize toyEnv.net s = .ok b ∧ 520 < b.length ∧ b.length ≤ 1000 := by
  obtain ⟨s, b, h, l⟩ := long_script 1 600 (by omega) (by omega)
  exact ⟨s, b, h, by omega, by omega⟩

example : ∃ s b, serialize toyEnv.net s = .ok b ∧ 10000 < b.length := by
  obtain ⟨s, b, h, l⟩ := long_script 11 1000 (by omega) (by omega)
  exact ⟨s, b, h, by omega⟩

end Verif.Props
