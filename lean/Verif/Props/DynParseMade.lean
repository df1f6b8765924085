import Verif.Props.DynBuilder
import Verif.Props.DynParse2

/-! Property C120, continued: what `from_bytes` makes of a value of any type could have been made with the constructors. -/

namespace Verif.Props
open Verif Spec Dyn

theorem made_slice {S : Network → Prop} {E : Env} {v w : Val} {i j : Nat} (hv : MadeOn S E v) (h : v.slice i j = .ok w) : MadeOn S E w := by
  cases v with
  | none => cases h
  | int n => cases h
  | str s => cases h; exact .str _
  | bytes b => cases h; exact .bytes _
  | bytearray b => cases h; exact .bytearray _
  | obj c t b => cases h; exact .bytes _
  | list l => cases h; exact .list _ fun x hx => made_seq hv (.inl rfl) x (List.mem_of_mem_drop (List.mem_of_mem_take hx))
  | tuple l => cases h; exact .tuple _ fun x hx => made_seq hv (.inr rfl) x (List.mem_of_mem_drop (List.mem_of_mem_take hx))

theorem made_rest {S : Network → Prop} {E : Env} {v w : Val} {i : Nat} (hv : MadeOn S E v) (h : v.from_ i = .ok w) : MadeOn S E w := by
  cases v with
  | none => cases h
  | int n => cases h
  | str s => cases h; exact .str _
  | bytes b => cases h; exact .bytes _
  | bytearray b => cases h; exact .bytearray _
  | obj c t b => cases h; exact .bytes _
  | list l => cases h; exact .list _ fun x hx => made_seq hv (.inl rfl) x (List.mem_of_mem_drop hx)
  | tuple l => cases h; exact .tuple _ fun x hx => made_seq hv (.inr rfl) x (List.mem_of_mem_drop hx)

theorem made_many {S : Network → Prop} {E : Env} {f : Val → Py Val} (hf : ∀ v w, MadeOn S E v → f v = .ok w → MadeOn S E w) {v : Val} (hv : MadeOn S E v) (n : Nat) :
    ∀ {current : Nat} {xs : List Val} {fin : Nat}, readMany f v n current = .ok (xs, fin) → ∀ x ∈ xs, MadeOn S E x := by
  induction n with
  | zero => intro current xs fin h; cases h; simp
  | succ n ih =>
    intro current xs fin h
    simp only [readMany, bind_ok_iff] at h
    obtain ⟨r, hr, x, hx, l, -, ⟨ys, fin'⟩, hy, h⟩ := h
    cases h
    intro y hy'
    rcases List.mem_cons.1 hy' with rfl | hy'
    · exact hf _ _ (made_rest hv hr) hx
    · exact ih hy y hy'

theorem made_readOutpoint {S : Network → Prop} {E : Env} {v w : Val} (hv : MadeOn S E v) (h : readOutpoint v = .ok w) : MadeOn S E w := by
  simp only [readOutpoint, bind_ok_iff] at h
  obtain ⟨a, ha, b, hb, h⟩ := h
  exact .outpoint _ _ _ (made_slice hv ha) (made_slice hv hb) h

theorem made_scriptSig {S : Network → Prop} {E : Env} {net : Network} {v a b : Val} (hv : MadeOn S E v) (h : readScriptSig net v = .ok (a, b)) : MadeOn S E a ∧ MadeOn S E b := by
  unfold readScriptSig at h
  split at h
  · cases h
  · dsimp only at h
    split at h
    · split at h
      · cases h; exact ⟨hv, .bytes _⟩
      · cases h
    · split at h
      · cases h; exact ⟨.bytes _, .bytes _⟩
      · split at h
        · cases h; exact ⟨.bytes _, .bytes _⟩
        · cases h

theorem made_readTxIn {S : Network → Prop} {E : Env} {net : Network} {v w : Val} (hv : MadeOn S E v) (h : readTxIn net v = .ok w) : MadeOn S E w := by
  simp only [readTxIn, bind_ok_iff] at h
  obtain ⟨a, ha, o, ho, b, -, n, -, s, hs, q, hq, h⟩ := h
  have mo := made_readOutpoint (made_slice hv ha) ho
  have ms := made_slice hv hs
  have mq := made_slice hv hq
  split at h
  · exact .txIn _ _ _ _ _ mo (.bytes _) (.bytes _) mq h
  · simp only [bind_ok_iff] at h
    obtain ⟨z, -, h⟩ := h
    split at h
    · exact .txIn _ _ _ _ _ mo ms (.bytes _) mq h
    · simp only [bind_ok_iff] at h
      obtain ⟨⟨x, y⟩, hxy, h⟩ := h
      obtain ⟨mx, my⟩ := made_scriptSig ms hxy
      exact .txIn _ _ _ _ _ mo mx my mq h

theorem made_readTxOut {S : Network → Prop} {E : Env} {net : Network} {v w : Val} (hv : MadeOn S E v) (h : readTxOut net v = .ok w) : MadeOn S E w := by
  simp only [readTxOut, bind_ok_iff] at h
  obtain ⟨r, -, n, -, h⟩ := h
  split at h
  · simp only [bind_ok_iff] at h
    obtain ⟨a, ha, b, hb, h⟩ := h
    exact .txOut _ _ _ (made_slice hv ha) (made_slice hv hb) h
  · cases h

theorem made_readItem {S : Network → Prop} {E : Env} {net : Network} {v w : Val} (hv : MadeOn S E v) (h : readItem net v = .ok w) : MadeOn S E w := by
  simp only [readItem, bind_ok_iff] at h
  obtain ⟨n, -, a, ha, h⟩ := h
  exact .item _ _ (made_slice hv ha) h

theorem made_readWitness {S : Network → Prop} {E : Env} {net : Network} {v w : Val} (hv : MadeOn S E v) (h : readWitness net v = .ok w) : MadeOn S E w := by
  simp only [readWitness, bind_ok_iff] at h
  obtain ⟨n, -, ⟨xs, fin⟩, hx, h⟩ := h
  exact .witness _ _ (.list _ (made_many (fun _ _ => made_readItem) hv _ hx)) h

theorem made_readTx {S : Network → Prop} {E : Env} {v w : Val} (hv : MadeOn S E v) (h : readTx E v = .ok w) : MadeOn S E w := by
  simp only [readTx, bind_ok_iff] at h
  obtain ⟨version, hver, mark, -, r, -, ni, -, ⟨ins, c1⟩, hi, r', -, no, -, ⟨outs, c2⟩, ho, h⟩ := h
  have mi := made_many (fun _ _ => made_readTxIn) hv _ hi
  have mo := made_many (fun _ _ => made_readTxOut) hv _ ho
  have flag : ∀ {p : Prop} [Decidable p] {b : Bytes}, MadeOn S E (if p then Val.bytes b else Val.none) := by
    intro p _ b; split
    · exact .bytes _
    · exact .none
  split at h
  · simp only [bind_ok_iff] at h
    obtain ⟨r, -, l, -, h⟩ := h
    split at h
    · simp only [bind_ok_iff] at h
      obtain ⟨⟨wits, c3⟩, hw, lock, hl, h⟩ := h
      exact .tx _ _ _ _ _ _ _ (made_slice hv hver) flag (.list _ mi) (.list _ mo) (.list _ (made_many (fun _ _ => made_readWitness) hv _ hw)) (made_slice hv hl) h
    · simp only [ok_bind, bind_ok_iff] at h
      obtain ⟨lock, hl, h⟩ := h
      exact .tx _ _ _ _ _ _ _ (made_slice hv hver) flag (.list _ mi) (.list _ mo) (.list _ (by simp)) (made_slice hv hl) h
  · simp only [ok_bind, bind_ok_iff] at h
    obtain ⟨lock, hl, h⟩ := h
    exact .tx _ _ _ _ _ _ _ (made_slice hv hver) flag (.list _ mi) (.list _ mo) (.list _ (by simp)) (made_slice hv hl) h

theorem made_readSproutProof {S : Network → Prop} {E : Env} {v w : Val} (hv : MadeOn S E v) (h : readSproutProof E.net v = .ok w) : MadeOn S E w := by
  simp only [readSproutProof, bind_ok_iff] at h
  obtain ⟨a, ha, b, hb, c, hc, d, hd, e, he, f, hf, g, hg, i, hi, h⟩ := h
  exact .sproutProof _ _ _ _ _ _ _ _ _ (made_slice hv ha) (made_slice hv hb) (made_slice hv hc) (made_slice hv hd) (made_slice hv he) (made_slice hv hf)
    (made_slice hv hg) (made_slice hv hi) h

theorem made_readSproutJs {S : Network → Prop} {E : Env} {v w : Val} (hv : MadeOn S E v) (h : readSproutJs E.net v = .ok w) : MadeOn S E w := by
  simp only [readSproutJs, bind_ok_iff] at h
  obtain ⟨a, ha, b, hb, c, hc, d, hd, e, he, f, hf, g, hg, i, hi, p, hp, z, hz, n, hn, h⟩ := h
  exact .sproutJs _ _ _ _ _ _ _ _ _ _ _ (made_slice hv ha) (made_slice hv hb) (made_slice hv hc) (made_slice hv hd) (made_slice hv he) (made_slice hv hf)
    (made_slice hv hg) (made_slice hv hi) (made_readSproutProof (made_slice hv hp) hz) (made_slice hv hn) h

theorem made_readSaplingProof {S : Network → Prop} {E : Env} {v w : Val} (hv : MadeOn S E v) (h : readSaplingProof E.net v = .ok w) : MadeOn S E w := by
  simp only [readSaplingProof, bind_ok_iff] at h
  obtain ⟨a, ha, b, hb, c, hc, h⟩ := h
  exact .saplingProof _ _ _ _ (made_slice hv ha) (made_slice hv hb) (made_slice hv hc) h

theorem made_readSpend {S : Network → Prop} {E : Env} {v w : Val} (hv : MadeOn S E v) (h : readSpend E.net v = .ok w) : MadeOn S E w := by
  simp only [readSpend, bind_ok_iff] at h
  obtain ⟨a, ha, b, hb, c, hc, d, hd, p, hp, z, hz, s, hs, h⟩ := h
  exact .saplingSpend _ _ _ _ _ _ _ (made_slice hv ha) (made_slice hv hb) (made_slice hv hc) (made_slice hv hd) (made_readSaplingProof (made_slice hv hp) hz)
    (made_slice hv hs) h

theorem made_readOutput {S : Network → Prop} {E : Env} {v w : Val} (hv : MadeOn S E v) (h : readOutput E.net v = .ok w) : MadeOn S E w := by
  simp only [readOutput, bind_ok_iff] at h
  obtain ⟨a, ha, b, hb, c, hc, d, hd, e, he, p, hp, z, hz, h⟩ := h
  exact .saplingOutput _ _ _ _ _ _ _ (made_slice hv ha) (made_slice hv hb) (made_slice hv hc) (made_slice hv hd) (made_slice hv he)
    (made_readSaplingProof (made_slice hv hp) hz) h

theorem made_readSaplingJs {S : Network → Prop} {E : Env} {v w : Val} (hv : MadeOn S E v) (h : readSaplingJs E.net v = .ok w) : MadeOn S E w := by
  simp only [readSaplingJs, bind_ok_iff] at h
  obtain ⟨a, ha, b, hb, c, hc, d, hd, e, he, f, hf, g, hg, i, hi, p, hp, z, hz, n, hn, h⟩ := h
  exact .saplingJs _ _ _ _ _ _ _ _ _ _ _ (made_slice hv ha) (made_slice hv hb) (made_slice hv hc) (made_slice hv hd) (made_slice hv he) (made_slice hv hf)
    (made_slice hv hg) (made_slice hv hi) (made_readSaplingProof (made_slice hv hp) hz) (made_slice hv hn) h

theorem made_insOuts {S : Network → Prop} {E : Env} {net : Network} {v : Val} {start : Nat} {p : ReadInsOuts} (hv : MadeOn S E v) (h : readInsOuts net v start = .ok p) :
    MadeOn S E (.list p.txIns) ∧ MadeOn S E (.list p.txOuts) := by
  simp only [readInsOuts, bind_ok_iff] at h
  obtain ⟨r, -, ni, -, ⟨ins, c1⟩, hi, r', -, no, -, ⟨outs, c2⟩, ho, h⟩ := h
  cases h
  exact ⟨.list _ (made_many (fun _ _ => made_readTxIn) hv _ hi), .list _ (made_many (fun _ _ => made_readTxOut) hv _ ho)⟩

theorem made_readSproutTx {S : Network → Prop} {E : Env} {v w : Val} (hv : MadeOn S E v) (h : readSproutTx E v = .ok w) : MadeOn S E w := by
  simp only [readSproutTx, bind_ok_iff] at h
  obtain ⟨version, hver, p, hp, lock, hl, ⟨js, pk, sig⟩, hr, h⟩ := h
  obtain ⟨mi, mo⟩ := made_insOuts hv hp
  have hm : MadeOn S E js ∧ MadeOn S E pk ∧ MadeOn S E sig := by
    simp only [readSproutRest, bind_ok_iff] at hr
    obtain ⟨ver, -, hr⟩ := hr
    split at hr
    · simp only [bind_ok_iff] at hr
      obtain ⟨r, -, n, -, ⟨xs, c⟩, hx, k, hk, s, hs, hr⟩ := hr
      cases hr
      exact ⟨.list _ (made_many (fun _ _ => made_readSproutJs) hv _ hx), made_slice hv hk, made_slice hv hs⟩
    · cases hr; exact ⟨.none, .none, .none⟩
  exact .sproutTx _ _ _ _ _ _ _ _ (made_slice hv hver) mi mo (made_slice hv hl) hm.1 hm.2.1 hm.2.2 h

theorem made_readOverwinterTx {S : Network → Prop} {E : Env} {v w : Val} (hv : MadeOn S E v) (h : readOverwinterTx E v = .ok w) : MadeOn S E w := by
  simp only [readOverwinterTx, bind_ok_iff] at h
  obtain ⟨-, -, p, hp, lock, hl, exp, he, ⟨js, pk, sig⟩, hr, h⟩ := h
  obtain ⟨mi, mo⟩ := made_insOuts hv hp
  have hm : MadeOn S E js ∧ MadeOn S E pk ∧ MadeOn S E sig := by
    simp only [readOverwinterRest, bind_ok_iff] at hr
    obtain ⟨l, -, hr⟩ := hr
    split at hr
    · cases hr; exact ⟨.tuple _ (by simp), .none, .none⟩
    · simp only [bind_ok_iff] at hr
      obtain ⟨r, -, n, -, ⟨xs, c⟩, hx, k, hk, s, hs, hr⟩ := hr
      cases hr
      exact ⟨.list _ (made_many (fun _ _ => made_readSproutJs) hv _ hx), made_slice hv hk, made_slice hv hs⟩
  exact .overwinterTx _ _ _ _ _ _ _ _ mi mo (made_slice hv hl) (made_slice hv he) hm.1 hm.2.1 hm.2.2 h

theorem sliceIf {S : Network → Prop} {E : Env} {α : Type} {p : Prop} [Decidable p] {v : Val} {i j : Nat} {f : Val → Py α} {r : α} (hv : MadeOn S E v)
    (h : (if p then v.slice i j >>= f else Except.ok Val.none >>= f) = .ok r) : ∃ x, MadeOn S E x ∧ f x = .ok r := by
  split at h
  · obtain ⟨x, hx, h⟩ := bind_ok_iff.1 h
    exact ⟨x, made_slice hv hx, h⟩
  · exact ⟨.none, .none, h⟩

theorem made_readSaplingTx {S : Network → Prop} {E : Env} {v w : Val} (hv : MadeOn S E v) (h : readSaplingTx E v = .ok w) : MadeOn S E w := by
  simp only [readSaplingTx, bind_ok_iff] at h
  obtain ⟨-, -, p, hp, lock, hl, exp, he, bal, hb, r, hr, h⟩ := h
  obtain ⟨mi, mo⟩ := made_insOuts hv hp
  simp only [readSaplingRest, bind_ok_iff] at hr
  obtain ⟨-, -, ns, -, ⟨spends, c1⟩, h1, -, -, no, -, ⟨outputs, c2⟩, h2, -, -, nj, -, ⟨js, c3⟩, h3, hr⟩ := hr
  obtain ⟨pk, h4, hr⟩ := sliceIf hv hr
  obtain ⟨sig, h5, hr⟩ := sliceIf hv hr
  obtain ⟨bnd, h6, hr⟩ := sliceIf hv hr
  cases hr
  exact .saplingTx _ _ _ _ _ _ _ _ _ _ _ _ mi mo (made_slice hv hl) (made_slice hv he) (made_slice hv hb) (.list _ (made_many (fun _ _ => made_readSpend) hv _ h1))
    (.list _ (made_many (fun _ _ => made_readOutput) hv _ h2)) (.list _ (made_many (fun _ _ => made_readSaplingJs) hv _ h3)) h4 h5 h6 h

theorem made_readDcrOutpoint {S : Network → Prop} {E : Env} {v w : Val} (hv : MadeOn S E v) (h : readDcrOutpoint E.net v = .ok w) : MadeOn S E w := by
  simp only [readDcrOutpoint, bind_ok_iff] at h
  obtain ⟨a, ha, b, hb, c, hc, h⟩ := h
  exact .dcrOutpoint _ _ _ _ (made_slice hv ha) (made_slice hv hb) (made_slice hv hc) h

theorem made_readDcrTxIn {S : Network → Prop} {E : Env} {v w : Val} (hv : MadeOn S E v) (h : readDcrTxIn E.net v = .ok w) : MadeOn S E w := by
  simp only [readDcrTxIn, bind_ok_iff] at h
  obtain ⟨a, ha, o, ho, b, hb, h⟩ := h
  exact .dcrTxIn _ _ _ (made_readDcrOutpoint (made_slice hv ha) ho) (made_slice hv hb) h

theorem made_readDcrTxOut {S : Network → Prop} {E : Env} {v w : Val} (hv : MadeOn S E v) (h : readDcrTxOut E.net v = .ok w) : MadeOn S E w := by
  simp only [readDcrTxOut, bind_ok_iff] at h
  obtain ⟨r, -, n, -, h⟩ := h
  split at h
  · simp only [bind_ok_iff] at h
    obtain ⟨a, ha, b, hb, c, hc, h⟩ := h
    exact .dcrTxOut _ _ _ _ (made_slice hv ha) (made_slice hv hb) (made_slice hv hc) h
  · cases h

end Verif.Props
