import Verif.Lemmas.Tx
import Verif.Props.Script

namespace Verif
open Spec

/-! ### self-delimiting byte strings -/

/-- No member of `S` is a proper prefix of another. -/
def SelfDelim (S : Bytes → Prop) : Prop := ∀ x y r s, S x → S y → x ++ r = y ++ s → x = y ∧ r = s

theorem flatten_inj {S : Bytes → Prop} (hS : SelfDelim S) : ∀ {xs ys : List Bytes} {r s : Bytes}, xs.length = ys.length →
    (∀ x ∈ xs, S x) → (∀ y ∈ ys, S y) → xs.flatten ++ r = ys.flatten ++ s → xs = ys ∧ r = s
  | [], [], r, s, _, _, _, h => ⟨rfl, by simpa using h⟩
  | [], _ :: _, _, _, hl, _, _, _ => by simp at hl
  | _ :: _, [], _, _, hl, _, _, _ => by simp at hl
  | x :: xs, y :: ys, r, s, hl, hx, hy, h => by
    simp only [List.flatten_cons, List.append_assoc] at h
    obtain ⟨h1, h2⟩ := hS _ _ _ _ (hx x (by simp)) (hy y (by simp)) h
    obtain ⟨h3, h4⟩ := flatten_inj hS (by simpa using hl) (fun a ha => hx a (by simp [ha])) (fun a ha => hy a (by simp [ha])) h2
    exact ⟨by rw [h1, h3], h4⟩

theorem vector_inj {S : Bytes → Prop} (hS : SelfDelim S) {xs ys : List Bytes} {r s : Bytes} (hx : ∀ x ∈ xs, S x) (hy : ∀ y ∈ ys, S y)
    (lx : xs.length < 2 ^ 64) (ly : ys.length < 2 ^ 64) (h : vector xs ++ r = vector ys ++ s) : xs = ys ∧ r = s := by
  unfold vector at h
  simp only [List.append_assoc] at h
  obtain ⟨h1, h2⟩ := compactSize_inj lx ly h
  exact flatten_inj hS h1 hx hy h2

theorem varBytes_inj {x y r s : Bytes} (lx : x.length < 2 ^ 64) (ly : y.length < 2 ^ 64) (h : varBytes x ++ r = varBytes y ++ s) :
    x = y ∧ r = s := by
  unfold varBytes at h
  simp only [List.append_assoc] at h
  obtain ⟨h1, h2⟩ := compactSize_inj lx ly h
  exact List.append_inj h2 h1

theorem wireIn_inj {a a' i i' c c' q q' r s : Bytes} (ha : a.length = a'.length) (hi : i.length = i'.length)
    (hq : q.length = q'.length) (hc : c.length < 2 ^ 64) (hc' : c'.length < 2 ^ 64) (h : wireIn a i c q ++ r = wireIn a' i' c' q' ++ s) :
    a = a' ∧ i = i' ∧ c = c' ∧ q = q' ∧ r = s := by
  unfold wireIn at h
  simp only [List.append_assoc] at h
  obtain ⟨h1, h⟩ := List.append_inj h ha
  obtain ⟨h2, h⟩ := List.append_inj h hi
  obtain ⟨h3, h⟩ := varBytes_inj hc hc' h
  obtain ⟨h4, h⟩ := List.append_inj h hq
  exact ⟨h1, h2, h3, h4, h⟩

theorem TxIn.Built.inj {x y : TxIn} {r s : Bytes} (hx : x.Built) (hy : y.Built) (h : x.bytes ++ r = y.bytes ++ s) :
    x.outpoint = y.outpoint ∧ x.scriptSig = y.scriptSig ∧ x.sequence = y.sequence ∧ r = s := by
  have e1 := hx.eq
  have e2 := hy.eq
  rw [hx.wire, hy.wire] at h
  obtain ⟨h1, h2, h3, h4, h5⟩ := wireIn_inj (by rw [e1.1.eq.1, e2.1.eq.1]) (by rw [e1.1.eq.2.1, e2.1.eq.2.1]) (by rw [e1.2.1, e2.2.1])
    (by have := e1.2.2.2.1; omega) (by have := e2.2.2.2.1; omega) h
  exact ⟨e1.1.ext e2.1 (by rw [e1.1.eq.2.2, e2.1.eq.2.2, h1, h2]), h3, h4, h5⟩

theorem TxOut.Built.inj {x y : TxOut} {r s : Bytes} (hx : x.Built) (hy : y.Built) (h : x.bytes ++ r = y.bytes ++ s) : x = y ∧ r = s := by
  obtain ⟨a1, a2, a3⟩ := hx.eq
  obtain ⟨b1, b2, b3⟩ := hy.eq
  rw [a3, b3] at h
  unfold wireOut at h
  simp only [List.append_assoc] at h
  obtain ⟨h1, h⟩ := List.append_inj h (by rw [a1, b1])
  obtain ⟨h2, hr⟩ := varBytes_inj a2 b2 h
  cases x; cases y
  simp only at *
  subst h1 h2; exact ⟨by rw [a3, b3], hr⟩

theorem WitnessStackItem.Built.inj {x y : WitnessStackItem} {r s : Bytes} (hx : x.Built) (hy : y.Built)
    (h : x.bytes ++ r = y.bytes ++ s) : x = y ∧ r = s := by
  obtain ⟨a1, a2⟩ := hx.eq
  obtain ⟨b1, b2⟩ := hy.eq
  rw [a2, b2] at h
  obtain ⟨h1, hr⟩ := varBytes_inj a1 b1 h
  cases x; cases y
  simp only at *
  subst h1; exact ⟨by rw [a2, b2], hr⟩

theorem map_bytes_inj {α : Type} {P : α → Prop} {f : α → Bytes} (hf : ∀ x y, P x → P y → f x = f y → x = y) :
    ∀ {xs ys : List α}, (∀ x ∈ xs, P x) → (∀ y ∈ ys, P y) → xs.map f = ys.map f → xs = ys
  | [], [], _, _, _ => rfl
  | [], _ :: _, _, _, h => by simp at h
  | _ :: _, [], _, _, h => by simp at h
  | x :: xs, y :: ys, hx, hy, h => by
    simp only [List.map_cons, List.cons.injEq] at h
    rw [hf x y (hx x (by simp)) (hy y (by simp)) h.1, map_bytes_inj hf (fun a ha => hx a (by simp [ha])) (fun a ha => hy a (by simp [ha])) h.2]

theorem InputWitness.Built.inj {x y : InputWitness} {r s : Bytes} (hx : x.Built) (hy : y.Built) (h : x.bytes ++ r = y.bytes ++ s) :
    x = y ∧ r = s := by
  obtain ⟨a0, a1, a2, -⟩ := hx.eq
  obtain ⟨b0, b1, b2, -⟩ := hy.eq
  rw [a2, b2] at h
  obtain ⟨h1, hr⟩ := vector_inj (S := fun b => ∃ i : WitnessStackItem, i.Built ∧ b = i.bytes)
    (by rintro _ _ r s ⟨i, hi, rfl⟩ ⟨j, hj, rfl⟩ h
        obtain ⟨h1, h2⟩ := hi.inj hj h
        exact ⟨by rw [h1], h2⟩)
    (by simp only [List.mem_map]; rintro _ ⟨i, hi, rfl⟩; exact ⟨i, a0 i hi, rfl⟩)
    (by simp only [List.mem_map]; rintro _ ⟨i, hi, rfl⟩; exact ⟨i, b0 i hi, rfl⟩) (by simpa using a1) (by simpa using b1) h
  have h2 := map_bytes_inj (P := WitnessStackItem.Built) (f := (·.bytes))
    (fun i j hi hj e => (hi.inj hj (r := []) (s := []) (by simpa using e)).1) a0 b0 h1
  cases x; cases y
  simp only at *
  subst h2; exact ⟨by rw [a2, b2], hr⟩

/-- The bytes of objects form a self-delimiting set. -/
theorem selfDelim_of {α : Type} {P : α → Prop} {f : α → Bytes} (h : ∀ x y r s, P x → P y → f x ++ r = f y ++ s → f x = f y ∧ r = s) :
    SelfDelim (fun b => ∃ i, P i ∧ b = f i) := by
  rintro _ _ r s ⟨i, hi, rfl⟩ ⟨j, hj, rfl⟩ e
  exact h i j r s hi hj e

theorem TxIn.selfDelim : SelfDelim (fun b => ∃ i : TxIn, i.Built ∧ b = i.bytes) := by
  apply selfDelim_of
  intro x y r s hx hy h
  obtain ⟨h1, h2, h3, h4⟩ := hx.inj hy h
  exact ⟨by rw [hx.eq.2.2.2.2, hy.eq.2.2.2.2, h1, h2, h3], h4⟩

theorem TxOut.selfDelim : SelfDelim (fun b => ∃ i : TxOut, i.Built ∧ b = i.bytes) := by
  apply selfDelim_of
  intro x y r s hx hy h
  obtain ⟨h1, h2⟩ := hx.inj hy h
  exact ⟨by rw [h1], h2⟩

theorem InputWitness.selfDelim : SelfDelim (fun b => ∃ i : InputWitness, i.Built ∧ b = i.bytes) := by
  apply selfDelim_of
  intro x y r s hx hy h
  obtain ⟨h1, h2⟩ := hx.inj hy h
  exact ⟨by rw [h1], h2⟩

theorem InputWitness.Built.pos {w : InputWitness} (h : w.Built) : 0 < w.bytes.length := by
  rw [h.eq.2.2.1]; unfold vector
  have := compactSize_pos (w.stack.map (·.bytes)).length
  rw [List.length_append]; omega

/-- Transactions with equal bytes: equal fields. -/
theorem txBytes_inj {v v' : Bytes} {f f' : Option Bytes} {ins ins' : List TxIn} {outs outs' : List TxOut} {ws ws' : List InputWitness}
    {lt lt' : Bytes} (hf : f = none ∨ f = some [0, 1]) (hf' : f' = none ∨ f' = some [0, 1])
    (hv : v.length = 4) (hv' : v'.length = 4) (hl : lt.length = 4) (hl' : lt'.length = 4)
    (hi : ∀ i ∈ ins, i.Built) (hi' : ∀ i ∈ ins', i.Built) (ho : ∀ i ∈ outs, i.Built) (ho' : ∀ i ∈ outs', i.Built)
    (hw : ∀ i ∈ ws, i.Built) (hw' : ∀ i ∈ ws', i.Built)
    (li : ins.length < 2 ^ 64) (li' : ins'.length < 2 ^ 64) (lo : outs.length < 2 ^ 64) (lo' : outs'.length < 2 ^ 64)
    (ni : ins ≠ []) (ni' : ins' ≠ []) (lw : ws ≠ [] → f ≠ none ∧ ws.length = ins.length)
    (lw' : ws' ≠ [] → f' ≠ none ∧ ws'.length = ins'.length)
    (h : txBytes v f (ins.map (·.bytes)) (outs.map (·.bytes)) (ws.map (·.bytes)) lt =
      txBytes v' f' (ins'.map (·.bytes)) (outs'.map (·.bytes)) (ws'.map (·.bytes)) lt') :
    v = v' ∧ f = f' ∧ ins.map (·.bytes) = ins'.map (·.bytes) ∧ outs = outs' ∧ ws = ws' ∧ lt = lt' := by
  unfold txBytes at h
  simp only [List.append_assoc] at h
  obtain ⟨h1, h⟩ := List.append_inj h (by rw [hv, hv'])
  have head : ∀ {l : List TxIn} (r : Bytes), l ≠ [] → ∃ x tl, vector (l.map (·.bytes)) ++ r = x :: tl ∧ x ≠ 0 := by
    intro l r hl
    obtain ⟨x, tl, h1, h2⟩ := compactSize_head (n := (l.map (·.bytes)).length) (by simpa using hl)
    exact ⟨x, tl ++ (l.map (·.bytes)).flatten ++ r, by rw [vector, h1]; simp, h2⟩
  have hff : f = f' ∧ vector (ins.map (·.bytes)) ++ (vector (outs.map (·.bytes)) ++ ((ws.map (·.bytes)).flatten ++ lt)) =
      vector (ins'.map (·.bytes)) ++ (vector (outs'.map (·.bytes)) ++ ((ws'.map (·.bytes)).flatten ++ lt')) := by
    rcases hf with rfl | rfl <;> rcases hf' with rfl | rfl
    · exact ⟨rfl, h⟩
    · exfalso
      obtain ⟨x, tl, e1, e2⟩ := head (vector (outs.map (·.bytes)) ++ ((ws.map (·.bytes)).flatten ++ lt)) ni
      simp only [Option.getD_none, Option.getD_some, List.nil_append] at h
      rw [e1] at h
      simp only [List.cons_append, List.cons.injEq] at h
      exact e2 h.1
    · exfalso
      obtain ⟨x, tl, e1, e2⟩ := head (vector (outs'.map (·.bytes)) ++ ((ws'.map (·.bytes)).flatten ++ lt')) ni'
      simp only [Option.getD_none, Option.getD_some, List.nil_append] at h
      rw [e1] at h
      simp only [List.cons_append, List.cons.injEq] at h
      exact e2 h.1.symm
    · exact ⟨rfl, by simpa using h⟩
  obtain ⟨hff, h⟩ := hff
  have mem : ∀ {α : Type} {P : α → Prop} {g : α → Bytes} {l : List α}, (∀ i ∈ l, P i) → ∀ x ∈ l.map g, ∃ i, P i ∧ x = g i := by
    intro α P g l hl x hx
    obtain ⟨i, h1, rfl⟩ := List.mem_map.1 hx
    exact ⟨i, hl i h1, rfl⟩
  obtain ⟨h2, h⟩ := vector_inj TxIn.selfDelim (mem hi) (mem hi') (by simpa using li) (by simpa using li') h
  obtain ⟨h3, h⟩ := vector_inj TxOut.selfDelim (mem ho) (mem ho') (by simpa using lo) (by simpa using lo') h
  have h3' := map_bytes_inj (P := TxOut.Built) (f := (·.bytes))
    (fun i j hi hj e => (hi.inj hj (r := []) (s := []) (by simpa using e)).1) ho ho' h3
  have long : ∀ {l : List InputWitness}, (∀ i ∈ l, i.Built) → l ≠ [] → 0 < ((l.map (·.bytes)).flatten).length := by
    intro l hb hl
    cases l with
    | nil => exact absurd rfl hl
    | cons w l =>
      have := (hb w (by simp)).pos
      simp only [List.map_cons, List.flatten_cons, List.length_append]; omega
  have hlen : ws.length = ws'.length := by
    have e := congrArg List.length h
    simp only [List.length_append, hl, hl'] at e
    have : ins.length = ins'.length := by simpa using congrArg List.length h2
    by_cases c : ws = [] <;> by_cases c' : ws' = []
    · rw [c, c']
    · have := long hw' c'; subst c; simp at e; simp at this; omega
    · have := long hw c; subst c'; simp at e; simp at this; omega
    · rw [(lw c).2, (lw' c').2, this]
  obtain ⟨h4, h5⟩ := flatten_inj InputWitness.selfDelim (by simpa using hlen) (mem hw) (mem hw') h
  exact ⟨h1, hff, h2, h3', map_bytes_inj (P := InputWitness.Built) (f := (·.bytes))
    (fun i j hi hj e => (hi.inj hj (r := []) (s := []) (by simpa using e)).1) hw hw' h4, h5⟩

end Verif
