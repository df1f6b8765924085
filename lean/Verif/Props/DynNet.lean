import Verif.Model.DynNet
import Verif.Props.Networks

/-! # C34 for arguments of any type -/

namespace Verif.Props
open Verif

/-- Values without hash: bytearrays, lists, objects of the library, and tuples that contain such a value at any depth. -/
inductive Unhashable : Val → Prop
  | bytearray (b : Bytes) : Unhashable (.bytearray b)
  | obj (c : Cls) (a : List Val) (b : Bytes) : Unhashable (.obj c a b)
  | list (l : List Val) : Unhashable (.list l)
  | tuple (l : List Val) (x : Val) (hx : x ∈ l) (h : Unhashable x) : Unhashable (.tuple l)

mutual

theorem hashable_iff (v : Val) : v.hashable = false ↔ Unhashable v := by
  cases v with
  | tuple l =>
    rw [Val.hashable, hashableAll_iff l]
    constructor
    · rintro ⟨x, hx, h⟩; exact .tuple l x hx h
    · intro h; cases h with | tuple _ x hx h => exact ⟨x, hx, h⟩
  | bytearray b => exact ⟨fun _ => .bytearray b, fun _ => by rw [Val.hashable]⟩
  | obj c a b => exact ⟨fun _ => .obj c a b, fun _ => by rw [Val.hashable]⟩
  | list l => exact ⟨fun _ => .list l, fun _ => by rw [Val.hashable]⟩
  | _ => rw [Val.hashable]; exact ⟨(fun h => nomatch h), (fun h => nomatch h)⟩

theorem hashableAll_iff (l : List Val) : Val.hashableAll l = false ↔ ∃ x ∈ l, Unhashable x := by
  cases l with
  | nil => simp [Val.hashableAll]
  | cons v l => rw [Val.hashableAll, Bool.and_eq_false_iff, hashable_iff v, hashableAll_iff l]; simp

end

/-- C34 for any argument: the name of a supported network selects it; any other string raises ValueError; any other value raises ValueError, or TypeError if it has no hash. When it
raises, the network stays. -/
theorem C34_any (v : Val) (cur : Network) :
    (∀ name, v = .str name → (∃ n, (name, n) ∈ supported) → (Val.selectNetwork v cur).1 = .ok () ∧ (Val.selectNetwork v cur).2.name = name) ∧
    ((¬ ∃ name n, v = .str name ∧ (name, n) ∈ supported) → ¬ Unhashable v → Val.selectNetwork v cur = (.error .valueError, cur)) ∧
    (Unhashable v → Val.selectNetwork v cur = (.error .typeError, cur)) := by
  have key : (∀ s, v ≠ .str s) → Val.selectNetwork v cur = (.error (if v.hashable then .valueError else .typeError), cur) := by
    intro h
    cases v with
    | str s => exact absurd rfl (h s)
    | _ => rfl
  refine ⟨?_, ?_, ?_⟩
  · rintro name rfl h
    exact (C34_select name cur).1 h
  · intro h hu
    by_cases hs : ∃ s, v = .str s
    · obtain ⟨s, rfl⟩ := hs
      exact (C34_select s cur).2 fun ⟨n, hn⟩ => h ⟨s, n, rfl, hn⟩
    · rw [key fun s hs' => hs ⟨s, hs'⟩]
      rw [← hashable_iff] at hu
      simp [hu]
  · intro hu
    rw [key (by rintro s rfl; cases hu), (hashable_iff v).2 hu]
    rfl

/-- The network selected after the calls, in order, whatever they raise. -/
def runSelectsAny (calls : List Val) : Network := calls.foldl (fun cur v => (Val.selectNetwork v cur).2) initialNetwork

/-- C34 for any arguments: after any calls the network is that of the last call with the name of a supported network. -/
theorem C34_any_last (calls : List Val) (names : List PyStr) (h : names = calls.filterMap fun v => match v with | .str s => some s | _ => none) :
    (runSelectsAny calls).name = ((names.filter fun n => supported.any fun p => p.1 = n).getLast?).getD (pystr "bitcoin_main") ∧
      (runSelectsAny calls).Supported := by
  have e : runSelectsAny calls = runSelects names := by
    subst h
    unfold runSelectsAny runSelects
    generalize initialNetwork = cur
    induction calls generalizing cur with
    | nil => rfl
    | cons v calls ih =>
      cases v with
      | str s => exact ih _
      | _ => exact ih _
  obtain ⟨h1, h2⟩ := C34_last_success_wins names
  rw [e]
  exact ⟨h1, List.mem_map.2 ⟨_, h2, rfl⟩⟩

example : (runSelectsAny [.str (pystr "litecoin_main"), .list [], .none, .tuple [.bytearray []], .str (pystr "litecoin")]).name = pystr "litecoin_main" ∧
    (Val.selectNetwork (.tuple [.int 1, .bytearray []]) bitcoinMain).1 = .error .typeError ∧ (Val.selectNetwork (.bytes [1]) bitcoinMain).1 = .error .valueError := by
  decide +kernel

end Verif.Props
