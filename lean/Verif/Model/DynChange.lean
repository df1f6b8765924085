import Verif.Model.DynApi

/-! # Programs that change lists and bytearrays

A program may also change the lists and bytearrays that it holds, or that are elements or attributes of what it holds: items of a list are set, added and removed, and so are bytes of a
bytearray and of a `ByteData` that is not yet immutable (`+=`, tx/shared.py:35-49). The objects of the other classes are immutable (tx/shared.py:78-81, 112-117; C100), but what they refer to
need not be: an attribute may be a bytearray, or a tuple of objects with such attributes.

The model has values and no references: it does not say which of the lists that are equal are the same one. A change is any that lists and bytearrays that are shared in whatever way could
undergo, each on its own, and more. Simplification: no list contains itself. -/

namespace Verif

namespace Dyn
open Val

/-- What a value may be after a change, by which the program holds the values in `Q`. An item of a list was an item before (perhaps elsewhere in the list, and changed too), or is one of
those values. Of a tuple and of an object only the elements and attributes change; the bytes of an object stay what they are. -/
inductive Changed (Q : Val → Prop) : Val → Val → Prop
  | none : Changed Q .none .none
  | int (n : Int) : Changed Q (.int n) (.int n)
  | str (s : PyStr) : Changed Q (.str s) (.str s)
  | bytes (b : Bytes) : Changed Q (.bytes b) (.bytes b)
  | bytearray (b b' : Bytes) : Changed Q (.bytearray b) (.bytearray b')
  | byteData (b b' : Bytes) : Changed Q (.obj .other [] b) (.obj .other [] b')
  | list (l m l' : List Val) : l.length = m.length → (∀ (i : Nat) (v w : Val), l[i]? = some v → m[i]? = some w → Changed Q v w) →
      (∀ w ∈ l', w ∈ m ∨ Q w) → Changed Q (.list l) (.list l')
  | tuple (l l' : List Val) : l.length = l'.length → (∀ (i : Nat) (v w : Val), l[i]? = some v → l'[i]? = some w → Changed Q v w) → Changed Q (.tuple l) (.tuple l')
  | obj (c : Cls) (t t' : List Val) (b : Bytes) : t.length = t'.length → (∀ (i : Nat) (v w : Val), t[i]? = some v → t'[i]? = some w → Changed Q v w) →
      Changed Q (.obj c t b) (.obj c t' b)

/-- The states of a program that does what `Session.step` says, and changes lists and bytearrays. -/
inductive Reach (H : Hashes) : Session → Prop
  | start : Reach H ⟨initialNetwork, []⟩
  | step (s : Session) (o : Op) : Reach H s → Reach H (s.step H o)
  | change (s : Session) (vals : List Val) : Reach H s → s.vals.length = vals.length →
      (∀ (i : Nat) (v w : Val), s.vals[i]? = some v → vals[i]? = some w → Changed (· ∈ vals) v w) → Reach H ⟨s.net, vals⟩

end Dyn

end Verif
