import Verif.Model.Dyn

/-! # `select_network` with an argument of any type -/

namespace Verif

namespace Val

mutual

/-- `hash(v)` does not raise. Bytearrays and lists have no hash; neither have `ByteData` objects, because the class defines `__eq__` (tx/shared.py:65). -/
def hashable : Val → Bool
  | .none => true
  | .int _ => true
  | .str _ => true
  | .bytes _ => true
  | .bytearray _ => false
  | .obj _ _ _ => false
  | .list _ => false
  | .tuple l => hashableAll l

/-- `hash(v)` does not raise for any element of the list. -/
def hashableAll : List Val → Bool
  | [] => true
  | v :: vs => v.hashable && hashableAll vs

end

/-- riemann/__init__.py:6-17 and networks/__init__.py:86-93, `select_network(name)`: result and new value of the module global `network`. `name not in SUPPORTED` raises TypeError for a value
without hash; values other than strings are not in the dict. -/
def selectNetwork (name : Val) (cur : Network) : Py Unit × Network :=
  match name with
  | .str s => Verif.selectNetwork s cur
  | v => (.error (if v.hashable then .valueError else .typeError), cur)

end Val

end Verif
