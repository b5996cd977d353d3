import Verif.Py.Dict

/-
Specification layer: how deep a tree is nested.
-/

namespace Verif.Spec

/-- `Deep x n v`: the value `x` is inside `n` lists and dictionaries, one in the other, of which `v` is the outermost. -/
inductive Deep (x : PyVal) : Nat → PyVal → Prop
  | here : Deep x 0 x
  | element {n : Nat} {y : PyVal} {l : List PyVal} : y ∈ l → Deep x n y → Deep x (n + 1) (.list l)
  | entry {n : Nat} {kv : String × PyVal} {d : Dict} : kv ∈ d → Deep x n kv.2 → Deep x (n + 1) (.dict d)

end Verif.Spec
