import Verif.Py.Dict

/-
Specification layer: the size of a reported tree.
-/

namespace Verif.Spec

mutual
/-- The number of values in a tree plus the number of characters of its texts (keys are not counted). -/
def weight : PyVal → Nat
  | .none => 1
  | .int _ => 1
  | .str s => 1 + s.length
  | .dt _ => 1
  | .list l => 1 + weightList l
  | .dict d => 1 + weightEntries d
/-- The elements of a list. -/
def weightList : List PyVal → Nat
  | [] => 0
  | v :: l => weight v + weightList l
/-- The values of a dictionary. -/
def weightEntries : List (String × PyVal) → Nat
  | [] => 0
  | (_, v) :: d => weight v + weightEntries d
end

end Verif.Spec
