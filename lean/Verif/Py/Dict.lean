import Verif.Py.DateTime

/-
The Python values that make up the result of `get_json`, and ordered dictionaries.
-/

namespace Verif

/-- `None`, integers, strings, datetimes, lists and string-keyed dictionaries (insertion ordered). -/
inductive PyVal
  | none
  | int (i : Int)
  | str (s : Str)
  | dt (d : DateTime)
  | list (l : List PyVal)
  | dict (d : List (String × PyVal))
deriving Repr

/-- An insertion-ordered dictionary. -/
abbrev Dict := List (String × PyVal)

namespace Dict

/-- `d.get(k)`. -/
def get? : Dict → String → Option PyVal
  | [], _ => .none
  | (k', v) :: d, k => if k' = k then some v else get? d k

/-- `k in d`. -/
def has (d : Dict) (k : String) : Bool := (d.get? k).isSome

/-- `d[k] = v`: an existing key keeps its position. -/
def set : Dict → String → PyVal → Dict
  | [], k, v => [(k, v)]
  | (k', v') :: d, k, v => if k' = k then (k, v) :: d else (k', v') :: set d k v

/-- `d.pop(k, None)` (the remaining dictionary). -/
def erase : Dict → String → Dict
  | [], _ => []
  | (k', v') :: d, k => if k' = k then d else (k', v') :: erase d k

/-- The keys, in order. -/
def keys (d : Dict) : List String := d.map Prod.fst

/-- `d.update(e)`. -/
def update (d e : Dict) : Dict := e.foldl (fun d kv => d.set kv.1 kv.2) d

end Dict

namespace PyVal

/-- A string constant of the program. -/
def lit (s : String) : PyVal := .str s.toList

/-- A natural number. -/
def nat (n : Nat) : PyVal := .int n

/-- `None` or a value. -/
def opt (f : α → PyVal) : Option α → PyVal
  | .none => .none
  | some a => f a

end PyVal

end Verif
