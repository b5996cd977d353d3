import Verif.Py.Dict

/-
Specification layer: a report with a note about data behind the terminal block.
-/

namespace Verif.Spec

/-- The entry for the data behind the terminal block: `size` counts the terminal block. -/
def appendedEntry (size : Nat) (digest : Str) : String × PyVal :=
  ("TERMINAL_BLOCK", .dict [("size", .int size), ("appended_data_sha256", .str digest)])

/-- The report `j` with another size, and with this entry as the last one of `extra`. -/
def withAppended (fileSize size : Nat) (digest : Str) (j : Dict) : Dict :=
  j.map fun kv =>
    if kv.1 = "size" then (kv.1, .int fileSize)
    else if kv.1 = "extra" then (kv.1, match kv.2 with
      | .dict e => .dict (e ++ [appendedEntry size digest])
      | v => v)
    else kv

end Verif.Spec
