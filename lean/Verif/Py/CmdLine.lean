import Verif.Py.Basic

/-
`subprocess.list2cmdline` for a list of one string.
-/

namespace Verif

namespace CmdLine

/-- The `for c in arg` loop: `n` is the number of backslashes in `bs_buf`; the characters emitted and the
backslashes still buffered at the end. -/
def loop : Str → Nat → Str × Nat
  | [], n => ([], n)
  | c :: cs, n =>
    if c = '\\' then loop cs (n + 1)
    else if c = '"' then
      let r := loop cs 0
      (List.replicate (n * 2) '\\' ++ '\\' :: '"' :: r.1, r.2)
    else
      let r := loop cs 0
      (List.replicate n '\\' ++ c :: r.1, r.2)

/-- `needquote`: a space, a tab or nothing at all. -/
def needquote (arg : Str) : Bool := arg.contains ' ' || arg.contains '\t' || arg.isEmpty

/-- `list2cmdline([arg])`. -/
def list2cmdline (arg : Str) : Str :=
  let r := loop arg 0
  let bs := List.replicate r.2 '\\'
  if needquote arg then '"' :: (r.1 ++ bs ++ bs ++ ['"']) else r.1 ++ bs

end CmdLine

end Verif
