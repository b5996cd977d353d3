import Verif.Py.Basic

/-
`str.splitlines(True)`, `str.replace` and `textwrap.indent`.
-/

namespace Verif

namespace TextWrap

/-- `c.isspace()`: the code points CPython treats as white space. -/
def isSpace (c : Char) : Bool :=
  [0x09, 0x0A, 0x0B, 0x0C, 0x0D, 0x1C, 0x1D, 0x1E, 0x1F, 0x20, 0x85, 0xA0, 0x1680, 0x2000, 0x2001, 0x2002, 0x2003,
    0x2004, 0x2005, 0x2006, 0x2007, 0x2008, 0x2009, 0x200A, 0x2028, 0x2029, 0x202F, 0x205F, 0x3000].contains c.toNat

/-- The characters `str.splitlines` breaks lines at (`\r\n` counts as one break). -/
def isBreak (c : Char) : Bool :=
  [0x0A, 0x0B, 0x0C, 0x0D, 0x1C, 0x1D, 0x1E, 0x85, 0x2028, 0x2029].contains c.toNat

/-- `splitlines(True)`; `cur` is the line being collected. -/
def splitLinesGo (cur : Str) : Str → List Str
  | [] => if cur = [] then [] else [cur]
  | c :: cs =>
    if c = '\r' then
      match cs with
      | '\n' :: cs => (cur ++ ['\r', '\n']) :: splitLinesGo [] cs
      | cs => (cur ++ ['\r']) :: splitLinesGo [] cs
    else if isBreak c then (cur ++ [c]) :: splitLinesGo [] cs
    else splitLinesGo (cur ++ [c]) cs

/-- `s.splitlines(True)`. -/
def splitLines (s : Str) : List Str := splitLinesGo [] s

/-- `textwrap.indent(text, prefix)`: lines of nothing but white space are left alone. -/
def indent (text pre : Str) : Str :=
  (splitLines text).flatMap fun line => if line.all isSpace then line else pre ++ line

/-- `text.replace(old, new)` for a non-empty `old`. -/
def replace (old new : Str) : Str → Str
  | [] => []
  | c :: cs =>
    if old.isPrefixOf (c :: cs) then new ++ replace old new (cs.drop (old.length - 1))
    else c :: replace old new cs
termination_by s => s.length
decreasing_by all_goals (simp_wf; try omega)

end TextWrap

end Verif
