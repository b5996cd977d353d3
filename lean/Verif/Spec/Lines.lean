/-
Specification layer: the lines of a text, as Python's `str.splitlines` understands them, and white space.
-/

namespace Verif.Spec

/-- White space: tab to carriage return, the four separators and the blank, next line, and the Unicode spaces. -/
def IsBlank (c : Char) : Prop :=
  let n := c.toNat
  (9 ≤ n ∧ n ≤ 13) ∨ (28 ≤ n ∧ n ≤ 32) ∨ n = 0x85 ∨ n = 0xA0 ∨ n = 0x1680 ∨ (0x2000 ≤ n ∧ n ≤ 0x200A) ∨
    (0x2028 ≤ n ∧ n ≤ 0x2029) ∨ n = 0x202F ∨ n = 0x205F ∨ n = 0x3000

/-- Line feed to carriage return, the first three separators, next line, and the two Unicode separators end a line. -/
def EndsLine (c : Char) : Prop :=
  let n := c.toNat
  (10 ≤ n ∧ n ≤ 13) ∨ (28 ≤ n ∧ n ≤ 30) ∨ n = 0x85 ∨ (0x2028 ≤ n ∧ n ≤ 0x2029)

instance (c : Char) : Decidable (IsBlank c) := inferInstanceAs (Decidable (_ ∨ _))

instance (c : Char) : Decidable (EndsLine c) := inferInstanceAs (Decidable (_ ∨ _))

/-- A text and its lines, each with what ends it. -/
inductive LinesOf : List Char → List (List Char × List Char) → Prop
  | nil : LinesOf [] []
  /-- the last line need not be ended -/
  | last {l : List Char} (h : l ≠ []) (hl : ∀ c ∈ l, ¬ EndsLine c) : LinesOf l [(l, [])]
  /-- a carriage return and the line feed behind it are one end -/
  | crlf {l rest : List Char} {ls : List (List Char × List Char)} (hl : ∀ c ∈ l, ¬ EndsLine c) (h : LinesOf rest ls) :
      LinesOf (l ++ '\r' :: '\n' :: rest) ((l, ['\r', '\n']) :: ls)
  | ended {l : List Char} {c : Char} {rest : List Char} {ls : List (List Char × List Char)} (hl : ∀ c ∈ l, ¬ EndsLine c)
      (hc : EndsLine c) (hr : c = '\r' → rest.head? ≠ some '\n') (h : LinesOf rest ls) :
      LinesOf (l ++ c :: rest) ((l, [c]) :: ls)

/-- Three blanks before every line that is not blank. -/
def indented (ls : List (List Char × List Char)) : List Char :=
  ls.flatMap fun l => (if ∀ c ∈ l.1, IsBlank c then [] else [' ', ' ', ' ']) ++ l.1 ++ l.2

end Verif.Spec
