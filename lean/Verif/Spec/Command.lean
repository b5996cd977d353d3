/-
Specification layer: how a program compiled with the Microsoft C runtime splits its command line into arguments
("Parsing C command-line arguments").  Uses nothing of the model.
-/

namespace Verif.Spec

/-- White space between arguments. -/
def isBlank (c : Char) : Bool := c = ' ' || c = '\t'

/-- Put characters in front of the argument. -/
def cons' (l : List Char) (r : List Char × List Char) : List Char × List Char := (l ++ r.1, r.2)

/-- The argument that starts here, and what follows it.  `quoted`: between double quotes; `n`: number of backslashes just
before.  Backslashes are literal unless a double quote follows; then each pair stands for one, and a single one left over
makes the quote literal.  White space ends the argument unless quoted.
`twice`: two double quotes in a quoted part stand for one (newer runtimes). -/
def takeArg (twice : Bool) (quoted : Bool) (n : Nat) : List Char → List Char × List Char
  | [] => (List.replicate n '\\', [])
  | c :: cs =>
    if c = '\\' then takeArg twice quoted (n + 1) cs
    else if c = '"' then
      if n % 2 = 1 then cons' (List.replicate (n / 2) '\\' ++ ['"']) (takeArg twice quoted 0 cs)
      else if twice && quoted && cs.head? = some '"' then
        cons' (List.replicate (n / 2) '\\' ++ ['"']) (takeArg twice true 0 cs.tail)
      else cons' (List.replicate (n / 2) '\\') (takeArg twice (!quoted) 0 cs)
    else if isBlank c && !quoted then (List.replicate n '\\', c :: cs)
    else cons' (List.replicate n '\\' ++ [c]) (takeArg twice quoted 0 cs)
termination_by l => l.length
decreasing_by all_goals simp [List.length_tail] <;> omega

/-- Arguments are separated by white space. -/
inductive Arguments (twice : Bool) : List Char → List (List Char) → Prop
  | nil : Arguments twice [] []
  | blank (c : Char) (cs : List Char) (l : List (List Char)) : isBlank c = true → Arguments twice cs l →
      Arguments twice (c :: cs) l
  | arg (c : Char) (cs a rest : List Char) (l : List (List Char)) : isBlank c = false →
      takeArg twice false 0 (c :: cs) = (a, rest) → Arguments twice rest l → Arguments twice (c :: cs) (a :: l)

/-- The program name (the first word of a command line) is read by simpler rules: double quotes enclose white space,
backslashes mean nothing. -/
def takeProgram (quoted : Bool) : List Char → List Char × List Char
  | [] => ([], [])
  | c :: cs =>
    if c = '"' then takeProgram (!quoted) cs
    else if isBlank c && !quoted then ([], c :: cs)
    else cons' [c] (takeProgram quoted cs)

end Verif.Spec
