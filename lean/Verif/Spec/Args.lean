import Verif.Model.Main

/-
Specification layer: the command lines of the tool.
-/

namespace Verif.Spec.CommandLine

/-- What an option sets. -/
inductive Setting
  | target | json | all | codepage (name : List Char) | help

/-- Options without an argument: the letter and the name. -/
inductive Flag : Char → List Char → Setting → Prop
  | target : Flag 't' "target".toList .target
  | json : Flag 'j' "json".toList .json
  | all : Flag 'a' "all".toList .all
  | help : Flag 'h' "help".toList .help

/-- The letters of the options. -/
def letters : List Char := ['t', 'j', 'a', 'h', 'c']

/-- The names of the options. -/
def names : List (List Char) := ["target".toList, "json".toList, "all".toList, "help".toList, "codepage".toList]

/-- How a cluster of letters ends. -/
inductive Tail
  | done
  /-- with an option that takes the next word as its argument -/
  | next
  /-- with something that is not an option -/
  | unknown

/-- What a cluster of letters (without the dash) sets, and how it ends. -/
inductive Cluster : List Char → List Setting → Tail → Prop
  | flag {c name s} : Flag c name s → Cluster [c] [s] .done
  | more {c name s r ss t} : Flag c name s → Cluster r ss t → Cluster (c :: r) (s :: ss) t
  | unknown {c name s x r} : Flag c name s → x ∉ letters → x ≠ '-' → x ≠ '=' → Cluster (c :: x :: r) [s] .unknown
  | next : Cluster ['c'] [] .next
  | value {x v} : x ≠ '=' → Cluster ('c' :: x :: v) [.codepage (x :: v)] .done
  | equals {v} : Cluster ('c' :: '=' :: v) [.codepage v] .done

/-- A nonempty beginning of a name. -/
def Abbreviates (p name : List Char) : Prop := p ≠ [] ∧ p <+: name

/-- The characters behind the dash are a number, possibly followed by a line break. -/
def Number (digit : Char → Bool) (w : List Char) : Prop :=
  ∃ ds es : List Char, (∀ c ∈ ds ++ es, digit c = true) ∧ ∃ brk ∈ [[], ['\n']],
    (ds ≠ [] ∧ w = ds ++ brk) ∨ (es ≠ [] ∧ w = ds ++ '.' :: es ++ brk)

/-- What stands before the first equals sign. -/
def stem (w : List Char) : List Char := w.takeWhile (· ≠ '=')

/-- The word looks like one of the options. -/
inductive Named : List Char → Prop
  | short {c r} : c ∈ letters → Named ('-' :: c :: r)
  | long {p name} : name ∈ names → stem p <+: name → Named ('-' :: '-' :: p)

/-- The word is an argument: it does not start with a dash, is a single dash, or looks like no option and is a number or contains a
blank. -/
def Argument (digit : Char → Bool) (w : List Char) : Prop :=
  w.head? ≠ some '-' ∨ ∃ r, w = '-' :: r ∧ (r = [] ∨ ¬ Named w ∧ (Number digit r ∨ ' ' ∈ w))

/-- The word could be every option with a name. -/
def Ambiguous (w : List Char) : Prop := ∃ v, w = '-' :: '-' :: '=' :: v

/-- Words that are one option, or several in a cluster: what they set, and whether all of it is recognized. -/
inductive Opt (digit : Char → Bool) : List (List Char) → List Setting → Bool → Prop
  | long {c name s p} : Flag c name s → Abbreviates p name → Opt digit ['-' :: '-' :: p] [s] true
  | longEquals {p v} : Abbreviates p "codepage".toList → Opt digit ['-' :: '-' :: p ++ '=' :: v] [.codepage v] true
  | longNext {p v} : Abbreviates p "codepage".toList → Argument digit v → Opt digit ['-' :: '-' :: p, v] [.codepage v] true
  | short {r ss} : Cluster r ss .done → Opt digit ['-' :: r] ss true
  | shortNext {r ss v} : Cluster r ss .next → Argument digit v → Opt digit ['-' :: r, v] (ss ++ [.codepage v]) true
  | shortUnknown {r ss} : Cluster r ss .unknown → Opt digit ['-' :: r] ss false
  | unknown {r} : r ≠ [] → ¬ Named ('-' :: r) → ¬ Argument digit ('-' :: r) → Opt digit ['-' :: r] [] false

/-- Options one after the other, all recognized, none of them asking for help. -/
inductive Opts (digit : Char → Bool) : List (List Char) → List Setting → Prop
  | nil : Opts digit [] []
  | cons {h ss l ts} : Opt digit h ss true → .help ∉ ss → Opts digit l ts → Opts digit (h ++ l) (ss ++ ts)

/-- Options and arguments one after the other, recognized or not, without a request for help. -/
inductive Any (digit : Char → Bool) : List (List Char) → Prop
  | nil : Any digit []
  | opt {h ss k l} : Opt digit h ss k → .help ∉ ss → Any digit l → Any digit (h ++ l)
  | arg {w l} : Argument digit w → Any digit l → Any digit (w :: l)

def dashes : List Char := ['-', '-']

/-- A command line for a file. -/
inductive Line (digit : Char → Bool) : List (List Char) → List Char → List Setting → Prop
  | amid {l r ss ts file} : Opts digit l ss → Argument digit file → Opts digit r ts → Line digit (l ++ file :: r) file (ss ++ ts)
  | behind {l ss file} : Opts digit l ss → Line digit (l ++ [dashes, file]) file ss
  | before {l ss file} : Opts digit l ss → Argument digit file → Line digit (l ++ [file, dashes]) file ss

/-- The last code page that is set. -/
def codepageOf (ss : List Setting) : Option (List Char) :=
  (ss.filterMap fun s => match s with
    | .codepage v => some v
    | _ => none).getLast?

/-- The arguments that settings stand for. -/
def IsArgs (ss : List Setting) (a : Args) : Prop :=
  (a.target = true ↔ .target ∈ ss) ∧ (a.json = true ↔ .json ∈ ss) ∧ (a.print_all = true ↔ .all ∈ ss) ∧
    a.cp = ((codepageOf ss).map String.ofList).getD "cp1252"

end Verif.Spec.CommandLine
