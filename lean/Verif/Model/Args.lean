import Verif.Model.Main

/-
The argument parser of `main()`: the options of lnk_file.py:349-373 as `argparse` of Python 3.11 reads them.  Indices into the list of
arguments are represented by what is left of it; usage and error messages are not modelled.
-/

namespace Verif

namespace ArgParse

/-- The options.  Models lnk_file.py:355-372 and `-h`, which `ArgumentParser` adds. -/
inductive Act
  | help | target | json | codepage | all
deriving DecidableEq, Repr

/-- `_option_string_actions`.  Models lnk_file.py:355-372. -/
def OPTIONS : List (Str × Act) :=
  [ ("-h".toList, .help), ("--help".toList, .help), ("-t".toList, .target), ("--target".toList, .target), ("-j".toList, .json),
    ("--json".toList, .json), ("-c".toList, .codepage), ("--codepage".toList, .codepage), ("-a".toList, .all), ("--all".toList, .all) ]

/-- The option takes an argument (`nargs=None`); the others have `nargs=0`. -/
def Act.takesArg : Act → Bool
  | .codepage => true
  | _ => false

/-- What `_parse_optional` finds: the action (`none` if there is no such option), the option string, whether an equals sign
separates the explicit argument, and that argument. -/
structure Tuple where
  act : Option Act
  opt : Str
  sep : Bool
  arg : Option Str

/-- `s.partition("=")`: before the first equals sign; behind it, if there is one. -/
def partition : Str → Str × Option Str
  | [] => ([], none)
  | c :: s => if c = '=' then ([], some s) else (c :: (partition s).1, (partition s).2)

/-- `\d+|\d*\.\d+` for a whole string. -/
def isBody (digit : Char → Bool) (s : Str) : Bool :=
  (!s.isEmpty && s.all digit) || (match s.dropWhile digit with
    | '.' :: s => !s.isEmpty && s.all digit
    | _ => false)

/-- `_negative_number_matcher`: `^-\d+$|^-\d*\.\d+$`, where `$` also matches before a final line break.  `digit` are the characters
`\d` matches. -/
def isNumber (digit : Char → Bool) (s : Str) : Bool :=
  match s with
  | '-' :: s => isBody digit (if s.getLast? = some '\n' then s.dropLast else s)
  | _ => false

/-- `_get_option_tuples`. -/
def getOptionTuples (s : Str) : List Tuple :=
  if s[1]? = some '-' then
    let (option_prefix, explicit_arg) := partition s
    OPTIONS.filterMap fun oa =>
      if option_prefix.isPrefixOf oa.1 then some ⟨some oa.2, oa.1, explicit_arg.isSome, explicit_arg⟩ else none
  else
    OPTIONS.filterMap fun oa =>
      if oa.1 = s.take 2 then some ⟨some oa.2, oa.1, false, some (s.drop 2)⟩
      else if s.isPrefixOf oa.1 then some ⟨some oa.2, oa.1, false, none⟩ else none

/-- The part of `_parse_optional` about an equals sign. -/
def equalsTuple (s : Str) : Option Tuple :=
  match partition s with
  | (o, some arg) => (OPTIONS.lookup o).map fun a => ⟨some a, o, true, some arg⟩
  | _ => none

/-- `_parse_optional`; `none` is an ambiguous option, `some none` a positional argument. -/
def parseOptional (digit : Char → Bool) (s : Str) : Option (Option Tuple) :=
  if s.head? ≠ some '-' then some none
  else match OPTIONS.lookup s with
    | some a => some (some ⟨some a, s, false, none⟩)
    | none =>
      if s.length = 1 then some none
      else
        match equalsTuple s with
        | some t => some (some t)
        | none =>
          match getOptionTuples s with
          | _ :: _ :: _ => none
          | [t] => some (some t)
          | [] =>
            if isNumber digit s then some none
            else if s.contains ' ' then some none
            else some (some ⟨none, s, false, none⟩)

/-- A letter of `arg_strings_pattern`. -/
inductive Kind
  | A
  | dashes
  | O (t : Tuple)

/-- The arguments with their letters; `none` if one is ambiguous. -/
def pattern (digit : Char → Bool) : List Str → Option (List (Str × Kind))
  | [] => some []
  | s :: ss =>
    if s = "--".toList then some ((s, .dashes) :: ss.map fun s => (s, .A))
    else do
      let t ← parseOptional digit s
      let more ← pattern digit ss
      pure ((s, match t with
        | none => .A
        | some t => .O t) :: more)

/-- `parse_args()` ends with the parsed arguments, after printing the help (exit status 0), or with an error (exit status 2). -/
inductive Outcome
  | parsed (file : Str) (args : Args)
  | help
  | usage

/-- What the `while True` loop of `consume_optional` gives: the actions, an unrecognized rest, and an action at the end that takes its
argument, if any, from the following strings. -/
structure Taken where
  acts : List (Act × Option Str)
  extra : Bool
  last : Option Act

/-- The rounds of that loop with an explicit argument; `none` is an `ArgumentError`. -/
def explicit (act : Act) (double sep : Bool) (arg : Str) : Option Taken :=
  if act.takesArg then some ⟨[(act, some arg)], false, none⟩
  else match double, arg with
    | true, _ => none
    | _, [] => none
    | false, c :: arg =>
      if sep ∨ c = '-' then none
      else match OPTIONS.lookup ['-', c] with
        | none => some ⟨[(act, none)], true, none⟩
        | some act' =>
          match arg with
          | [] => some ⟨[(act, none)], false, some act'⟩
          | c' :: arg =>
            let r := if c' = '=' then explicit act' false true arg else explicit act' false false (c' :: arg)
            r.map fun t => { t with acts := (act, none) :: t.acts }
termination_by arg.length

/-- The state of the parser: `file`, the other attributes of the namespace, and whether something was not recognized. -/
structure State where
  file : Option Str := none
  args : Args := {}
  extras : Bool := false

/-- `take_action` for options; `none` is the exit of `-h`. -/
def State.take (s : State) : List (Act × Option Str) → Option State
  | [] => some s
  | (.help, _) :: _ => none
  | (.target, _) :: l => State.take { s with args := { s.args with target := true } } l
  | (.json, _) :: l => State.take { s with args := { s.args with json := true } } l
  | (.codepage, v) :: l => State.take { s with args := { s.args with cp := String.ofList (v.getD []) } } l
  | (.all, _) :: l => State.take { s with args := { s.args with print_all := true } } l

/-- `consume_positionals`: the pattern is `(-*A-*)`; the double dash is removed. -/
def positionals (s : State) (l : List (Str × Kind)) : Option (State × List (Str × Kind)) :=
  if s.file.isSome then none
  else match l with
    | (_, .dashes) :: (f, .A) :: l => some ({ s with file := some f }, l)
    | (f, .A) :: (_, .dashes) :: l => some ({ s with file := some f }, l)
    | (f, .A) :: l => some ({ s with file := some f }, l)
    | _ => none

/-- The end of `_parse_known_args`, and of `parse_args`. -/
def finish (s : State) (l : List (Str × Kind)) : Outcome :=
  let (s, l) := (positionals s l).getD (s, l)
  if s.extras ∨ l ≠ [] then .usage
  else match s.file with
    | none => .usage
    | some f => .parsed f s.args

/-- An option is still to come. -/
def more (l : List (Str × Kind)) : Bool := l.any fun sk => match sk.2 with
  | .O _ => true
  | _ => false

/-- The strings before the next option are skipped. -/
def skip : List (Str × Kind) → List (Str × Kind)
  | [] => []
  | (s, k) :: l => match k with
    | .O t => (s, .O t) :: l
    | _ => skip l

/-- The actions of an option, given what follows; `none` is an `ArgumentError`. -/
def actions (t : Taken) (l : List (Str × Kind)) : Option (List (Act × Option Str) × List (Str × Kind)) :=
  match t.last with
  | none => some (t.acts, l)
  | some a =>
    if a.takesArg then
      match l with
      | (v, .A) :: l => some (t.acts ++ [(a, some v)], l)
      | _ => none
    else some (t.acts ++ [(a, none)], l)

/-- What an option decides by itself; `none` is an `ArgumentError`. -/
def takenOf (a : Act) (t : Tuple) : Option Taken :=
  match t.arg with
  | none => some ⟨[], false, some a⟩
  | some arg => explicit a (t.opt[1]? = some '-') t.sep arg

/-- The actions are taken. -/
def State.takeAll (s : State) (acts : List (Act × Option Str)) (l : List (Str × Kind)) : Except Outcome (State × List (Str × Kind)) :=
  match s.take acts with
  | none => .error .help
  | some s => .ok (s, l)

/-- `consume_optional`; an error is the end of the parse. -/
def optional (s : State) (t : Tuple) (l : List (Str × Kind)) : Except Outcome (State × List (Str × Kind)) :=
  match t.act with
  | none => .ok ({ s with extras := true }, l)
  | some a =>
    match takenOf a t with
    | none => .error .usage
    | some taken =>
      match actions taken l with
      | none => .error .usage
      | some (acts, l) => State.takeAll { s with extras := s.extras || taken.extra } acts l

theorem length_skip (l : List (Str × Kind)) : (skip l).length ≤ l.length := by
  induction l with
  | nil => simp [skip]
  | cons x l ih =>
    rcases x with ⟨s, _ | _ | t⟩ <;> simp only [skip, List.length_cons] <;> omega

theorem length_positionals {s s' : State} {l l' : List (Str × Kind)} (h : positionals s l = some (s', l')) : l'.length < l.length := by
  unfold positionals at h
  repeat' split at h
  all_goals first | cases h
  all_goals simp only [List.length_cons]; omega

theorem length_actions {t : Taken} {l l' : List (Str × Kind)} {acts : List (Act × Option Str)} (h : actions t l = some (acts, l')) :
    l'.length ≤ l.length := by
  unfold actions at h
  repeat' split at h
  all_goals first | cases h
  all_goals first | exact Nat.le_refl _ | (simp only [List.length_cons]; omega)

theorem takeAll_ok {s s' : State} {acts : List (Act × Option Str)} {l l' : List (Str × Kind)}
    (h : s.takeAll acts l = .ok (s', l')) : l' = l := by
  unfold State.takeAll at h
  split at h
  · cases h
  · cases h; rfl

theorem length_optional {s s' : State} {t : Tuple} {l l' : List (Str × Kind)} (h : optional s t l = .ok (s', l')) :
    l'.length ≤ l.length := by
  unfold optional at h
  split at h
  · cases h; exact Nat.le_refl _
  · split at h
    · cases h
    · split at h
      · cases h
      · rename_i ha
        cases takeAll_ok h
        exact length_actions ha

/-- The main loop of `_parse_known_args`. -/
def loop (s : State) (l : List (Str × Kind)) : Outcome :=
  if more l then
    match _h : positionals s l with
    | some (s', l') => loop s' l'
    | none =>
      match _h' : skip l with
      | (_, .O t) :: l' =>
        match _h'' : optional { s with extras := s.extras || decide (l'.length + 1 < l.length) } t l' with
        | .error o => o
        | .ok (s', l'') => loop s' l''
      | _ => .usage
  else finish s l
termination_by l.length
decreasing_by
  · exact length_positionals _h
  · have h1 := length_skip l
    have h2 := length_optional _h''
    rw [_h'] at h1
    simp only [List.length_cons] at h1
    omega

/-- `arg_parser.parse_args()`.  Models lnk_file.py:373. -/
def parseArgs (digit : Char → Bool) (argv : List Str) : Outcome :=
  match pattern digit argv with
  | none => .usage
  | some l => loop {} l

end ArgParse

/-- How a run of the script ends: in the argument parser, with an exit status, or after it. -/
inductive Ran
  | exit (status : Nat)
  | ran (out : Out)

/-- `main()` with its arguments; `read` gives the content of the files that can be opened.  Models lnk_file.py:348-382. -/
def script (env : Env) (dump : Dict → Str) (digit : Char → Bool) (read : Str → Option Bytes) (argv : List Str) : Ran :=
  match ArgParse.parseArgs digit argv with
  | .parsed file args => .ran (main env dump args (read file))
  | .help => .exit 0
  | .usage => .exit 2

end Verif
