import Verif.Lemmas.ArgsLine

/-
C81: what the command line means.
-/

namespace Verif.Props

open Spec.CommandLine ArgParse

/-- `\d` of a regular expression: neither a line break nor a point. -/
def Digits (digit : Char → Bool) : Prop := digit '\n' = false ∧ digit '.' = false

/-- A command line is accepted exactly if it names one file between recognized options, and then it asks for what the options set. -/
theorem command_line_read {digit : Char → Bool} (hd : Digits digit) (argv : List Str) (file : Str) (args : Args) :
    parseArgs digit argv = .parsed file args ↔ ∃ ss, Line digit argv file ss ∧ IsArgs ss args := by
  constructor
  · intro h
    rw [parseArgs_go] at h
    cases hp : pattern digit argv with
    | none => rw [hp] at h; cases h
    | some l =>
      rw [hp] at h
      obtain ⟨_, ss, rfl, _, h2⟩ := line_sound hd.1 hd.2 argv.length argv l {} file args (Nat.le_refl _) hp h
      exact ⟨ss, h2 rfl, apply_isArgs ss⟩
  · rintro ⟨ss, h1, h2⟩
    rw [line_complete hd.1 hd.2 h1, isArgs_unique h2 (apply_isArgs ss)]

/-- The help is printed exactly if a request for it is reached: no word before the dashes is ambiguous, and before the request there
are only options with what they need and arguments. -/
theorem command_line_help {digit : Char → Bool} (hd : Digits digit) (argv : List Str) :
    parseArgs digit argv = .help ↔ (∀ w ∈ argv.takeWhile (· ≠ dashes), ¬ Ambiguous w) ∧
      ∃ a h b ss k, argv = a ++ h ++ b ∧ Any digit a ∧ Opt digit h ss k ∧ Setting.help ∈ ss := by
  rw [← pattern_iff hd.1 hd.2, parseArgs_go]
  constructor
  · intro h
    cases hp : pattern digit argv with
    | none => rw [hp] at h; cases h
    | some l =>
      rw [hp] at h
      exact ⟨⟨l, rfl⟩, help_sound hd.1 hd.2 argv.length argv l {} (Nat.le_refl _) hp h⟩
  · rintro ⟨⟨l, hl⟩, a, h, b, ss, k, rfl, h1, h2, h3⟩
    have hb : ∃ lb, pattern digit b = some lb := by
      rw [List.append_assoc] at hl
      exact pattern_tail (opt_dashes hd.1 hd.2 h2) (pattern_tail (any_dashes hd.1 hd.2 h1) ⟨l, hl⟩)
    obtain ⟨lb, hb⟩ := hb
    obtain ⟨w, t, l', h4, h5⟩ := opt_go hd.1 hd.2 h2 hb
    obtain ⟨l'', h6, _, h7⟩ := any_go hd.1 hd.2 h1 h4 rfl
    rw [List.append_assoc, h6]
    obtain ⟨s', h8⟩ := h7 {}
    show go {} l'' = _
    rw [h8, h5, follow_help h3]
    rfl

/-- Every other command line is refused. -/
theorem command_line_refused {digit : Char → Bool} (hd : Digits digit) (argv : List Str) :
    parseArgs digit argv = .usage ↔ (¬ ∃ file ss, Line digit argv file ss) ∧
      ((∃ w ∈ argv.takeWhile (· ≠ dashes), Ambiguous w) ∨
        ∀ a h b ss k, argv = a ++ h ++ b → Any digit a → Opt digit h ss k → Setting.help ∉ ss) := by
  have h1 : (∃ file ss, Line digit argv file ss) ↔ ∃ file args, parseArgs digit argv = .parsed file args := by
    constructor
    · rintro ⟨file, ss, h⟩
      exact ⟨file, _, (command_line_read hd argv file _).mpr ⟨ss, h, apply_isArgs ss⟩⟩
    · rintro ⟨file, args, h⟩
      obtain ⟨ss, h, _⟩ := (command_line_read hd argv file args).mp h
      exact ⟨file, ss, h⟩
  have h2 := command_line_help hd argv
  have h3 : ((∃ w ∈ argv.takeWhile (· ≠ dashes), Ambiguous w) ∨
        ∀ a h b ss k, argv = a ++ h ++ b → Any digit a → Opt digit h ss k → Setting.help ∉ ss) ↔ parseArgs digit argv ≠ .help := by
    rw [Ne, h2]
    push Not
    constructor
    · rintro (⟨w, hw, ha⟩ | h) hn
      · exact absurd ha (hn w hw)
      · exact h
    · intro h
      by_cases hw : ∃ w ∈ argv.takeWhile (· ≠ dashes), Ambiguous w
      · exact Or.inl hw
      · exact Or.inr (h fun w h' ha => hw ⟨w, h', ha⟩)
  rw [h1, h3]
  cases parseArgs digit argv <;> simp

/-- The words that ask for the arguments. -/
def words (args : Args) : List Str :=
  (if args.target then ["-t".toList] else []) ++ (if args.json then ["--json".toList] else []) ++
    (if args.print_all then ["-a".toList] else []) ++ ["-c=".toList ++ args.cp.toList]

/-- Every request can be written: for any file, whatever its name, and any arguments there is a command line. -/
theorem command_line_written {digit : Char → Bool} (hd : Digits digit) (file : Str) (args : Args) :
    parseArgs digit (words args ++ ["--".toList, file]) = .parsed file args := by
  have hopts : ∀ (b : Bool) (w : Str) (s : Setting), Opt digit [w] [s] true → s ≠ .help →
      Opts digit (if b then [w] else []) (if b then [s] else []) := by
    intro b w s h1 h2
    cases b
    · exact .nil
    · exact .cons (l := []) (ts := []) h1 (by simpa using Ne.symm h2) .nil
  have happ : ∀ {a b : List Str} {ss ts : List Setting}, Opts digit a ss → Opts digit b ts → Opts digit (a ++ b) (ss ++ ts) := by
    intro a b ss ts h1 h2
    induction h1 with
    | nil => exact h2
    | cons h3 h4 _ ih =>
      rw [List.append_assoc, List.append_assoc]
      exact .cons h3 h4 ih
  have h1 := hopts args.target "-t".toList .target (.short (.flag .target)) (by simp)
  have h2 := hopts args.json "--json".toList .json (.long .json ⟨by decide, List.prefix_rfl⟩) (by simp)
  have h3 := hopts args.print_all "-a".toList .all (.short (.flag .all)) (by simp)
  have h4 : Opts digit ["-c=".toList ++ args.cp.toList] [.codepage args.cp.toList] :=
    .cons (l := []) (ts := []) (.short .equals) (by simp) .nil
  rw [command_line_read hd]
  refine ⟨_, .behind (happ (happ (happ h1 h2) h3) h4), ?_⟩
  obtain ⟨t, j, c, a⟩ := args
  cases t <;> cases j <;> cases a <;> simp [IsArgs, codepageOf]

/-- The options may come before or behind the file, and their order does not matter except for code pages, where the last one counts. -/
theorem command_line_order {digit : Char → Bool} (hd : Digits digit) {l r l' r' : List Str} {file : Str} {ss ts ss' ts' : List Setting}
    (hf : Argument digit file) (h1 : Opts digit l ss) (h2 : Opts digit r ts) (h3 : Opts digit l' ss') (h4 : Opts digit r' ts')
    (hmem : ∀ s, s ∈ ss ++ ts ↔ s ∈ ss' ++ ts') (hcp : codepageOf (ss ++ ts) = codepageOf (ss' ++ ts')) :
    parseArgs digit (l ++ file :: r) = parseArgs digit (l' ++ file :: r') := by
  rw [line_complete hd.1 hd.2 (.amid h1 hf h2)]
  symm
  rw [command_line_read hd]
  refine ⟨_, .amid h3 hf h4, ?_⟩
  obtain ⟨a1, a2, a3, a4⟩ := apply_isArgs (ss ++ ts)
  exact ⟨a1.trans (hmem _), a2.trans (hmem _), a3.trans (hmem _), a4.trans (by rw [hcp])⟩

/-- The script runs for the file that the command line names, with the arguments that it asks for; otherwise it ends without reading a
file, with status 0 after the help and 2 after an error. -/
theorem script_outcome {digit : Char → Bool} (hd : Digits digit) (env : Env) (dump : Dict → Str) (read : Str → Option Bytes)
    (argv : List Str) :
    (∀ file ss args, Line digit argv file ss → IsArgs ss args →
      script env dump digit read argv = .ran (main env dump args (read file))) ∧
    ((¬ ∃ file ss, Line digit argv file ss) → ∃ n, (n = 0 ∨ n = 2) ∧ ∀ read', script env dump digit read' argv = .exit n) := by
  constructor
  · intro file ss args h1 h2
    unfold script
    rw [(command_line_read hd argv file args).mpr ⟨ss, h1, h2⟩]
  · intro h
    unfold script
    cases hp : parseArgs digit argv with
    | parsed file args =>
      obtain ⟨ss, h', _⟩ := (command_line_read hd argv file args).mp hp
      exact absurd ⟨file, ss, h'⟩ h
    | help => exact ⟨0, Or.inl rfl, fun _ => rfl⟩
    | usage => exact ⟨2, Or.inr rfl, fun _ => rfl⟩

/-- No other file is read than the one that is named, and a command line names at most one. -/
theorem script_one_file {digit : Char → Bool} (hd : Digits digit) (env : Env) (dump : Dict → Str) (argv : List Str) :
    (∀ f f' ss ss', Line digit argv f ss → Line digit argv f' ss' → f = f') ∧
    ∀ read read' : Str → Option Bytes, (∀ f ss, Line digit argv f ss → read f = read' f) →
      script env dump digit read argv = script env dump digit read' argv := by
  constructor
  · intro f f' ss ss' h h'
    have h1 := line_complete hd.1 hd.2 h
    rw [line_complete hd.1 hd.2 h'] at h1
    exact (Outcome.parsed.inj h1).1.symm
  · intro read read' h
    unfold script
    cases hp : parseArgs digit argv with
    | parsed file args =>
      obtain ⟨ss, h', _⟩ := (command_line_read hd argv file args).mp hp
      simp only
      rw [h file ss h']
    | help => rfl
    | usage => rfl

/-! ### Concrete command lines -/

/-- The digits of ASCII. -/
def asciiDigit (c : Char) : Bool := '0' ≤ c && c ≤ '9'

theorem asciiDigit_digits : Digits asciiDigit := ⟨by decide, by decide⟩

def lineOf (ws : List String) : List Str := ws.map String.toList

/-- A cluster with a code page behind it, an abbreviated option, and a file between them. -/
example : parseArgs asciiDigit (lineOf ["-tjc", "cp932", "a.lnk", "--al"]) = .parsed "a.lnk".toList ⟨true, true, "cp932", true⟩ := by
  rw [command_line_read asciiDigit_digits]
  refine ⟨_, .amid (l := lineOf ["-tjc", "cp932"]) (ss := [.target, .json, .codepage "cp932".toList]) ?_ ?_
    (.cons (h := lineOf ["--al"]) (l := []) (ts := []) (ss := [.all]) ?_ ?_ .nil), ?_⟩
  · refine .cons (h := lineOf ["-tjc", "cp932"]) (l := []) (ts := []) (ss := [.target, .json, .codepage "cp932".toList]) ?_ (by simp) .nil
    exact .shortNext (r := "tjc".toList) (ss := [.target, .json]) (.more .target (.more .json .next)) (Or.inl (by decide))
  · exact Or.inl (by decide)
  · exact .long (p := "al".toList) .all ⟨by decide, by decide⟩
  · simp
  · simp [IsArgs, codepageOf]

private theorem not_named {c : Char} {r : Str} (h1 : c ∉ letters) (h2 : c ≠ '-') : ¬ Named ('-' :: c :: r) := by
  intro h
  cases h with
  | short h => exact h1 h
  | long => exact h2 rfl

private theorem x_stray : ¬ Named "-x".toList ∧ ¬ Argument asciiDigit "-x".toList := by
  have hx : ¬ Named "-x".toList := not_named (by decide) (by decide)
  refine ⟨hx, ?_⟩
  rintro (h | ⟨r, h, rfl | ⟨_, ⟨ds, es, h1, brk, h2, ⟨h3, h4⟩ | ⟨h3, h4⟩⟩ | h1⟩⟩)
  · exact absurd rfl h
  · cases h
  · obtain rfl : r = ['x'] := (List.cons.inj h).2.symm
    match ds with
    | [] => exact h3 rfl
    | c :: ds =>
      obtain rfl : 'x' = c := (List.cons.inj h4).1
      exact absurd (h1 'x' (by simp)) (by decide)
  · obtain rfl : r = ['x'] := (List.cons.inj h).2.symm
    match ds with
    | [] => exact absurd (List.cons.inj h4).1 (by decide)
    | c :: ds =>
      obtain rfl : 'x' = c := (List.cons.inj h4).1
      exact absurd (h1 'x' (by simp)) (by decide)
  · exact absurd h1 (by decide)

/-- A negative number is an argument, and an unknown option is not, unless it contains a blank. -/
example : Argument asciiDigit "-12.5".toList ∧ ¬ Argument asciiDigit "-x".toList ∧ Argument asciiDigit "-x y".toList ∧
    ¬ Argument asciiDigit "-t y".toList := by
  refine ⟨Or.inr ⟨_, rfl, Or.inr ⟨not_named (by decide) (by decide), Or.inl ?_⟩⟩, x_stray.2,
    Or.inr ⟨_, rfl, Or.inr ⟨not_named (by decide) (by decide), Or.inr (by decide)⟩⟩, named_not_arg (.short (by decide))⟩
  exact ⟨['1', '2'], ['5'], by decide, [], by simp, Or.inr ⟨by simp, rfl⟩⟩

/-- Help in a cluster, after an unknown option and two arguments. -/
example : parseArgs asciiDigit (lineOf ["y", "-x", "y", "-th"]) = .help := by
  rw [command_line_help asciiDigit_digits]
  refine ⟨?_, lineOf ["y", "-x", "y"], lineOf ["-th"], [], [.target, .help], true, rfl, ?_, .short (.more .target (.flag .help)), by simp⟩
  · intro w hw
    have hw := List.takeWhile_subset _ hw
    simp only [lineOf, List.map_cons, List.map_nil, List.mem_cons, List.not_mem_nil, or_false] at hw
    rintro ⟨v, rfl⟩
    rcases hw with h | h | h | h <;> cases h
  · exact .arg (Or.inl (by decide)) (.opt (h := lineOf ["-x"]) (.unknown (by decide) x_stray.1 x_stray.2) (by simp)
      (.arg (Or.inl (by decide)) .nil))

/-- Two files, and an option that needs its argument, are refused: no reading of the words makes one file of them. -/
example : parseArgs asciiDigit (lineOf ["a", "b"]) = .usage ∧ parseArgs asciiDigit (lineOf ["a", "-c"]) = .usage := by
  rw [parseArgs_go, parseArgs_go]
  constructor
  · rw [show pattern asciiDigit (lineOf ["a", "b"]) = some [("a".toList, .A), ("b".toList, .A)] by rfl]
    show go {} _ = _
    rw [go_finish _ _ rfl]
    rfl
  · rw [show pattern asciiDigit (lineOf ["a", "-c"]) = some [("a".toList, .A), ("-c".toList, .O ⟨some .codepage, "-c".toList, false, none⟩)]
      by rfl]
    show go {} _ = _
    rw [go_arg, if_neg (by simp)]
    show go _ [("-c".toList, .O ⟨some .codepage, "-c".toList, false, none⟩)] = _
    rw [go_optional]
    rfl

/-- A file called "--help" can be named. -/
example : parseArgs asciiDigit (["-t".toList] ++ ["-a".toList] ++ ["-c=cp437".toList] ++ ["--".toList, "--help".toList]) =
    .parsed "--help".toList ⟨true, false, "cp437", true⟩ :=
  command_line_written asciiDigit_digits "--help".toList ⟨true, false, "cp437", true⟩

theorem opts_ta : Opts asciiDigit (lineOf ["-ta"]) [.target, .all] :=
  .cons (h := lineOf ["-ta"]) (l := []) (ts := []) (.short (.more .target (.flag .all))) (by simp) .nil

theorem opts_all_target : Opts asciiDigit (lineOf ["--all", "--target"]) [.all, .target] :=
  .cons (h := lineOf ["--all"]) (ss := [.all]) (.long (p := "all".toList) .all ⟨by decide, by decide⟩) (by simp)
    (.cons (h := lineOf ["--target"]) (l := []) (ts := []) (.long (p := "target".toList) .target ⟨by decide, by decide⟩) (by simp) .nil)

/-- Options before the file or behind it, in another order and in full. -/
example : parseArgs asciiDigit (lineOf ["-ta", "x.lnk"]) = parseArgs asciiDigit (lineOf ["x.lnk", "--all", "--target"]) :=
  command_line_order asciiDigit_digits (r := []) (l' := []) (file := "x.lnk".toList) (Or.inl (by decide)) opts_ta .nil .nil opts_all_target
    (by simp [or_comm]) rfl

/-- A run of the script for that line; no other file than the named one matters. -/
example (env : Env) (dump : Dict → Str) (read read' : Str → Option Bytes) (h : read "x.lnk".toList = read' "x.lnk".toList) :
    script env dump asciiDigit read (lineOf ["-ta", "x.lnk"]) = .ran (main env dump ⟨true, false, "cp1252", true⟩ (read "x.lnk".toList)) ∧
    script env dump asciiDigit read (lineOf ["-ta", "x.lnk"]) = script env dump asciiDigit read' (lineOf ["-ta", "x.lnk"]) := by
  have hl : Line asciiDigit (lineOf ["-ta", "x.lnk"]) "x.lnk".toList ([.target, .all] ++ []) :=
    .amid (l := lineOf ["-ta"]) opts_ta (Or.inl (by decide)) .nil
  refine ⟨(script_outcome asciiDigit_digits env dump read _).1 _ _ _ hl (by simp [IsArgs, codepageOf]), ?_⟩
  refine (script_one_file asciiDigit_digits env dump _).2 read read' fun f ss hf => ?_
  rw [(script_one_file asciiDigit_digits env dump _).1 _ _ _ _ hf hl, h]

end Verif.Props
