import Verif.Lemmas.CmdLine
import Verif.Props.Link

/-
C36: the command line of a link.
-/

namespace Verif.Props

open Spec

/-- A command line is split in one way only. -/
theorem Arguments.unique {twice : Bool} {c : Str} {l l' : List Str} (h : Arguments twice c l)
    (h' : Arguments twice c l') : l = l' := by
  induction h generalizing l' with
  | nil => cases h'; rfl
  | blank c cs l hb _ ih => cases h' with
    | blank _ _ _ _ h2 => exact ih h2
    | arg _ _ _ _ _ hb' => rw [hb] at hb'; cases hb'
  | arg c cs a rest l hb ht _ ih => cases h' with
    | blank _ _ _ hb' => rw [hb] at hb'; cases hb'
    | arg _ _ a' rest' l'' _ ht' h2 =>
      rw [ht] at ht'
      obtain ⟨rfl, rfl⟩ := Prod.mk.inj ht'
      rw [ih h2]

/-- C36: a link with a relative path and arguments.  Read by the rules of the Microsoft C runtime, old or new, the first
argument is exactly the path and is followed by one space and exactly the arguments. -/
theorem command_both (f : LnkFile) (flags : Nat) (hf : uAt 4 f.header.raw 20 = some flags) (hp : flags.testBit 3 = true)
    (ha : flags.testBit 5 = true) (p a : Str) (hp' : f.stringData.get? "relative_path" = some p)
    (ha' : f.stringData.get? "command_line_arguments" = some a) :
    ∃ c, f.lnkCommand = pure c ∧ ∀ twice, takeArg twice false 0 c = (p, ' ' :: a) ∧
      ∀ l, Arguments twice a l → Arguments twice c (p :: l) := by
  refine ⟨CmdLine.list2cmdline p ++ ' ' :: a, ?_, fun twice => ?_⟩
  · unfold LnkFile.lnkCommand
    rw [hasFlag_bit hf (i := 3) rfl, hp, hp', hasFlag_bit hf (i := 5) rfl, ha, ha']
    simp [List.intercalate]
  · have he : CmdLine.Ends (' ' :: a) := .inr ⟨_, _, rfl, rfl⟩
    have h1 := CmdLine.takeArg_list2cmdline twice p (' ' :: a) he
    refine ⟨h1, fun l hl => ?_⟩
    obtain ⟨c, cs, h2, h3⟩ := CmdLine.list2cmdline_head p (' ' :: a) he
    rw [h2] at h1 ⊢
    exact .arg _ _ _ _ _ h3 h1 (.blank _ _ _ rfl hl)

/-- C36: a link with a relative path only. -/
theorem command_path (f : LnkFile) (flags : Nat) (hf : uAt 4 f.header.raw 20 = some flags) (hp : flags.testBit 3 = true)
    (ha : flags.testBit 5 = false) (p : Str) (hp' : f.stringData.get? "relative_path" = some p) :
    ∃ c, f.lnkCommand = pure c ∧ ∀ twice, takeArg twice false 0 c = (p, []) ∧ Arguments twice c [p] := by
  refine ⟨CmdLine.list2cmdline p, ?_, fun twice => ?_⟩
  · unfold LnkFile.lnkCommand
    rw [hasFlag_bit hf (i := 3) rfl, hp, hp', hasFlag_bit hf (i := 5) rfl, ha]
    simp [List.intercalate]
  · have he : CmdLine.Ends [] := .inl rfl
    have h1 := CmdLine.takeArg_list2cmdline twice p [] he
    obtain ⟨c, cs, h2, h3⟩ := CmdLine.list2cmdline_head p [] he
    rw [List.append_nil] at h1 h2
    refine ⟨h1, ?_⟩
    rw [h2] at h1 ⊢
    exact .arg _ _ _ _ _ h3 h1 .nil

/-- C36: without a relative path the command line is just the arguments, without either it is empty. -/
theorem command_arguments (f : LnkFile) (flags : Nat) (hf : uAt 4 f.header.raw 20 = some flags)
    (hp : flags.testBit 3 = false) :
    (flags.testBit 5 = false → f.lnkCommand = pure []) ∧
      ∀ a, flags.testBit 5 = true → f.stringData.get? "command_line_arguments" = some a → f.lnkCommand = pure a := by
  refine ⟨fun h => ?_, fun a h h' => ?_⟩
  · unfold LnkFile.lnkCommand
    rw [hasFlag_bit hf (i := 3) rfl, hp, hasFlag_bit hf (i := 5) rfl, h]
    rfl
  · unfold LnkFile.lnkCommand
    rw [hasFlag_bit hf (i := 3) rfl, hp, hasFlag_bit hf (i := 5) rfl, h, h']
    show pure (List.intercalate [' '] [a]) = _
    simp [List.intercalate]

/-- C36: it fails, with `TypeError`, exactly when one of the two strings is announced but missing. -/
theorem command_missing (f : LnkFile) (flags : Nat) (hf : uAt 4 f.header.raw 20 = some flags) :
    (f.lnkCommand = Py.raise .typeError ↔
      (flags.testBit 3 = true ∧ f.stringData.get? "relative_path" = none) ∨
        (flags.testBit 5 = true ∧ f.stringData.get? "command_line_arguments" = none)) ∧
      (f.lnkCommand = Py.raise .typeError ∨ ∃ c, f.lnkCommand = pure c) := by
  unfold LnkFile.lnkCommand
  rw [hasFlag_bit hf (i := 3) rfl, hasFlag_bit hf (i := 5) rfl]
  simp only [pure_bind]
  rcases hp : flags.testBit 3 <;> rcases ha : flags.testBit 5 <;>
    rcases hp' : f.stringData.get? "relative_path" with _ | p <;>
    rcases ha' : f.stringData.get? "command_line_arguments" with _ | a <;>
    simp [Py.raise, pure, Py.ret, bind, Py.andThen]

/-- C36: the quoted path also survives the simpler rules for program names, if it contains no double quote and does not
contain white space and end in a backslash. -/
theorem command_program (p a : Str) (hq : '"' ∉ p)
    (hb : (∃ c ∈ p, isBlank c = true) → p.getLast? ≠ some '\\') :
    takeProgram false (CmdLine.list2cmdline p) = (p, []) ∧
      takeProgram false (CmdLine.list2cmdline p ++ ' ' :: a) = (p, ' ' :: a) := by
  refine ⟨?_, CmdLine.takeProgram_list2cmdline p _ (.inr ⟨_, _, rfl, rfl⟩) hq hb⟩
  have := CmdLine.takeProgram_list2cmdline p [] (.inl rfl) hq hb
  rwa [List.append_nil] at this

/-- C36 for whole links: the path and the arguments in the file are what the command line is split into. -/
theorem link_command (env : Env) (cp : Option String) (allow : Bool) (s : ShellLink)
    (hv : s.Valid (TextProc.mk' env cp)) (trailer : Bytes) (src : Source) (hs : src.bytes = s.encode ++ trailer) :
    ∃ f c, LnkFile.init env cp allow src = pure f ∧ f.lnkCommand = pure c ∧
      ∀ twice, match s.strings.relativePath, s.strings.arguments with
        | some p, some a => takeArg twice false 0 c = (p.2, ' ' :: a.2)
        | some p, none => takeArg twice false 0 c = (p.2, [])
        | none, some a => c = a.2
        | none, none => c = [] := by
  obtain ⟨f, ⟨h1, -, -⟩, hb⟩ := parses_link env cp allow s hv trailer src hs
  have hflags : uAt 4 f.header.raw 20 = some s.flags := by
    have h1 := LnkHeader.rLinkFlags_enc hb.header
    have h2 : f.header.rLinkFlags = _ := unpackU_slice f.header.raw 4 20 (by omega)
    rw [h2] at h1
    rcases hu : uAt 4 f.header.raw 20 with _ | x
    · rw [hu] at h1; simpa using congrArg Py.res h1
    · rw [hu] at h1; simpa [ShellLink.flags] using congrArg Py.res h1
  have b3 : s.flags.testBit 3 = s.strings.relativePath.isSome :=
    hv.announced ⟨3, "relative_path", 260, s.strings.relativePath⟩ (by simp [Strings.fields])
  have b5 : s.flags.testBit 5 = s.strings.arguments.isSome :=
    hv.announced ⟨5, "command_line_arguments", 65535, s.strings.arguments⟩ (by simp [Strings.fields])
  have g3 : f.stringData.get? "relative_path" = s.strings.relativePath.map (·.2) := by
    unfold StringData.get?
    rw [hb.strings]
    rcases s.strings with ⟨_ | _, _ | _, _ | _, _ | _, _ | _⟩ <;> rfl
  have g5 : f.stringData.get? "command_line_arguments" = s.strings.arguments.map (·.2) := by
    unfold StringData.get?
    rw [hb.strings]
    rcases s.strings with ⟨_ | _, _ | _, _ | _, _ | _, _ | _⟩ <;> rfl
  rcases hp : s.strings.relativePath with _ | p <;> rcases ha : s.strings.arguments with _ | a <;>
    simp only [hp, ha, Option.isSome_none, Option.isSome_some, Option.map_none, Option.map_some] at b3 b5 g3 g5
  · exact ⟨f, [], h1, (command_arguments f _ hflags b3).1 b5, fun _ => rfl⟩
  · exact ⟨f, _, h1, (command_arguments f _ hflags b3).2 _ b5 g5, fun _ => rfl⟩
  · obtain ⟨c, h2, h3⟩ := command_path f _ hflags b3 b5 _ g3
    exact ⟨f, c, h1, h2, fun t => (h3 t).1⟩
  · obtain ⟨c, h2, h3⟩ := command_both f _ hflags b3 b5 _ _ g3 g5
    exact ⟨f, c, h1, h2, fun t => (h3 t).1⟩

/-- A path with white space, a double quote and a backslash at its end. -/
def exampleCommand : LnkFile :=
  ⟨[], ⟨List.replicate 20 0 ++ [0x28, 0, 0, 0]⟩, 78, none, none,
    ⟨[("relative_path", "..\\a \"b\\".toList), ("command_line_arguments", "/x \"1 2\" 3".toList)], 0⟩, ⟨[]⟩, 0⟩

example : exampleCommand.lnkCommand = pure "\"..\\a \\\"b\\\\\" /x \"1 2\" 3".toList ∧
    uAt 4 exampleCommand.header.raw 20 = some 0x28 ∧
    exampleCommand.stringData.get? "relative_path" = some "..\\a \"b\\".toList :=
  ⟨rfl, by decide +kernel, by decide +kernel⟩

example : Arguments true "\"..\\a \\\"b\\\\\" /x \"1 2\" 3".toList
    ["..\\a \"b\\".toList, "/x".toList, "1 2".toList, "3".toList] := by
  have e : "\"..\\a \\\"b\\\\\" /x \"1 2\" 3".toList = '"' :: "..\\a \\\"b\\\\\" /x \"1 2\" 3".toList := by decide +kernel
  rw [e]
  refine .arg _ _ _ " /x \"1 2\" 3".toList _ (by decide) (by decide +kernel) ?_
  refine .blank ' ' "/x \"1 2\" 3".toList _ (by decide) ?_
  refine .arg '/' "x \"1 2\" 3".toList _ " \"1 2\" 3".toList _ (by decide) (by decide +kernel) ?_
  refine .blank ' ' "\"1 2\" 3".toList _ (by decide) ?_
  refine .arg '"' "1 2\" 3".toList _ " 3".toList _ (by decide) (by decide +kernel) ?_
  refine .blank ' ' "3".toList _ (by decide) ?_
  exact .arg '3' [] _ [] _ (by decide) (by decide +kernel) .nil

/-- What `command_program` excludes does go wrong. -/
example : (takeProgram false (CmdLine.list2cmdline "a b\\".toList)).1 = "a b\\\\".toList := by decide +kernel

theorem exampleCommand_flags : uAt 4 exampleCommand.header.raw 20 = some 0x28 := by decide +kernel

/-- What the theorems say about it. -/
example (twice : Bool) : ∃ c, exampleCommand.lnkCommand = pure c ∧
    takeArg twice false 0 c = ("..\\a \"b\\".toList, " /x \"1 2\" 3".toList) := by
  obtain ⟨c, h, h'⟩ := command_both exampleCommand 0x28 exampleCommand_flags (by decide) (by decide) "..\\a \"b\\".toList
    "/x \"1 2\" 3".toList (by decide +kernel) (by decide +kernel)
  exact ⟨c, h, (h' twice).1⟩

/-- The same link with only the path, only the arguments, neither, and with the path announced but missing. -/
example (twice : Bool) (f : LnkFile) (hd : f.stringData = exampleCommand.stringData) :
    (uAt 4 f.header.raw 20 = some 8 → ∃ c, f.lnkCommand = pure c ∧ takeArg twice false 0 c = ("..\\a \"b\\".toList, [])) ∧
    (uAt 4 f.header.raw 20 = some 0x20 → f.lnkCommand = pure "/x \"1 2\" 3".toList) ∧
    (uAt 4 f.header.raw 20 = some 0 → f.lnkCommand = pure []) ∧
    (uAt 4 f.header.raw 20 = some 8 → ¬ f.lnkCommand = Py.raise .typeError) := by
  refine ⟨fun h => ?_, fun h => ?_, fun h => ?_, fun h hc => ?_⟩
  · obtain ⟨c, h1, h2⟩ := command_path f 8 h (by decide) (by decide) "..\\a \"b\\".toList (by rw [hd]; decide +kernel)
    exact ⟨c, h1, (h2 twice).1⟩
  · exact (command_arguments f 0x20 h (by decide)).2 _ (by decide) (by rw [hd]; decide +kernel)
  · exact (command_arguments f 0 h (by decide)).1 (by decide)
  · rcases (command_missing f 8 h).1.1 hc with ⟨-, h⟩ | ⟨h, -⟩
    · rw [hd] at h
      exact absurd h (by decide +kernel)
    · exact absurd h (by decide)

example (f : LnkFile) (h : uAt 4 f.header.raw 20 = some 8) (hd : f.stringData = ⟨[], 0⟩) : f.lnkCommand = Py.raise .typeError :=
  (command_missing f 8 h).1.2 (.inl ⟨by decide, by rw [hd]; rfl⟩)

example : takeProgram false (CmdLine.list2cmdline "C:\\my files\\a.exe".toList ++ " /x".toList) =
    ("C:\\my files\\a.exe".toList, " /x".toList) :=
  (command_program "C:\\my files\\a.exe".toList "/x".toList (by decide +kernel) (fun _ => by decide +kernel)).2

/-- The example link has arguments and no path. -/
example (env : Env) : ∃ f, LnkFile.init env none true (.indata exampleLink.encode) = pure f ∧ f.lnkCommand = pure "-x 😀".toList := by
  obtain ⟨f, c, h1, h2, h3⟩ := link_command env none true exampleLink (exampleLink_valid env) [] (.indata exampleLink.encode)
    (by rw [List.append_nil]; rfl)
  obtain rfl : c = "-x 😀".toList := h3 true
  exact ⟨f, h1, h2⟩

end Verif.Props
