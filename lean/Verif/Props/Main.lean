import Verif.Model.Main
import Verif.Lemmas.TextWrap
import Verif.Props.Command
import Verif.Props.Sections
import Verif.Props.Readable
import Verif.Props.Json
import Verif.Spec.Lines

/-
C53: the command line tool.  C56: the readable text.
-/

namespace Verif.Props

open Spec

theorem Out.after_ok {α : Type} {x : Py α} {w : List Warn} {a : α} (h : x = ⟨w, .ok a⟩) (k : α → Out) :
    Out.after x k = ⟨(k a).text, ⟨w ++ (k a).py.warns, (k a).py.res⟩⟩ := by
  subst h; rfl

theorem Out.after_error {α : Type} {x : Py α} {w : List Warn} {e : PyErr} (h : x = ⟨w, .error e⟩) (k : α → Out) :
    Out.after x k = ⟨[], ⟨w, .error e⟩⟩ := by
  subst h; rfl

theorem Out.after_silent {α : Type} (x : Py α) (k : α → Out)
    (hk : ∀ a, x.res = .ok a → ∀ e, (k a).py.res = .error e → (k a).text = []) (e : PyErr)
    (he : (Out.after x k).py.res = .error e) : (Out.after x k).text = [] := by
  rcases x with ⟨w, e' | a⟩
  · rfl
  · exact hk a rfl e he

theorem Out.after_res {α : Type} (x : Py α) (k : α → Out) (e : PyErr) (he : (Out.after x k).py.res = .error e) :
    x.res = .error e ∨ ∃ a, x.res = .ok a ∧ (k a).py.res = .error e := by
  rcases x with ⟨w, e' | a⟩
  · left; simpa [Out.after] using he
  · exact .inr ⟨a, rfl, by simpa [Out.after] using he⟩

theorem printLnkFile_ok (dump : Dict → Str) (f : LnkFile) (all : Bool) (w : List Warn) (d : Dict)
    (h : f.niceJson all = ⟨w, .ok d⟩) :
    f.printLnkFile dump all = ⟨"Windows Shortcut Information:\n".toList ++
      (TextWrap.indent (TextWrap.replace "EMPTY_LINE_PLACEHOLDER".toList ['\n'] (dump d)) "   ".toList ++ ['\n']),
      ⟨w, .ok ()⟩⟩ := by
  unfold LnkFile.printLnkFile
  rw [Out.after_ok h]
  simp only [Out.andThen, Out.print, pure, Py.ret, List.append_nil]
  rfl

theorem printLnkFile_error (dump : Dict → Str) (f : LnkFile) (all : Bool) (w : List Warn) (e : PyErr)
    (h : f.niceJson all = ⟨w, .error e⟩) : f.printLnkFile dump all = ⟨[], ⟨w, .error e⟩⟩ := by
  unfold LnkFile.printLnkFile
  rw [Out.after_error h]

theorem main_some (env : Env) (dump : Dict → Str) (args : Args) (b : Bytes) (f : LnkFile)
    (hf : LnkFile.init env (some args.cp) true (.fhandle b) = pure f) :
    main env dump args (some b) = if args.target then Out.after (f.printShortcutTarget args.json) Out.print
      else if args.json then Out.after (f.printJson args.print_all) Out.print
      else f.printLnkFile dump args.print_all := by
  have : main env dump args (some b) = Out.after (LnkFile.init env (some args.cp) true (.fhandle b)) fun lnk =>
      if args.target then Out.after (lnk.printShortcutTarget args.json) Out.print
      else if args.json then Out.after (lnk.printJson args.print_all) Out.print
      else lnk.printLnkFile dump args.print_all := rfl
  rw [this, Out.after_ok (w := []) (a := f) hf]
  rfl

/-- C53: when the tool fails, it has written nothing. -/
theorem tool_silent_on_error (env : Env) (dump : Dict → Str) (args : Args) (content : Option Bytes) (e : PyErr)
    (he : (main env dump args content).py.res = .error e) : (main env dump args content).text = [] := by
  refine Out.after_silent _ _ (fun b _ e he => Out.after_silent _ _ (fun f _ e he => ?_) e he) e he
  split at he <;> rename_i h1
  · rw [if_pos h1]
    exact Out.after_silent _ _ (fun a _ e he => by cases he) e he
  · rw [if_neg h1]
    split at he <;> rename_i h2
    · rw [if_pos h2]
      exact Out.after_silent _ _ (fun a _ e he => by cases he) e he
    · rw [if_neg h2]
      rcases hn : f.niceJson args.print_all with ⟨w, e' | d⟩
      · rw [printLnkFile_error dump f _ w e' hn]
      · rw [printLnkFile_ok dump f _ w d hn] at he
        cases he

/-- C53: the exceptions the tool can end with, by what was asked for: a file that cannot be opened; an empty file; a
file that is not a link, or is damaged (`struct.error`); with `-t`, a missing string (`TypeError`); without, those of
`get_json` (C40). -/
theorem tool_exceptions (env : Env) (dump : Dict → Str) (args : Args)
    (hcp : UsableCodePage (TextProc.mk' env (some args.cp))) (content : Option Bytes) (e : PyErr)
    (he : (main env dump args content).py.res = .error e) :
    (content = none ∧ e = .osError) ∨
    ∃ b, content = some b ∧
      ((b = [] ∧ e = .lnkParserError) ∨ (b ≠ [] ∧ ¬ Acceptable b ∧ e = .structError) ∨
        (Acceptable b ∧ args.target = true ∧ e = .typeError) ∨
        (Acceptable b ∧ args.target = false ∧ (e = .structError ∨ e = .indexError ∨ e = .runtimeError))) := by
  rcases content with _ | b
  · exact .inl ⟨rfl, by cases he; rfl⟩
  · refine .inr ⟨b, rfl, ?_⟩
    rcases Out.after_res _ _ e he with he | ⟨b', hb', he⟩
    · cases he
    cases hb'
    have hout := constructor_outcome env (some args.cp) hcp true (.fhandle b)
    rcases Out.after_res _ _ e he with he | ⟨f, hf, he⟩
    · have hna : ¬ Acceptable b := by
        intro h
        obtain ⟨f, hf⟩ := hout.1.2 h
        rw [hf] at he
        cases he
      have := hout.2 hna
      rw [this] at he
      rcases b with _ | ⟨x, b⟩
      · exact .inl ⟨rfl, by cases he; rfl⟩
      · exact .inr (.inl ⟨by simp, hna, by cases he; rfl⟩)
    · have hacc : Acceptable b := hout.1.1 ⟨f, hf⟩
      cases ht : args.target
      · refine .inr (.inr (.inr ⟨hacc, rfl, ?_⟩))
        have hex : ∀ all e, (f.getJson all).res = .error e → e = .structError ∨ e = .indexError ∨ e = .runtimeError :=
          fun all e => get_json_exceptions env (some args.cp) hcp true all (.fhandle b) f hf e
        simp only [ht, Bool.false_eq_true, if_false] at he
        rcases hj : f.getJson args.print_all with ⟨w, e' | j⟩
        · have he' := hex args.print_all e' (by rw [hj])
          split at he
          · rw [Out.after_error (print_json_raises f _ w e' hj)] at he
            cases he; exact he'
          · rw [printLnkFile_error dump f _ w e' (readable_raises f _ w e' hj)] at he
            cases he; exact he'
        · exfalso
          split at he
          · obtain ⟨text, jv, hp, -⟩ := print_json_tells env (some args.cp) hcp true args.print_all (.fhandle b) f hf j w hj
            rw [Out.after_ok hp] at he
            cases he
          · obtain ⟨h, lf, ff, top, sections, -, -, -, hn, -⟩ :=
              readable_output env (some args.cp) hcp true args.print_all (.fhandle b) f hf j w hj
            rw [printLnkFile_ok dump f _ w _ hn] at he
            cases he
      · refine .inr (.inr (.inl ⟨hacc, rfl, ?_⟩))
        obtain ⟨L, l, last, hl, -, P⟩ := constructed env (some args.cp) hcp true (.fhandle b) f hf
        have hflags : uAt 4 f.header.raw 20 = some L.flags := by
          rw [P.header]
          exact (layout_flags hl).1
        simp only [ht, if_true] at he
        rcases (command_missing f L.flags hflags).2 with hc | ⟨c, hc⟩
        · rcases Out.after_res _ _ e he with he | ⟨x, _, he⟩
          · unfold LnkFile.printShortcutTarget at he
            rw [hc] at he
            cases he; rfl
          · cases he
        · exfalso
          rcases Out.after_res _ _ e he with he | ⟨x, _, he⟩
          · unfold LnkFile.printShortcutTarget at he
            rw [hc] at he
            cases he
          · cases he

/-- C53: the code page the tool uses when none is given, or an empty one, is that of the library. -/
theorem tool_default_code_page (env : Env) (allow : Bool) (src : Source) :
    LnkFile.init env (some ({} : Args).cp) allow src = LnkFile.init env none allow src ∧
      LnkFile.init env (some "") allow src = LnkFile.init env none allow src := by
  have h1 : TextProc.mk' env (some ({} : Args).cp) = TextProc.mk' env none := rfl
  have h2 : TextProc.mk' env (some "") = TextProc.mk' env none := rfl
  constructor
  · rcases src with b | b <;> simp only [LnkFile.init, LnkFile.process, h1]
  · rcases src with b | b <;> simp only [LnkFile.init, LnkFile.process, h2]

/-- C53: with `-t` the tool writes one line for a well-formed link, without a warning: the command line, or a JSON object
with it; `-a` makes no difference. -/
theorem tool_target (env : Env) (dump : Dict → Str) (cp : String) (json all : Bool) (s : ShellLink)
    (hv : s.Valid (TextProc.mk' env (some cp))) (trailer : Bytes) :
    ∃ c text, main env dump ⟨true, json, cp, all⟩ (some (s.encode ++ trailer)) = ⟨text ++ ['\n'], ⟨[], .ok ()⟩⟩ ∧
      (if json then Spec.Json.decode text = some (.obj [("shortcut_target".toList, .str c)]) else text = c) ∧
      ∀ twice, match s.strings.relativePath, s.strings.arguments with
        | some p, some a => takeArg twice false 0 c = (p.2, ' ' :: a.2)
        | some p, none => takeArg twice false 0 c = (p.2, [])
        | none, some a => c = a.2
        | none, none => c = [] := by
  obtain ⟨f, c, hf, hc, hspec⟩ := link_command env (some cp) true s hv trailer (.fhandle (s.encode ++ trailer)) rfl
  have hmain : ∀ text, f.printShortcutTarget json = ⟨[], .ok text⟩ →
      main env dump ⟨true, json, cp, all⟩ (some (s.encode ++ trailer)) = ⟨text ++ ['\n'], ⟨[], .ok ()⟩⟩ := by
    intro text ht
    rw [main_some env dump ⟨true, json, cp, all⟩ (s.encode ++ trailer) f hf, if_pos rfl]
    rw [Out.after_ok ht]
    rfl
  cases json
  · exact ⟨c, c, hmain c (by unfold LnkFile.printShortcutTarget; rw [hc]; rfl), by simp, hspec⟩
  · obtain ⟨text, ht, -, hd⟩ := shortcut_target_json f c [] (by rw [hc]; rfl)
    exact ⟨c, text, hmain text ht, by simpa using hd, hspec⟩

/-- C53: with `-j` the tool writes, for a well-formed link, JSON that tells the contents of the link, all of them with
`-a`, else the reduced ones. -/
theorem tool_json (env : Env) (dump : Dict → Str) (cp : String) (hcp : UsableCodePage (TextProc.mk' env (some cp)))
    (all : Bool) (s : ShellLink) (hv : s.Valid (TextProc.mk' env (some cp))) :
    ∃ c a w wc wa ww text jv, TimeRead s.header.creationTime c wc ∧ TimeRead s.header.accessTime a wa ∧
      TimeRead s.header.writeTime w ww ∧
      main env dump ⟨false, true, cp, all⟩ (some s.encode) = ⟨text ++ ['\n'], ⟨linkWarns s wc wa ww, .ok ()⟩⟩ ∧
      (∀ c ∈ text, c.toNat < 128) ∧ Spec.Json.decode text = some jv ∧
      Tells jv (.dict ((if all then id else reduced) (linkReport s c a w s.encode.length (s.blockReports env.sha256hex)))) := by
  obtain ⟨f, hf, hsize, c, a, w, wc, wa, ww, tc, ta, tw, hj⟩ :=
    link_roundtrip env (some cp) true s hv (.fhandle s.encode) rfl
  have hjson : f.getJson all = ⟨linkWarns s wc wa ww,
      .ok ((if all then id else reduced) (linkReport s c a w s.encode.length (s.blockReports env.sha256hex)))⟩ := by
    cases all
    · rw [reduced_json, hj]
      simp [Functor.map, Py.andThen, Py.ret]
    · exact hj
  obtain ⟨text, jv, hp, hascii, hd, ht⟩ := print_json_tells env (some cp) hcp true all (.fhandle s.encode) f (by rw [hf]; rfl)
    _ _ hjson
  refine ⟨c, a, w, wc, wa, ww, text, jv, tc, ta, tw, ?_, hascii, hd, ht⟩
  rw [main_some env dump ⟨false, true, cp, all⟩ s.encode f hf, if_neg (by simp), if_pos rfl]
  rw [Out.after_ok hp]
  simp [Out.print, pure, Py.ret]

/-- A whole run. -/
example (env : Env) (dump : Dict → Str) :
    main env dump { target := true } (some exampleLink.encode) = ⟨"-x 😀\n".toList, ⟨[], .ok ()⟩⟩ := by
  have hv : exampleLink.Valid (TextProc.mk' env (some "cp1252")) := exampleLink_valid env
  obtain ⟨c, text, h, ht, hc⟩ := tool_target env dump "cp1252" false false exampleLink hv []
  have hc : c = "-x 😀".toList := hc true
  have ht : text = c := by simpa using ht
  rw [List.append_nil] at h
  rw [ht, hc] at h
  exact h

example (env : Env) (dump : Dict → Str) :
    main env dump {} (some []) = ⟨[], ⟨[], .error .lnkParserError⟩⟩ := rfl

/-! ### C56 -/

theorem placeholder_borderless : TextWrap.Borderless "EMPTY_LINE_PLACEHOLDER".toList := by
  intro q h0 hp hs
  have hq := (List.mem_inits _ _).2 hp
  have : ∀ q ∈ "EMPTY_LINE_PLACEHOLDER".toList.inits, q = [] ∨ q = "EMPTY_LINE_PLACEHOLDER".toList ∨
      ¬ q <:+ "EMPTY_LINE_PLACEHOLDER".toList := by decide +kernel
  rcases this q hq with h | h | h
  · exact absurd h h0
  · exact h
  · exact absurd hs h

/-- C56: `print_lnk_file` writes a title and then the YAML text in which every placeholder has become a line break,
indented; nothing else of the text is changed before indenting.  (`pieces` is the text cut at the placeholders.) -/
theorem readable_text (dump : Dict → Str) (f : LnkFile) (all : Bool) (w : List Warn) (d : Dict)
    (h : f.niceJson all = ⟨w, .ok d⟩) (pieces : List Str)
    (hd : dump d = "EMPTY_LINE_PLACEHOLDER".toList.intercalate pieces)
    (hp : ∀ x ∈ pieces, ¬ "EMPTY_LINE_PLACEHOLDER".toList <:+: x) :
    f.printLnkFile dump all = ⟨"Windows Shortcut Information:\n".toList ++
      TextWrap.indent (['\n'].intercalate pieces) "   ".toList ++ ['\n'], ⟨w, .ok ()⟩⟩ := by
  rw [printLnkFile_ok dump f all w d h, hd, TextWrap.replace_intercalate _ _ (by decide) placeholder_borderless _ hp,
    List.append_assoc]

theorem isSpace_iff (c : Char) : TextWrap.isSpace c = true ↔ IsBlank c := by
  simp only [TextWrap.isSpace, IsBlank, List.contains_eq_mem, List.mem_cons, List.not_mem_nil, or_false, decide_eq_true_eq]
  omega

theorem isBreak_iff (c : Char) : TextWrap.isBreak c = true ↔ EndsLine c := by
  simp only [TextWrap.isBreak, EndsLine, List.contains_eq_mem, List.mem_cons, List.not_mem_nil, or_false, decide_eq_true_eq]
  omega

theorem isBreak_iff_false (c : Char) : TextWrap.isBreak c = false ↔ ¬ EndsLine c := by
  rw [← isBreak_iff, Bool.not_eq_true]

theorem blank_of_ends {c : Char} (h : EndsLine c) : IsBlank c := by
  simp only [EndsLine, IsBlank] at h ⊢
  omega

theorem linesOf_lines {s : Str} {ls : List (Str × Str)} (h : LinesOf s ls) :
    TextWrap.Lines (ls.map fun l => l.1 ++ l.2) ∧ (ls.map fun l => l.1 ++ l.2).flatten = s ∧ ∀ l ∈ ls, ∀ c ∈ l.2, EndsLine c := by
  induction h with
  | nil => exact ⟨.nil, rfl, by simp⟩
  | @last l h hl =>
    simp only [List.map_cons, List.map_nil, List.append_nil]
    exact ⟨.last l h fun c hc => (isBreak_iff_false c).2 (hl c hc), by simp, by simp⟩
  | crlf hl h ih =>
    refine ⟨.crlf _ _ (fun c hc => (isBreak_iff_false c).2 (hl c hc)) ih.1, by simp [← ih.2.1], ?_⟩
    intro l hm c hc
    rcases List.mem_cons.1 hm with rfl | hm
    · have : c = '\r' ∨ c = '\n' := by simpa using hc
      rcases this with rfl | rfl <;> decide
    · exact ih.2.2 l hm c hc
  | @ended l c rest ls hl hc hr h ih =>
    refine ⟨?_, by simp [← ih.2.1], ?_⟩
    · by_cases h : c = '\r'
      · subst h
        exact .cr _ _ (fun c hc => (isBreak_iff_false c).2 (hl c hc)) (ih.2.1 ▸ hr rfl) ih.1
      · exact .brk _ _ _ (fun c hc => (isBreak_iff_false c).2 (hl c hc)) h ((isBreak_iff c).2 hc) ih.1
    · intro l hm d hd
      rcases List.mem_cons.1 hm with rfl | hm
      · rw [List.mem_singleton.1 hd]; exact hc
      · exact ih.2.2 l hm d hd

/-- C56: every text has lines. -/
theorem lines_exist (s : Str) : ∃ ls, LinesOf s ls := by
  have h := TextWrap.lines_splitLines s
  have hf := TextWrap.flatten_splitLines s
  generalize TextWrap.splitLines s = l at h hf
  subst hf
  induction h with
  | nil => exact ⟨_, .nil⟩
  | last b h hb => exact ⟨_, by simpa using LinesOf.last h fun c hc => (isBreak_iff_false c).1 (hb c hc)⟩
  | crlf b l hb _ ih =>
    obtain ⟨ls, h⟩ := ih
    exact ⟨_, by simpa using LinesOf.crlf (fun c hc => (isBreak_iff_false c).1 (hb c hc)) h⟩
  | cr b l hb hn _ ih =>
    obtain ⟨ls, h⟩ := ih
    exact ⟨_, by simpa using LinesOf.ended (fun c hc => (isBreak_iff_false c).1 (hb c hc)) (by decide : EndsLine '\r') (fun _ => hn) h⟩
  | brk b c l hb hr hc _ ih =>
    obtain ⟨ls, h⟩ := ih
    exact ⟨_, by simpa using LinesOf.ended (fun c hc => (isBreak_iff_false c).1 (hb c hc)) ((isBreak_iff c).1 hc) (fun h => absurd h hr) h⟩

/-- C56: indenting puts three blanks before every line that is not blank, whatever ends the lines. -/
theorem indent_lines (s : Str) (ls : List (Str × Str)) (h : LinesOf s ls) : TextWrap.indent s "   ".toList = indented ls := by
  obtain ⟨h1, h2, h3⟩ := linesOf_lines h
  rw [TextWrap.indent_eq, ← h2, TextWrap.splitLines_flatten h1, indented, List.flatMap_def, List.map_map]
  congr 1
  apply List.map_congr_left
  intro l hm
  have hs : (l.1 ++ l.2).all TextWrap.isSpace = true ↔ ∀ c ∈ l.1, IsBlank c := by
    rw [List.all_eq_true]
    constructor
    · exact fun h c hc => (isSpace_iff c).1 (h c (List.mem_append_left _ hc))
    · intro h c hc
      rw [isSpace_iff]
      rcases List.mem_append.1 hc with hc | hc
      · exact h c hc
      · exact blank_of_ends (h3 l hm c hc)
  simp only [Function.comp, TextWrap.indentLine]
  by_cases hb : ∀ c ∈ l.1, IsBlank c
  · rw [if_pos hb, if_pos (hs.2 hb), List.nil_append]
  · rw [if_neg hb, if_neg fun h => hb (hs.1 h), List.append_assoc]
    rfl

/-- C56: `print_lnk_file` in terms of the lines of the YAML text in which the placeholders are line feeds. -/
theorem readable_lines (dump : Dict → Str) (f : LnkFile) (all : Bool) (w : List Warn) (d : Dict)
    (h : f.niceJson all = ⟨w, .ok d⟩) (pieces : List Str)
    (hd : dump d = "EMPTY_LINE_PLACEHOLDER".toList.intercalate pieces)
    (hp : ∀ x ∈ pieces, ¬ "EMPTY_LINE_PLACEHOLDER".toList <:+: x) (ls : List (Str × Str))
    (hl : LinesOf (['\n'].intercalate pieces) ls) :
    f.printLnkFile dump all = ⟨"Windows Shortcut Information:\n".toList ++ indented ls ++ ['\n'], ⟨w, .ok ()⟩⟩ := by
  rw [readable_text dump f all w d h pieces hd hp, indent_lines _ ls hl]

/-- A line of blanks is left alone, one with a no-break space as well; a line may end with next line. -/
example : TextWrap.indent "a\r\n  \n\u00a0\u0085b".toList "   ".toList = "   a\r\n  \n\u00a0\u0085   b".toList := by
  have h : LinesOf "a\r\n  \n\u00a0\u0085b".toList
      [(['a'], ['\r', '\n']), ([' ', ' '], ['\n']), (['\u00a0'], ['\u0085']), (['b'], [])] :=
    .crlf (l := ['a']) (by decide) (.ended (l := [' ', ' ']) (by decide) (by decide) (by decide)
      (.ended (l := ['\u00a0']) (by decide) (by decide) (by decide) (.last (by decide) (by decide))))
  rw [indent_lines _ _ h]
  decide

/-- C56: indenting loses nothing: whatever the line breaks, the indented text determines the text. -/
theorem indent_injective (s t : Str) (h : TextWrap.indent s "   ".toList = TextWrap.indent t "   ".toList) : s = t :=
  TextWrap.indent_inj _ (by decide) s t h

theorem infix_split {α : Type} (p a b : List α) (x : α) (hx : x ∉ p) (h : p <:+: a ++ x :: b) : p <:+: a ∨ p <:+: b := by
  induction a with
  | nil =>
    rw [List.nil_append, List.infix_cons_iff] at h
    rcases h with h | h
    · rcases p with _ | ⟨c, p⟩
      · simp
      · rw [List.cons_prefix_cons] at h
        exact absurd (by simp [h.1]) hx
    · exact .inr h
  | cons c a ih =>
    rw [List.cons_append, List.infix_cons_iff] at h
    rcases h with h | h
    · left
      refine List.IsPrefix.isInfix ?_
      clear ih
      rw [← List.cons_append] at h
      rcases Nat.le_total p.length (c :: a).length with hl | hl
      · exact List.prefix_of_prefix_length_le h (List.prefix_append _ _) hl
      · obtain ⟨q, hq⟩ := List.prefix_of_prefix_length_le (List.prefix_append _ _) h hl
        rw [← hq, List.prefix_append_right_inj] at h
        rcases q with _ | ⟨d, q⟩
        · simp at hq; rw [← hq]
        · rw [List.cons_prefix_cons] at h
          exact absurd (by rw [← hq]; simp [h.1]) hx
    · exact (ih h).imp (fun h => h.trans (List.suffix_cons c a).isInfix) id

/-- C56, violation: the text "EMPTY_LINE_PLACEHOLDER" is never written, whatever the YAML text, so a name or path that
contains it is not shown as it is. -/
theorem placeholder_never_shown (dump : Dict → Str) (f : LnkFile) (all : Bool) :
    ¬ "EMPTY_LINE_PLACEHOLDER".toList <:+: (f.printLnkFile dump all).text := by
  rcases hn : f.niceJson all with ⟨w, e | d⟩
  · rw [printLnkFile_error dump f all w e hn]
    show ¬ "EMPTY_LINE_PLACEHOLDER".toList <:+: []
    decide
  · rw [printLnkFile_ok dump f all w d hn]
    intro h
    have e : "Windows Shortcut Information:\n".toList = "Windows Shortcut Information:".toList ++ ['\n'] := by decide
    rw [e, List.append_assoc, List.singleton_append] at h
    rcases infix_split _ _ _ '\n' (by decide) h with h | h
    · exact absurd h (by decide +kernel)
    · rcases infix_split _ _ _ '\n' (by decide) h with h | h
      · rw [TextWrap.indent_eq] at h
        have := TextWrap.infix_indent_lines 3 _ (by decide) (by decide) _ h
        rw [TextWrap.flatten_splitLines] at this
        exact TextWrap.not_infix_replace _ '\n' (by decide) (by decide) _ this
      · exact absurd h (by decide)

example : TextWrap.indent (TextWrap.replace "EMPTY_LINE_PLACEHOLDER".toList ['\n']
      "a: 1\nEMPTY_LINE_PLACEHOLDERb:\n   c: 2\n\n".toList) "   ".toList = "   a: 1\n\n   b:\n      c: 2\n\n".toList := by
  decide +kernel

end Verif.Props
