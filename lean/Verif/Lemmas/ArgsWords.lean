import Verif.Lemmas.ArgsLoop
import Verif.Spec.Args

/-
Lemmas: what the argument parser takes a single word for.
-/

namespace Verif.ArgParse

open Spec.CommandLine

theorem OPTIONS_eq : OPTIONS =
    [ (['-', 'h'], .help), (['-', '-', 'h', 'e', 'l', 'p'], .help), (['-', 't'], .target),
      (['-', '-', 't', 'a', 'r', 'g', 'e', 't'], .target), (['-', 'j'], .json), (['-', '-', 'j', 's', 'o', 'n'], .json),
      (['-', 'c'], .codepage), (['-', '-', 'c', 'o', 'd', 'e', 'p', 'a', 'g', 'e'], .codepage), (['-', 'a'], .all),
      (['-', '-', 'a', 'l', 'l'], .all) ] := by rfl

/-- The letter of an option. -/
def Act.letter : Act → Char
  | .help => 'h'
  | .target => 't'
  | .json => 'j'
  | .codepage => 'c'
  | .all => 'a'

/-- The name of an option. -/
def Act.name : Act → Str
  | .help => "help".toList
  | .target => "target".toList
  | .json => "json".toList
  | .codepage => "codepage".toList
  | .all => "all".toList

/-- The same, spelled out. -/
def Act.chars : Act → Str
  | .help => ['h', 'e', 'l', 'p']
  | .target => ['t', 'a', 'r', 'g', 'e', 't']
  | .json => ['j', 's', 'o', 'n']
  | .codepage => ['c', 'o', 'd', 'e', 'p', 'a', 'g', 'e']
  | .all => ['a', 'l', 'l']

theorem name_chars (a : Act) : a.name = a.chars := by cases a <;> rfl

/-- What an option sets. -/
def settingOf : Act × Option Str → Setting
  | (.help, _) => .help
  | (.target, _) => .target
  | (.json, _) => .json
  | (.codepage, v) => .codepage (v.getD [])
  | (.all, _) => .all

theorem flag_of_act (a : Act) (h : a.takesArg = false) (v : Option Str) : Flag a.letter a.name (settingOf (a, v)) := by
  cases a
  · exact .help
  · exact .target
  · exact .json
  · cases h
  · exact .all

theorem act_of_flag {c : Char} {name : Str} {s : Setting} (h : Flag c name s) :
    ∃ a : Act, a.takesArg = false ∧ a.letter = c ∧ a.name = name ∧ ∀ v, settingOf (a, v) = s := by
  cases h
  · exact ⟨.target, rfl, rfl, rfl, fun _ => rfl⟩
  · exact ⟨.json, rfl, rfl, rfl, fun _ => rfl⟩
  · exact ⟨.all, rfl, rfl, rfl, fun _ => rfl⟩
  · exact ⟨.help, rfl, rfl, rfl, fun _ => rfl⟩

theorem mem_letters {c : Char} : c ∈ letters ↔ ∃ a : Act, a.letter = c := by
  constructor
  · intro h
    simp only [letters, List.mem_cons, List.not_mem_nil, or_false] at h
    rcases h with rfl | rfl | rfl | rfl | rfl
    · exact ⟨.target, rfl⟩
    · exact ⟨.json, rfl⟩
    · exact ⟨.all, rfl⟩
    · exact ⟨.help, rfl⟩
    · exact ⟨.codepage, rfl⟩
  · rintro ⟨a, rfl⟩
    cases a <;> decide

theorem mem_names {n : Str} : n ∈ names ↔ ∃ a : Act, a.name = n := by
  constructor
  · intro h
    simp only [names, List.mem_cons, List.not_mem_nil, or_false] at h
    rcases h with rfl | rfl | rfl | rfl | rfl
    · exact ⟨.target, rfl⟩
    · exact ⟨.json, rfl⟩
    · exact ⟨.all, rfl⟩
    · exact ⟨.help, rfl⟩
    · exact ⟨.codepage, rfl⟩
  · rintro ⟨a, rfl⟩
    cases a <;> decide

theorem letter_inj {a b : Act} (h : a.letter = b.letter) : a = b := by
  revert h
  cases a <;> cases b <;> decide

/-! ### Looking up an option -/

theorem lookup_letter (a : Act) : OPTIONS.lookup ['-', a.letter] = some a := by cases a <;> decide

theorem lookup_name (a : Act) : OPTIONS.lookup ('-' :: '-' :: a.name) = some a := by cases a <;> decide

theorem lookup_some {w : Str} {a : Act} (h : OPTIONS.lookup w = some a) : w = ['-', a.letter] ∨ w = '-' :: '-' :: a.name := by
  rw [OPTIONS_eq] at h
  simp only [List.lookup] at h
  repeat' split at h
  all_goals first | cases h
  all_goals
    rename_i hw
    have hw := eq_of_beq hw
    subst hw
    first | exact Or.inl rfl | exact Or.inr rfl

theorem lookup_char {c : Char} (h : c ∉ letters) : OPTIONS.lookup ['-', c] = none := by
  cases hl : OPTIONS.lookup ['-', c] with
  | none => rfl
  | some a =>
    exfalso
    rcases lookup_some hl with h' | h'
    · cases h'
      exact h (mem_letters.mpr ⟨a, rfl⟩)
    · cases a <;> cases h'

theorem lookup_long {c d : Char} {r : Str} (h : c ≠ '-') : OPTIONS.lookup ('-' :: c :: d :: r) = none := by
  cases hl : OPTIONS.lookup ('-' :: c :: d :: r) with
  | none => rfl
  | some a =>
    exfalso
    rcases lookup_some hl with h' | h'
    · cases h'
    · simp only [List.cons.injEq] at h'
      exact h h'.2.1

theorem partition_eq (w : Str) : partition w = (stem w, if '=' ∈ w then some (w.drop ((stem w).length + 1)) else none) := by
  induction w with
  | nil => rfl
  | cons c w ih =>
    rw [partition]
    split
    · rename_i h
      subst h
      simp [stem]
    · rename_i h
      have h1 : stem (c :: w) = c :: stem w := by simp [stem, h]
      rw [ih, h1]
      simp [Ne.symm h]

theorem partition_some {p v : Str} (h : '=' ∉ p) : partition (p ++ '=' :: v) = (p, some v) := by
  induction p with
  | nil => simp [partition]
  | cons c p ih =>
    simp only [List.mem_cons, not_or] at h
    rw [List.cons_append, partition, if_neg (Ne.symm h.1), ih h.2]

theorem stem_cases (p : Str) : ('=' ∉ p ∧ stem p = p) ∨ ∃ v, p = stem p ++ '=' :: v ∧ '=' ∉ stem p := by
  induction p with
  | nil => left; simp [stem]
  | cons c p ih =>
    by_cases hc : c = '='
    · subst hc; right; exact ⟨p, by simp [stem], by simp [stem]⟩
    · have h1 : stem (c :: p) = c :: stem p := by simp [stem, hc]
      rw [h1]
      rcases ih with ⟨h, h2⟩ | ⟨v, h, h2⟩
      · left; exact ⟨by simp [h, Ne.symm hc], by rw [h2]⟩
      · right; exact ⟨v, by rw [List.cons_append, ← h], by simp [h2, Ne.symm hc]⟩

theorem stem_self {p : Str} (h : '=' ∉ p) : stem p = p := by
  rcases stem_cases p with h' | ⟨v, h', _⟩
  · exact h'.2
  · rw [h'] at h; simp at h

theorem partition_none {w : Str} (h : '=' ∉ w) : partition w = (w, none) := by
  rw [partition_eq, if_neg h, stem_self h]

theorem stem_append {p v : Str} (h : '=' ∉ p) : stem (p ++ '=' :: v) = p := by
  have := congrArg Prod.fst (partition_some (v := v) h)
  rw [partition_eq] at this
  exact this

/-! ### Numbers -/

/-- The text of a number without the sign. -/
def Body (digit : Char → Bool) (s : Str) : Prop :=
  (s ≠ [] ∧ ∀ c ∈ s, digit c = true) ∨ ∃ ds es, es ≠ [] ∧ s = ds ++ '.' :: es ∧ (∀ c ∈ ds, digit c = true) ∧ ∀ c ∈ es, digit c = true

theorem body_iff {digit : Char → Bool} (hd : digit '.' = false) (s : Str) : isBody digit s = true ↔ Body digit s := by
  unfold isBody
  rw [Bool.or_eq_true]
  refine or_congr (by simp) ?_
  constructor
  · intro h
    split at h
    · rename_i t ht
      have hall : t.all digit = true := by simp at h; simpa using h.2
      refine ⟨s.takeWhile digit, t, ?_, ?_, ?_, ?_⟩
      · rintro rfl; simp at h
      · rw [← ht, List.takeWhile_append_dropWhile]
      · intro c hc
        have := List.all_takeWhile (p := digit) (l := s)
        exact List.all_eq_true.mp this c hc
      · exact List.all_eq_true.mp hall
    · cases h
  · rintro ⟨ds, es, h1, rfl, h2, h3⟩
    have : (ds ++ '.' :: es).dropWhile digit = '.' :: es := by
      induction ds with
      | nil => simp [hd]
      | cons c ds ih =>
        rw [List.cons_append, List.dropWhile_cons, if_pos (h2 c (by simp))]
        exact ih fun c hc => h2 c (by simp [hc])
    rw [this]
    simpa [h1, List.all_eq_true] using h3

theorem body_last {digit : Char → Bool} (hn : digit '\n' = false) {s : Str} (h : Body digit s) : s.getLast? ≠ some '\n' := by
  intro hl
  rcases h with ⟨_, h⟩ | ⟨ds, es, h1, rfl, _, h⟩
  · rw [h _ (List.mem_of_getLast? hl)] at hn; cases hn
  · rw [List.getLast?_append, List.getLast?_cons] at hl
    cases he : es.getLast? with
    | none => exact h1 (by simpa using he)
    | some c =>
      rw [he] at hl
      simp at hl
      subst hl
      rw [h _ (List.mem_of_getLast? he)] at hn; cases hn

theorem isNumber_iff {digit : Char → Bool} (hn : digit '\n' = false) (hd : digit '.' = false) (r : Str) :
    isNumber digit ('-' :: r) = true ↔ Number digit r := by
  unfold isNumber
  simp only
  rw [body_iff hd]
  constructor
  · intro h
    have hr : ∃ brk ∈ [[], ['\n']], r = (if r.getLast? = some '\n' then r.dropLast else r) ++ brk := by
      split
      · rename_i hl
        refine ⟨['\n'], by simp, ?_⟩
        rw [List.getLast?_eq_some_iff] at hl
        obtain ⟨ys, rfl⟩ := hl
        simp
      · exact ⟨[], by simp, by simp⟩
    obtain ⟨brk, hb, hr⟩ := hr
    rcases h with ⟨h1, h2⟩ | ⟨ds, es, h1, h2, h3, h4⟩
    · exact ⟨_, [], by simpa using h2, brk, hb, Or.inl ⟨h1, hr⟩⟩
    · refine ⟨ds, es, ?_, brk, hb, Or.inr ⟨h1, by rw [← h2]; exact hr⟩⟩
      intro c hc
      rcases List.mem_append.mp hc with hc | hc
      · exact h3 c hc
      · exact h4 c hc
  · rintro ⟨ds, es, h, brk, hb, h'⟩
    have : ∃ s, Body digit s ∧ r = s ++ brk := by
      rcases h' with ⟨h1, h2⟩ | ⟨h1, h2⟩
      · exact ⟨ds, Or.inl ⟨h1, fun c hc => h c (by simp [hc])⟩, h2⟩
      · exact ⟨_, Or.inr ⟨ds, es, h1, rfl, fun c hc => h c (by simp [hc]), fun c hc => h c (by simp [hc])⟩, h2⟩
    obtain ⟨s, hs, rfl⟩ := this
    simp only [List.mem_cons, List.not_mem_nil, or_false] at hb
    rcases hb with rfl | rfl
    · simpa [body_last hn hs] using hs
    · simpa using hs

/-! ### Words -/

/-- What is behind the letter of an option, as far as it is decided by the word itself; `none` is an error. -/
def short (act : Act) : Str → Option Taken
  | [] => some ⟨[], false, some act⟩
  | '=' :: v => explicit act false true v
  | r => explicit act false false r

theorem short_word (digit : Char → Bool) (a : Act) (r : Str) : ∃ t, parseOptional digit ('-' :: a.letter :: r) = some (some t) ∧
    t.act = some a ∧ takenOf a t = short a r := by
  have hne : a.letter ≠ '-' := by cases a <;> decide
  have hne' : a.letter ≠ '=' := by cases a <;> decide
  unfold parseOptional
  rw [if_neg (by simp)]
  match r with
  | [] =>
    rw [lookup_letter]
    exact ⟨_, rfl, rfl, rfl⟩
  | x :: r =>
    rw [lookup_long hne]
    simp only
    rw [if_neg (by simp)]
    by_cases hx : x = '='
    · subst hx
      have := partition_some (p := ['-', a.letter]) (v := r) (by simp [Ne.symm hne'])
      rw [List.cons_append, List.cons_append, List.nil_append] at this
      rw [equalsTuple, this]
      simp only [lookup_letter, Option.map_some]
      refine ⟨_, rfl, rfl, ?_⟩
      simp [takenOf, short, hne]
    · have h1 : equalsTuple ('-' :: a.letter :: x :: r) = none := by
        unfold equalsTuple
        have : stem ('-' :: a.letter :: x :: r) = '-' :: a.letter :: x :: stem r := by simp [stem, hne', hx]
        rw [partition_eq, this]
        split_ifs
        · simp [lookup_long hne]
        · rfl
      rw [h1]
      have h2 : getOptionTuples ('-' :: a.letter :: x :: r) = [⟨some a, ['-', a.letter], false, some (x :: r)⟩] := by
        unfold getOptionTuples
        rw [if_neg (by simpa using hne), OPTIONS_eq]
        cases a <;> simp [Act.letter]
      rw [h2]
      refine ⟨_, rfl, rfl, ?_⟩
      simp [takenOf, hne]
      rw [short]
      · intro h; cases h
      · intro v h; cases h; exact hx rfl

/-- A word that starts with a dash and is none of the options. -/
def stray (digit : Char → Bool) (w : Str) : Option (Option Tuple) :=
  if isNumber digit w then some none else if w.contains ' ' then some none else some (some ⟨none, w, false, none⟩)

theorem parseOptional_stray {digit : Char → Bool} {w : Str} (h1 : w.head? = some '-') (h2 : OPTIONS.lookup w = none)
    (h3 : w.length ≠ 1) (h4 : equalsTuple w = none) (h5 : getOptionTuples w = []) : parseOptional digit w = stray digit w := by
  unfold parseOptional stray
  rw [if_neg (by simp [h1]), h2]
  simp only
  rw [if_neg h3, h4, h5]

theorem other_word (digit : Char → Bool) (c : Char) (r : Str) (hc : c ≠ '-') (h : c ∉ letters) :
    parseOptional digit ('-' :: c :: r) = stray digit ('-' :: c :: r) := by
  have hl : ∀ r, OPTIONS.lookup ('-' :: c :: r) = none := by
    intro r
    cases r with
    | nil => exact lookup_char h
    | cons d r => exact lookup_long hc
  refine parseOptional_stray rfl (hl r) (by simp) ?_ ?_
  · unfold equalsTuple
    rw [partition_eq]
    by_cases he : c = '='
    · subst he
      have : stem ('-' :: '=' :: r) = ['-'] := by simp [stem]
      rw [this, if_pos (by simp)]
      show (OPTIONS.lookup ['-']).map _ = none
      rw [show OPTIONS.lookup ['-'] = none by decide]
      rfl
    · have : stem ('-' :: c :: r) = '-' :: c :: stem r := by simp [stem, he]
      rw [this]
      split_ifs
      · simp [hl]
      · rfl
  · unfold getOptionTuples
    rw [if_neg (by simpa using hc), OPTIONS_eq]
    simp only [letters, List.mem_cons, List.not_mem_nil, or_false, not_or] at h
    obtain ⟨h1, h2, h3, h4, h5⟩ := h
    simp [Ne.symm h1, Ne.symm h2, Ne.symm h3, Ne.symm h4, Ne.symm h5, h1, h2, h3, h4, h5, hc, Ne.symm hc]

theorem partition_dashes (p : Str) : partition ('-' :: '-' :: p) = ('-' :: '-' :: stem p, (partition p).2) := by
  rw [partition, if_neg (by decide), partition, if_neg (by decide), partition_eq]

theorem name_head (a : Act) : ∃ r, a.name = a.letter :: r := by
  cases a <;> exact ⟨_, rfl⟩

theorem tuples_long (p : Str) (a : Act) (h1 : stem p ≠ []) (h2 : stem p <+: a.name) :
    getOptionTuples ('-' :: '-' :: p) = [⟨some a, '-' :: '-' :: a.name, (partition p).2.isSome, (partition p).2⟩] := by
  rw [name_chars] at h2
  rw [name_chars]
  unfold getOptionTuples
  rw [if_pos (by simp), partition_dashes, OPTIONS_eq]
  generalize (partition p).2 = v
  generalize stem p = q at *
  match q with
  | [] => exact absurd rfl h1
  | c :: q =>
    cases a
    all_goals
      simp only [Act.chars, List.cons_prefix_cons] at h2
      obtain ⟨rfl, h2⟩ := h2
      simp [h2, Act.chars]

theorem tuples_none (p : Str) (h : ∀ a : Act, ¬ stem p <+: a.name) : getOptionTuples ('-' :: '-' :: p) = [] := by
  unfold getOptionTuples
  rw [if_pos (by simp), partition_dashes, OPTIONS_eq]
  generalize (partition p).2 = v
  have h1 := h .help
  have h2 := h .target
  have h3 := h .json
  have h4 := h .codepage
  have h5 := h .all
  simp only [name_chars, Act.chars] at h1 h2 h3 h4 h5
  simp [h1, h2, h3, h4, h5]

theorem tuples_many (v : Str) : ∃ t t' l, getOptionTuples ('-' :: '-' :: '=' :: v) = t :: t' :: l := by
  unfold getOptionTuples
  rw [if_pos (by simp), partition_dashes, OPTIONS_eq]
  have : stem ('=' :: v) = [] := by simp [stem]
  rw [this]
  exact ⟨_, _, _, rfl⟩

theorem lookup_dashes {q : Str} {a : Act} (h : OPTIONS.lookup ('-' :: '-' :: q) = some a) : q = a.name := by
  rcases lookup_some h with h | h
  · cases a <;> cases h
  · simpa using h

theorem ambiguous_word (digit : Char → Bool) (v : Str) : parseOptional digit ('-' :: '-' :: '=' :: v) = none := by
  have hl : OPTIONS.lookup ('-' :: '-' :: '=' :: v) = none := by
    cases h : OPTIONS.lookup ('-' :: '-' :: '=' :: v) with
    | none => rfl
    | some a => exact absurd (lookup_dashes h) (by rw [name_chars]; cases a <;> simp [Act.chars])
  have he : equalsTuple ('-' :: '-' :: '=' :: v) = none := by
    unfold equalsTuple
    rw [partition_dashes]
    have : stem ('=' :: v) = [] := by simp [stem]
    rw [this]
    show (OPTIONS.lookup ['-', '-']).map _ = none
    rw [show OPTIONS.lookup ['-', '-'] = none by decide]
    rfl
  obtain ⟨t, t', l, h⟩ := tuples_many v
  unfold parseOptional
  rw [if_neg (by simp), hl]
  simp only
  rw [if_neg (by simp), he, h]

theorem long_word (digit : Char → Bool) (p : Str) (a : Act) (h1 : stem p ≠ []) (h2 : stem p <+: a.name) :
    ∃ t, parseOptional digit ('-' :: '-' :: p) = some (some t) ∧ t.act = some a ∧ takenOf a t = match (partition p).2 with
      | none => some ⟨[], false, some a⟩
      | some v => explicit a true true v := by
  have huniq : ∀ b : Act, stem p = b.name → b = a := by
    intro b hb
    rw [hb] at h2
    obtain ⟨r, hr⟩ := name_head a
    obtain ⟨r', hr'⟩ := name_head b
    rw [hr, hr'] at h2
    exact letter_inj (List.cons_prefix_cons.mp h2).1
  unfold parseOptional
  rw [if_neg (by simp)]
  cases hl : OPTIONS.lookup ('-' :: '-' :: p) with
  | some b =>
    have hp := lookup_dashes hl
    have hne : '=' ∉ p := by rw [hp]; cases b <;> decide
    obtain rfl := huniq b (by rw [stem_self hne, hp])
    refine ⟨_, rfl, rfl, ?_⟩
    rw [partition_none hne]
    rfl
  | none =>
    simp only
    rw [if_neg (by simp)]
    cases he : equalsTuple ('-' :: '-' :: p) with
    | some t =>
      refine ⟨t, rfl, ?_⟩
      unfold equalsTuple at he
      rw [partition_dashes] at he
      cases hv : (partition p).2 with
      | none => rw [hv] at he; cases he
      | some v =>
        rw [hv] at he
        simp only [Option.map_eq_some_iff] at he
        obtain ⟨b, hb, rfl⟩ := he
        obtain rfl := huniq b (lookup_dashes hb)
        exact ⟨rfl, by simp [takenOf]⟩
    | none =>
      rw [tuples_long p a h1 h2]
      refine ⟨_, rfl, rfl, ?_⟩
      cases (partition p).2 with
      | none => rfl
      | some v => simp [takenOf]

theorem long_other (digit : Char → Bool) (p : Str) (h : ∀ a : Act, ¬ stem p <+: a.name) :
    parseOptional digit ('-' :: '-' :: p) = stray digit ('-' :: '-' :: p) := by
  refine parseOptional_stray rfl ?_ (by simp) ?_ (tuples_none p h)
  · cases hl : OPTIONS.lookup ('-' :: '-' :: p) with
    | none => rfl
    | some b =>
      have hp := lookup_dashes hl
      have hne : '=' ∉ p := by rw [hp]; cases b <;> decide
      exact absurd (by rw [stem_self hne, hp]; exact List.prefix_rfl) (h b)
  · unfold equalsTuple
    rw [partition_dashes]
    cases (partition p).2 with
    | none => rfl
    | some v =>
      cases hl : OPTIONS.lookup ('-' :: '-' :: stem p) with
      | none => simp [hl]
      | some b => exact absurd (by rw [lookup_dashes hl]; exact List.prefix_rfl) (h b)

/-! ### The kinds of words -/

theorem stray_arg {digit : Char → Bool} (hn : digit '\n' = false) (hd : digit '.' = false) {r : Str} :
    (stray digit ('-' :: r) = some none ↔ Number digit r ∨ ' ' ∈ '-' :: r) ∧
      (¬ (Number digit r ∨ ' ' ∈ '-' :: r) → stray digit ('-' :: r) = some (some ⟨none, '-' :: r, false, none⟩)) := by
  unfold stray
  have h := isNumber_iff hn hd r
  by_cases h1 : isNumber digit ('-' :: r) = true
  · rw [if_pos h1]
    simp [h.mp h1]
  · have h2 : ¬ Number digit r := fun h' => h1 (h.mpr h')
    rw [if_neg h1]
    by_cases h3 : ' ' ∈ '-' :: r
    · rw [if_pos (by simpa using h3)]
      exact ⟨by simp [h3, h2], fun h => absurd (Or.inr h3) h⟩
    · rw [if_neg (by simpa using h3)]
      simp [h3, h2]

/-- The kinds of words. -/
inductive Word (digit : Char → Bool) : Str → Prop
  | arg {w} : Argument digit w → parseOptional digit w = some none → Word digit w
  | ambiguous {v} : Word digit ('-' :: '-' :: '=' :: v)
  | dashes : Word digit ['-', '-']
  | short {a : Act} {r} : Word digit ('-' :: a.letter :: r)
  | long {a : Act} {p} : stem p ≠ [] → stem p <+: a.name → Word digit ('-' :: '-' :: p)
  | unknown {r} : r ≠ [] → ¬ Named ('-' :: r) → ¬ Argument digit ('-' :: r) →
      parseOptional digit ('-' :: r) = some (some ⟨none, '-' :: r, false, none⟩) → Word digit ('-' :: r)

theorem word {digit : Char → Bool} (hn : digit '\n' = false) (hd : digit '.' = false) (w : Str) : Word digit w := by
  match w with
  | [] => exact .arg (Or.inl (by simp)) (by simp [parseOptional])
  | c :: w =>
    by_cases hc : c = '-'
    · subst hc
      match w with
      | [] => exact .arg (Or.inr ⟨[], rfl, Or.inl rfl⟩) (by rfl)
      | c :: r =>
        have key : ¬ Named ('-' :: c :: r) → parseOptional digit ('-' :: c :: r) = stray digit ('-' :: c :: r) →
            Word digit ('-' :: c :: r) := by
          intro h1 h2
          have h3 := stray_arg (digit := digit) hn hd (r := c :: r)
          rw [← h2] at h3
          by_cases h4 : Number digit (c :: r) ∨ ' ' ∈ '-' :: c :: r
          · exact .arg (Or.inr ⟨_, rfl, Or.inr ⟨h1, h4⟩⟩) (h3.1.mpr h4)
          · refine .unknown (by simp) h1 ?_ (h3.2 h4)
            rintro (h | ⟨r', h, h' | h'⟩)
            · simp at h
            · cases h; cases h'
            · cases h; exact h4 h'.2
        by_cases hc : c = '-'
        · subst hc
          rcases eq_or_ne (stem r) [] with hs | hs
          · match r with
            | [] => exact .dashes
            | d :: r =>
              have : d = '=' := by
                by_contra hd
                simp [stem, hd] at hs
              subst this
              exact .ambiguous
          · by_cases ha : ∃ a : Act, stem r <+: a.name
            · obtain ⟨a, ha⟩ := ha
              exact .long hs ha
            · refine key ?_ (long_other digit r fun a h => ha ⟨a, h⟩)
              intro h
              cases h with
              | short h => exact absurd h (by decide)
              | long h1 h2 =>
                obtain ⟨a, rfl⟩ := mem_names.mp h1
                exact ha ⟨a, h2⟩
        · by_cases hl : c ∈ letters
          · obtain ⟨a, rfl⟩ := mem_letters.mp hl
            exact .short
          · refine key ?_ (other_word digit c r hc hl)
            intro h
            cases h with
            | short h => exact hl h
            | long h1 h2 => exact hc rfl
    · exact .arg (Or.inl (by simpa using hc)) (by simp [parseOptional, hc])

theorem named_not_arg {digit : Char → Bool} {w : Str} (h : Named w) : ¬ Argument digit w := by
  rintro (h1 | ⟨r, rfl, rfl | h1⟩)
  · cases h <;> simp at h1
  · cases h
  · exact h1.1 h

theorem arg_word {digit : Char → Bool} (hn : digit '\n' = false) (hd : digit '.' = false) {w : Str} (h : Argument digit w) :
    parseOptional digit w = some none ∧ w ≠ ['-', '-'] := by
  have hdd : w ≠ ['-', '-'] := by
    rintro rfl
    exact named_not_arg (Named.long (name := "all".toList) (p := []) (by decide) (by simp [stem])) h
  refine ⟨?_, hdd⟩
  cases word hn hd w with
  | arg _ h => exact h
  | ambiguous =>
    exact absurd h (named_not_arg (.long (name := "all".toList) (by decide) (by simp [stem])))
  | dashes => exact absurd rfl hdd
  | short => exact absurd h (named_not_arg (.short (mem_letters.mpr ⟨_, rfl⟩)))
  | long h1 h2 => exact absurd h (named_not_arg (.long (mem_names.mpr ⟨_, rfl⟩) h2))
  | unknown _ _ h' => exact absurd h h'

end Verif.ArgParse
