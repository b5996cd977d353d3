import Verif.Lemmas.ArgsOpt

/-
Lemmas: the argument parser reads command lines as the specification does.
-/

namespace Verif.ArgParse

open Spec.CommandLine

/-! ### Patterns -/

theorem dashes_eq : "--".toList = ['-', '-'] := rfl

theorem pattern_dashes (digit : Char → Bool) (ws : List Str) :
    pattern digit (['-', '-'] :: ws) = some ((['-', '-'], .dashes) :: ws.map fun s => (s, .A)) := by
  rw [pattern, if_pos dashes_eq.symm]

theorem pattern_arg {digit : Char → Bool} {w : Str} {ws : List Str} {l : List (Str × Kind)} (h1 : w ≠ ['-', '-'])
    (h2 : parseOptional digit w = some none) (h3 : pattern digit ws = some l) : pattern digit (w :: ws) = some ((w, .A) :: l) := by
  rw [pattern, if_neg (by rw [dashes_eq]; exact h1), h2, h3]
  rfl

theorem pattern_opt {digit : Char → Bool} {w : Str} {ws : List Str} {l : List (Str × Kind)} {t : Tuple} (h1 : w ≠ ['-', '-'])
    (h2 : parseOptional digit w = some (some t)) (h3 : pattern digit ws = some l) :
    pattern digit (w :: ws) = some ((w, .O t) :: l) := by
  rw [pattern, if_neg (by rw [dashes_eq]; exact h1), h2, h3]
  rfl

/-- The first word of a command line. -/
theorem pattern_cases {digit : Char → Bool} {w : Str} {ws : List Str} {l : List (Str × Kind)} (h : pattern digit (w :: ws) = some l) :
    (w = ['-', '-'] ∧ l = (w, .dashes) :: ws.map fun s => (s, .A)) ∨
    (w ≠ ['-', '-'] ∧ parseOptional digit w = some none ∧ ∃ l', pattern digit ws = some l' ∧ l = (w, .A) :: l') ∨
    (w ≠ ['-', '-'] ∧ ∃ t, parseOptional digit w = some (some t) ∧ ∃ l', pattern digit ws = some l' ∧ l = (w, .O t) :: l') := by
  by_cases hw : w = ['-', '-']
  · subst hw
    rw [pattern_dashes] at h
    cases h
    exact Or.inl ⟨rfl, rfl⟩
  · right
    cases h1 : parseOptional digit w with
    | none =>
      rw [pattern, if_neg (by rw [dashes_eq]; exact hw), h1] at h
      cases h
    | some x =>
      cases h2 : pattern digit ws with
      | none =>
        rw [pattern, if_neg (by rw [dashes_eq]; exact hw), h1, h2] at h
        cases h
      | some l' =>
        cases x with
        | none =>
          rw [pattern_arg hw h1 h2] at h
          cases h
          exact Or.inl ⟨hw, rfl, l', rfl, rfl⟩
        | some t =>
          rw [pattern_opt hw h1 h2] at h
          cases h
          exact Or.inr ⟨hw, t, rfl, l', rfl, rfl⟩

theorem arg_of_word {digit : Char → Bool} (hn : digit '\n' = false) (hd : digit '.' = false) {w : Str} (hw : w ≠ ['-', '-'])
    (h : parseOptional digit w = some none) : Argument digit w := by
  cases word hn hd w with
  | arg h => exact h
  | ambiguous => rw [ambiguous_word] at h; cases h
  | dashes => exact absurd rfl hw
  | short =>
    rename_i a r
    obtain ⟨t, h1, _⟩ := short_word digit a r
    rw [h1] at h; cases h
  | long h1 h2 =>
    rename_i a p
    obtain ⟨t, h3, _⟩ := long_word digit p a h1 h2
    rw [h3] at h; cases h
  | unknown _ _ _ h' => rw [h'] at h; cases h

/-- The argument behind an option. -/
theorem pattern_head {digit : Char → Bool} (hn : digit '\n' = false) (hd : digit '.' = false) {ws : List Str}
    {l l' : List (Str × Kind)} {v : Str} (h : pattern digit ws = some ((v, .A) :: l')) (_ : l = (v, Kind.A) :: l') :
    Argument digit v ∧ ∃ ws', ws = v :: ws' ∧ pattern digit ws' = some l' := by
  match ws with
  | [] => cases h
  | w :: ws =>
    rcases pattern_cases h with ⟨_, h1⟩ | ⟨h1, h2, l'', h3, h4⟩ | ⟨h1, t, h2, l'', h3, h4⟩
    · cases h1
    · cases h4
      exact ⟨arg_of_word hn hd h1 h2, ws, rfl, h3⟩
    · cases h4

/-! ### Options -/

theorem opt_word {digit : Char → Bool} (hn : digit '\n' = false) (hd : digit '.' = false) {h : List Str} {ss : List Setting} {k : Bool}
    (ho : Opt digit h ss k) : ∃ w h', h = w :: h' ∧ w ≠ ['-', '-'] ∧ (h' = [] ∨ ∃ v, h' = [v] ∧ Argument digit v) ∧
      ∃ t, parseOptional digit w = some (some t) := by
  cases ho with
  | long hf hp =>
    obtain ⟨a, _, _, rfl, _⟩ := act_of_flag hf
    have hne := abbreviates_stem hp
    obtain ⟨t, h1, _⟩ := long_word digit _ a (by rw [stem_self hne]; exact hp.1) (by rw [stem_self hne]; exact hp.2)
    exact ⟨_, _, rfl, by simpa using hp.1, Or.inl rfl, t, h1⟩
  | longEquals hp =>
    rename_i p v
    have hne := abbreviates_stem (a := .codepage) hp
    obtain ⟨t, h1, _⟩ := long_word digit (p ++ '=' :: v) .codepage (by rw [stem_append hne]; exact hp.1)
      (by rw [stem_append hne]; exact hp.2)
    exact ⟨_, _, rfl, by simp, Or.inl rfl, t, h1⟩
  | longNext hp hv =>
    have hne := abbreviates_stem (a := .codepage) hp
    obtain ⟨t, h1, _⟩ := long_word digit _ .codepage (by rw [stem_self hne]; exact hp.1) (by rw [stem_self hne]; exact hp.2)
    exact ⟨_, _, rfl, by simpa using hp.1, Or.inr ⟨_, rfl, hv⟩, t, h1⟩
  | short hc =>
    obtain ⟨a, r, T, rfl, _⟩ := cluster_complete hc
    obtain ⟨t, h1, _⟩ := short_word digit a r
    exact ⟨_, _, rfl, by cases a <;> simp [Act.letter], Or.inl rfl, t, h1⟩
  | shortUnknown hc =>
    obtain ⟨a, r, T, rfl, _⟩ := cluster_complete hc
    obtain ⟨t, h1, _⟩ := short_word digit a r
    exact ⟨_, _, rfl, by cases a <;> simp [Act.letter], Or.inl rfl, t, h1⟩
  | shortNext hc hv =>
    obtain ⟨a, r, T, rfl, _⟩ := cluster_complete hc
    obtain ⟨t, h1, _⟩ := short_word digit a r
    exact ⟨_, _, rfl, by cases a <;> simp [Act.letter], Or.inr ⟨_, rfl, hv⟩, t, h1⟩
  | unknown _ h2 h3 =>
    refine ⟨_, _, rfl, ?_, Or.inl rfl, _, unknown_word hn hd h2 h3⟩
    rintro h
    cases h
    exact h2 (.long (name := "all".toList) (by decide) (by simp [stem]))

/-- An option at the beginning of a command line. -/
theorem opt_go {digit : Char → Bool} (hn : digit '\n' = false) (hd : digit '.' = false) {h : List Str} {ss : List Setting} {k : Bool}
    (ho : Opt digit h ss k) {ws : List Str} {l : List (Str × Kind)} (hl : pattern digit ws = some l) :
    ∃ w t l', pattern digit (h ++ ws) = some ((w, .O t) :: l') ∧ ∀ s, go s ((w, .O t) :: l') = resume (follow s ss k l) := by
  obtain ⟨w, h', rfl, hw, hh, t, ht⟩ := opt_word hn hd ho
  rcases hh with rfl | ⟨v, rfl, hv⟩
  · refine ⟨w, t, l, pattern_opt hw ht hl, fun s => ?_⟩
    rw [go_optional, optional_complete hn hd ht (Or.inl ⟨ho, rfl⟩)]
  · obtain ⟨hv1, hv2⟩ := arg_word hn hd hv
    refine ⟨w, t, (v, .A) :: l, pattern_opt hw ht (pattern_arg hv2 hv1 hl), fun s => ?_⟩
    rw [go_optional, optional_complete hn hd ht (Or.inr ⟨v, rfl, ho⟩)]

theorem apply_append (a : Args) (ss ts : List Setting) : apply a (ss ++ ts) = apply (apply a ss) ts := by
  simp [apply]

theorem follow_ok {s : State} {ss : List Setting} {k : Bool} {l : List (Str × Kind)} (h : Setting.help ∉ ss) :
    follow s ss k l = .ok ({ s with args := apply s.args ss, extras := s.extras || !k }, l) := by
  rw [follow, if_neg h]

theorem follow_help {s : State} {ss : List Setting} {k : Bool} {l : List (Str × Kind)} (h : Setting.help ∈ ss) :
    follow s ss k l = .error .help := by
  rw [follow, if_pos h]

theorem opts_go {digit : Char → Bool} (hn : digit '\n' = false) (hd : digit '.' = false) {o : List Str} {ss : List Setting}
    (ho : Opts digit o ss) {ws : List Str} {l : List (Str × Kind)} (hl : pattern digit ws = some l) :
    ∃ l', pattern digit (o ++ ws) = some l' ∧ (l' = l ∨ undash l' = l') ∧ ∀ s, go s l' = go { s with args := apply s.args ss } l := by
  induction ho with
  | nil => exact ⟨l, hl, Or.inl rfl, fun s => rfl⟩
  | cons h1 h2 _ ih =>
    obtain ⟨l', h3, _, h4⟩ := ih
    obtain ⟨w, t, l'', h5, h6⟩ := opt_go hn hd h1 h3
    refine ⟨_, by rw [List.append_assoc]; exact h5, Or.inr rfl, fun s => ?_⟩
    rw [h6, follow_ok h2, resume, h4, apply_append]
    simp

/-! ### Accepted command lines -/

theorem line_complete {digit : Char → Bool} (hn : digit '\n' = false) (hd : digit '.' = false) {argv : List Str} {f : Str}
    {ss : List Setting} (h : Line digit argv f ss) : parseArgs digit argv = .parsed f (apply {} ss) := by
  rw [parseArgs_go]
  cases h with
  | amid h1 h2 h3 =>
    obtain ⟨hf1, hf2⟩ := arg_word hn hd h2
    obtain ⟨l1, h4, h5, h6⟩ := opts_go hn hd h3 (ws := []) (l := []) rfl
    rw [List.append_nil] at h4
    obtain ⟨l2, h7, h8, h9⟩ := opts_go hn hd h1 (pattern_arg hf2 hf1 h4)
    rw [h7]
    have hu : undash l1 = l1 := by
      rcases h5 with rfl | h5
      · rfl
      · exact h5
    simp only
    rw [h9, go_arg, if_neg (by simp), hu, h6, go_nil, if_neg (by simp), apply_append]
  | behind h1 =>
    obtain ⟨l2, h7, h8, h9⟩ := opts_go hn hd h1 (pattern_dashes digit [f])
    rw [show dashes = ['-', '-'] from rfl, h7]
    simp only
    rw [h9, go_dashes, if_neg (by simp)]
    simp only [List.map_cons, List.map_nil, firstA]
    rw [go_nil, if_neg (by simp)]
  | before h1 h2 =>
    obtain ⟨hf1, hf2⟩ := arg_word hn hd h2
    obtain ⟨l2, h7, h8, h9⟩ := opts_go hn hd h1 (pattern_arg hf2 hf1 (pattern_dashes digit []))
    rw [show dashes = ['-', '-'] from rfl, h7]
    simp only
    rw [h9, go_arg, if_neg (by simp)]
    simp only [List.map_nil, undash]
    rw [go_nil, if_neg (by simp)]

theorem line_cons {digit : Char → Bool} {h l : List Str} {ss ts : List Setting} {f : Str} (h1 : Opt digit h ss true)
    (h2 : Setting.help ∉ ss) (h3 : Line digit l f ts) : Line digit (h ++ l) f (ss ++ ts) := by
  cases h3 with
  | amid h4 h5 h6 =>
    rw [← List.append_assoc, ← List.append_assoc]
    exact .amid (.cons h1 h2 h4) h5 h6
  | behind h4 =>
    rw [← List.append_assoc]
    exact .behind (.cons h1 h2 h4)
  | before h4 h5 =>
    rw [← List.append_assoc]
    exact .before (.cons h1 h2 h4) h5

theorem more_map (ws : List Str) : more (ws.map fun s => (s, Kind.A)) = false := by
  simp [more]

/-- An option is read, or the parse ends with an error. -/
theorem go_cases {digit : Char → Bool} (hn : digit '\n' = false) (hd : digit '.' = false) {w : Str} {ws : List Str} {t : Tuple}
    {l : List (Str × Kind)} (hw : w ≠ ['-', '-']) (ht : parseOptional digit w = some (some t)) (hl : pattern digit ws = some l)
    (s : State) : go s ((w, .O t) :: l) = .usage ∨ ∃ h ss k ws' l', w :: ws = h ++ ws' ∧ ws'.length ≤ ws.length ∧ Opt digit h ss k ∧
      pattern digit ws' = some l' ∧ go s ((w, .O t) :: l) = resume (follow s ss k l') := by
  by_cases hu : optional s t l = .error .usage
  · left
    rw [go_optional, hu]
    rfl
  · right
    obtain ⟨ss, k, l', hr⟩ := optional_sound hn hd ht hw (l := l)
      (fun v l' h => (pattern_head hn hd (l := l) (h ▸ hl) h).1) hu
    have hgo := optional_complete hn hd ht hr s
    rcases hr with ⟨h1, rfl⟩ | ⟨v, rfl, h1⟩
    · exact ⟨[w], ss, k, ws, l', rfl, Nat.le_refl _, h1, hl, by rw [go_optional, hgo]⟩
    · obtain ⟨_, ws', rfl, h2⟩ := pattern_head hn hd (l := (v, .A) :: l') hl rfl
      exact ⟨[w, v], ss, k, ws', l', rfl, by simp, h1, h2, by rw [go_optional, hgo]⟩

theorem line_sound {digit : Char → Bool} (hn : digit '\n' = false) (hd : digit '.' = false) : ∀ (n : Nat) (argv : List Str)
    (l : List (Str × Kind)) (s : State) (f : Str) (a : Args), argv.length ≤ n → pattern digit argv = some l →
    go s l = .parsed f a → s.extras = false ∧ ∃ ss, a = apply s.args ss ∧
      (∀ f0, s.file = some f0 → f = f0 ∧ Opts digit argv ss) ∧ (s.file = none → Line digit argv f ss) := by
  intro n
  induction n with
  | zero =>
    intro argv l s f a hlen hp hg
    obtain rfl : argv = [] := List.length_eq_zero_iff.mp (by omega)
    cases hp
    rw [go_nil] at hg
    split at hg
    · cases hg
    · rename_i he
      cases hf : s.file with
      | none => rw [hf] at hg; cases hg
      | some f0 =>
        rw [hf] at hg
        cases hg
        exact ⟨by simpa using he, [], rfl, fun f0 h => ⟨Option.some.inj h, .nil⟩, by simp⟩
  | succ n ih =>
    intro argv l s f a hlen hp hg
    match argv with
    | [] => exact ih [] l s f a (by simp) hp hg
    | w :: ws =>
      simp only [List.length_cons] at hlen
      rcases pattern_cases hp with ⟨rfl, rfl⟩ | ⟨hw, h1, l', h2, rfl⟩ | ⟨hw, t, h1, l', h2, rfl⟩
      · rw [go_dashes] at hg
        split at hg
        · rw [go_extras rfl (more_map ws)] at hg
          cases hg
        · rename_i hf
          match ws with
          | [] =>
            simp only [List.map_nil, firstA] at hg
            rw [go_extras rfl rfl] at hg
            cases hg
          | w :: ws =>
            simp only [List.map_cons, firstA] at hg
            rw [go_rest rfl (more_map ws)] at hg
            split at hg
            · cases hg
            · rename_i h
              cases hg
              have h' := not_or.mp h
              obtain rfl : ws = [] := by simpa using h'.2
              refine ⟨by simpa using h'.1, [], rfl, ?_, fun _ => .behind .nil⟩
              intro f0 hf0
              rw [hf0] at hf
              exact absurd rfl hf
      · have ha := arg_of_word hn hd hw h1
        rw [go_arg] at hg
        split at hg
        · obtain ⟨h, _⟩ := ih ws l' _ f a (by omega) h2 hg
          cases h
        · rename_i hf
          by_cases hu : undash l' = l'
          · rw [hu] at hg
            obtain ⟨h, ss, h3, h4, _⟩ := ih ws l' _ f a (by omega) h2 hg
            obtain ⟨rfl, h5⟩ := h4 w rfl
            refine ⟨h, ss, h3, ?_, fun _ => .amid .nil ha h5⟩
            intro f0 hf0
            rw [hf0] at hf
            exact absurd rfl hf
          · match ws with
            | [] => cases h2; exact absurd rfl hu
            | w' :: ws =>
              rcases pattern_cases h2 with ⟨rfl, rfl⟩ | ⟨_, _, l'', _, rfl⟩ | ⟨_, t, _, l'', _, rfl⟩
              · simp only [undash] at hg
                rw [go_rest rfl (more_map ws)] at hg
                split at hg
                · cases hg
                · rename_i h
                  cases hg
                  have h' := not_or.mp h
                  obtain rfl : ws = [] := by simpa using h'.2
                  refine ⟨by simpa using h'.1, [], rfl, ?_, fun _ => .before .nil ha⟩
                  intro f0 hf0
                  rw [hf0] at hf
                  exact absurd rfl hf
              · exact absurd rfl hu
              · exact absurd rfl hu
      · rcases go_cases hn hd hw h1 h2 s with hu | ⟨h, ss, k, ws', l'', h3, h4, h5, h6, h7⟩
        · rw [hu] at hg; cases hg
        · rw [h7] at hg
          by_cases hh : Setting.help ∈ ss
          · rw [follow_help hh] at hg; cases hg
          · rw [follow_ok hh] at hg
            obtain ⟨h8, ts, h9, h10, h11⟩ := ih ws' l'' _ f a (by omega) h6 hg
            simp only [Bool.or_eq_false_iff] at h8
            have hk : k = true := by simpa using h8.2
            subst hk
            refine ⟨h8.1, ss ++ ts, by rw [apply_append]; exact h9, ?_, ?_⟩
            · intro f0 hf0
              rw [h3]
              exact ⟨(h10 f0 hf0).1, .cons h5 hh (h10 f0 hf0).2⟩
            · intro hf
              rw [h3]
              exact line_cons h5 hh (h11 hf)

/-! ### Requests for help -/

theorem help_sound {digit : Char → Bool} (hn : digit '\n' = false) (hd : digit '.' = false) : ∀ (n : Nat) (argv : List Str)
    (l : List (Str × Kind)) (s : State), argv.length ≤ n → pattern digit argv = some l → go s l = .help →
    ∃ a h b ss k, argv = a ++ h ++ b ∧ Any digit a ∧ Opt digit h ss k ∧ Setting.help ∈ ss := by
  intro n
  induction n with
  | zero =>
    intro argv l s hlen hp hg
    obtain rfl : argv = [] := List.length_eq_zero_iff.mp (by omega)
    cases hp
    rw [go_nil] at hg
    repeat' split at hg
    all_goals cases hg
  | succ n ih =>
    intro argv l s hlen hp hg
    match argv with
    | [] => exact ih [] l s (by simp) hp hg
    | w :: ws =>
      simp only [List.length_cons] at hlen
      rcases pattern_cases hp with ⟨rfl, rfl⟩ | ⟨hw, h1, l', h2, rfl⟩ | ⟨hw, t, h1, l', h2, rfl⟩
      · rw [go_finish _ _ (by simp [more])] at hg
        unfold finish at hg
        simp only at hg
        repeat' split at hg
        all_goals cases hg
      · have ha := arg_of_word hn hd hw h1
        have key : ∀ s', go s' l' = .help → ∃ a h b ss k, w :: ws = a ++ h ++ b ∧ Any digit a ∧ Opt digit h ss k ∧ Setting.help ∈ ss := by
          intro s' hs'
          obtain ⟨a, h, b, ss, k, rfl, h3, h4, h5⟩ := ih ws l' s' (by omega) h2 hs'
          exact ⟨w :: a, h, b, ss, k, rfl, .arg ha h3, h4, h5⟩
        rw [go_arg] at hg
        split at hg
        · exact key _ hg
        · by_cases hu : undash l' = l'
          · rw [hu] at hg
            exact key _ hg
          · match ws with
            | [] => cases h2; exact absurd rfl hu
            | w' :: ws =>
              rcases pattern_cases h2 with ⟨rfl, rfl⟩ | ⟨_, _, l'', _, rfl⟩ | ⟨_, t, _, l'', _, rfl⟩
              · simp only [undash] at hg
                rw [go_rest rfl (more_map ws)] at hg
                repeat' split at hg
                all_goals cases hg
              · exact absurd rfl hu
              · exact absurd rfl hu
      · rcases go_cases hn hd hw h1 h2 s with hu | ⟨h, ss, k, ws', l'', h3, h4, h5, h6, h7⟩
        · rw [hu] at hg; cases hg
        · rw [h7] at hg
          by_cases hh : Setting.help ∈ ss
          · exact ⟨[], h, ws', ss, k, h3, .nil, h5, hh⟩
          · rw [follow_ok hh] at hg
            obtain ⟨a, h', b, ts, k', rfl, h8, h9, h10⟩ := ih ws' l'' _ (by omega) h6 hg
            exact ⟨h ++ a, h', b, ts, k', by rw [h3]; simp, .opt h5 hh h8, h9, h10⟩

theorem any_go {digit : Char → Bool} (hn : digit '\n' = false) (hd : digit '.' = false) {o : List Str}
    (ho : Any digit o) {ws : List Str} {l : List (Str × Kind)} (hl : pattern digit ws = some l) (hu : undash l = l) :
    ∃ l', pattern digit (o ++ ws) = some l' ∧ undash l' = l' ∧ ∀ s, ∃ s', go s l' = go s' l := by
  induction ho with
  | nil => exact ⟨l, hl, hu, fun s => ⟨s, rfl⟩⟩
  | opt h1 h2 _ ih =>
    obtain ⟨l', h3, _, h4⟩ := ih
    obtain ⟨w, t, l'', h5, h6⟩ := opt_go hn hd h1 h3
    refine ⟨_, by rw [List.append_assoc]; exact h5, rfl, fun s => ?_⟩
    rw [h6, follow_ok h2]
    exact h4 _
  | arg h1 _ ih =>
    obtain ⟨l', h3, h3', h4⟩ := ih
    obtain ⟨h5, h6⟩ := arg_word hn hd h1
    refine ⟨_, pattern_arg h6 h5 h3, rfl, fun s => ?_⟩
    rw [go_arg, h3']
    split
    · exact h4 _
    · exact h4 _

theorem pattern_iff {digit : Char → Bool} (hn : digit '\n' = false) (hd : digit '.' = false) (argv : List Str) :
    (∃ l, pattern digit argv = some l) ↔ ∀ w ∈ argv.takeWhile (· ≠ dashes), ¬ Ambiguous w := by
  induction argv with
  | nil => simp [pattern]
  | cons w ws ih =>
    by_cases hw : w = ['-', '-']
    · subst hw
      rw [pattern_dashes]
      simp [dashes]
    · have h1 : (w :: ws).takeWhile (· ≠ dashes) = w :: ws.takeWhile (· ≠ dashes) := by
        rw [List.takeWhile_cons, if_pos (by simp [dashes, hw])]
      rw [h1]
      constructor
      · rintro ⟨l, hl⟩
        have h2 : ∃ x, parseOptional digit w = some x ∧ ∃ l', pattern digit ws = some l' := by
          rcases pattern_cases hl with ⟨h, _⟩ | ⟨_, h, l', h', _⟩ | ⟨_, t, h, l', h', _⟩
          · exact absurd h hw
          · exact ⟨_, h, l', h'⟩
          · exact ⟨_, h, l', h'⟩
        obtain ⟨x, h2, h3⟩ := h2
        intro v hv
        rcases List.mem_cons.mp hv with rfl | hv
        · rintro ⟨v', rfl⟩
          rw [ambiguous_word] at h2
          cases h2
        · exact (ih.mp h3) v hv
      · intro h
        obtain ⟨l, hl⟩ := ih.mpr fun v hv => h v (List.mem_cons_of_mem _ hv)
        have hx : ∃ x, parseOptional digit w = some x := by
          cases word hn hd w with
          | arg _ h => exact ⟨_, h⟩
          | ambiguous => exact absurd ⟨_, rfl⟩ (h _ List.mem_cons_self)
          | dashes => exact absurd rfl hw
          | short =>
            rename_i a r
            obtain ⟨t, h1, _⟩ := short_word digit a r
            exact ⟨_, h1⟩
          | @long a p h4 h5 =>
            obtain ⟨t, h3, _⟩ := long_word digit p a h4 h5
            exact ⟨_, h3⟩
          | unknown _ _ _ h' => exact ⟨_, h'⟩
        obtain ⟨x, hx⟩ := hx
        cases x with
        | none => exact ⟨_, pattern_arg hw hx hl⟩
        | some t => exact ⟨_, pattern_opt hw hx hl⟩

theorem pattern_tail {digit : Char → Bool} {a ws : List Str} (ha : ∀ w ∈ a, w ≠ ['-', '-']) (h : ∃ l, pattern digit (a ++ ws) = some l) :
    ∃ l, pattern digit ws = some l := by
  induction a with
  | nil => exact h
  | cons w a ih =>
    obtain ⟨l, hl⟩ := h
    refine ih (fun w hw => ha w (List.mem_cons_of_mem _ hw)) ?_
    rcases pattern_cases hl with ⟨h, _⟩ | ⟨_, _, l', h', _⟩ | ⟨_, t, _, l', h', _⟩
    · exact absurd h (ha w List.mem_cons_self)
    · exact ⟨l', h'⟩
    · exact ⟨l', h'⟩

theorem opt_dashes {digit : Char → Bool} (hn : digit '\n' = false) (hd : digit '.' = false) {h : List Str} {ss : List Setting} {k : Bool}
    (ho : Opt digit h ss k) : ∀ w ∈ h, w ≠ ['-', '-'] := by
  obtain ⟨w, h', rfl, hw, hh, _⟩ := opt_word hn hd ho
  intro v hv
  rcases List.mem_cons.mp hv with rfl | hv
  · exact hw
  · rcases hh with rfl | ⟨u, rfl, hu⟩
    · cases hv
    · obtain rfl := List.mem_singleton.mp hv
      exact (arg_word hn hd hu).2

theorem any_dashes {digit : Char → Bool} (hn : digit '\n' = false) (hd : digit '.' = false) {a : List Str} (ha : Any digit a) :
    ∀ w ∈ a, w ≠ ['-', '-'] := by
  induction ha with
  | nil => simp
  | opt h1 _ _ ih =>
    intro w hw
    rcases List.mem_append.mp hw with hw | hw
    · exact opt_dashes hn hd h1 w hw
    · exact ih w hw
  | arg h1 _ ih =>
    intro w hw
    rcases List.mem_cons.mp hw with rfl | hw
    · exact (arg_word hn hd h1).2
    · exact ih w hw

/-! ### The arguments -/

theorem apply_isArgs (ss : List Setting) : IsArgs ss (apply {} ss) := by
  have key : ∀ (a : Args) (ss : List Setting), ((apply a ss).target = true ↔ a.target = true ∨ .target ∈ ss) ∧
      ((apply a ss).json = true ↔ a.json = true ∨ .json ∈ ss) ∧ ((apply a ss).print_all = true ↔ a.print_all = true ∨ .all ∈ ss) ∧
      (apply a ss).cp = ((codepageOf ss).map String.ofList).getD a.cp := by
    intro a ss
    induction ss generalizing a with
    | nil => simp [apply, codepageOf]
    | cons s ss ih =>
      obtain ⟨h1, h2, h3, h4⟩ := ih (applyOne a s)
      have hc : apply a (s :: ss) = apply (applyOne a s) ss := rfl
      rw [hc, h1, h2, h3, h4]
      have h5 : ((codepageOf (s :: ss)).map String.ofList).getD a.cp = ((codepageOf ss).map String.ofList).getD (applyOne a s).cp := by
        cases s with
        | codepage v =>
          show ((v :: _).getLast?.map String.ofList).getD _ = _
          rw [List.getLast?_cons]
          unfold codepageOf
          cases List.getLast? _ <;> rfl
        | _ => rfl
      rw [h5]
      cases s <;> simp [applyOne]
  obtain ⟨h1, h2, h3, h4⟩ := key {} ss
  exact ⟨by simpa using h1, by simpa using h2, by simpa using h3, h4⟩

theorem isArgs_unique {ss : List Setting} {a b : Args} (ha : IsArgs ss a) (hb : IsArgs ss b) : a = b := by
  obtain ⟨h1, h2, h3, h4⟩ := ha
  obtain ⟨h5, h6, h7, h8⟩ := hb
  rcases a with ⟨a1, a2, a3, a4⟩
  rcases b with ⟨b1, b2, b3, b4⟩
  simp only at *
  rw [Args.mk.injEq]
  exact ⟨by rw [Bool.eq_iff_iff, h1, h5], by rw [Bool.eq_iff_iff, h2, h6], h4.trans h8.symm, by rw [Bool.eq_iff_iff, h3, h7]⟩

end Verif.ArgParse
