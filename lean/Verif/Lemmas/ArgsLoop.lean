import Verif.Model.Args

/-
Lemmas: the loop of the argument parser, one string at a time.
-/

namespace Verif.ArgParse

/-- Dashes behind the file are dropped. -/
def undash : List (Str × Kind) → List (Str × Kind)
  | (_, .dashes) :: l => l
  | l => l

/-- The argument that follows. -/
def firstA : List (Str × Kind) → Option (Str × List (Str × Kind))
  | (f, .A) :: l => some (f, l)
  | _ => none

theorem length_undash (l : List (Str × Kind)) : (undash l).length ≤ l.length := by
  match l with
  | [] => simp [undash]
  | (_, .dashes) :: l => simp [undash]
  | (_, .A) :: l => simp [undash]
  | (_, .O _) :: l => simp [undash]

theorem length_firstA {l l' : List (Str × Kind)} {f : Str} (h : firstA l = some (f, l')) : l'.length < l.length := by
  unfold firstA at h
  split at h
  · cases h; simp
  · cases h

theorem more_undash (l : List (Str × Kind)) : more (undash l) = more l := by
  match l with
  | [] => simp [undash]
  | (_, .dashes) :: l => simp [undash, more]
  | (_, .A) :: l => simp [undash]
  | (_, .O _) :: l => simp [undash]

theorem more_firstA {l l' : List (Str × Kind)} {f : Str} (h : firstA l = some (f, l')) : more l' = more l := by
  unfold firstA at h
  split at h
  · cases h; simp [more]
  · cases h

/-- The loop without looking ahead for the next option. -/
def go (s : State) (l : List (Str × Kind)) : Outcome :=
  match l with
  | [] =>
    if s.extras then .usage
    else match s.file with
      | none => .usage
      | some f => .parsed f s.args
  | (_, .O t) :: l =>
    match _h : optional s t l with
    | .error o => o
    | .ok (s', l') => go s' l'
  | (f, .A) :: l =>
    if s.file.isSome then go { s with extras := true } l
    else go { s with file := some f } (undash l)
  | (_, .dashes) :: l =>
    if s.file.isSome then go { s with extras := true } l
    else match _h : firstA l with
      | some (f, l') => go { s with file := some f } l'
      | none => go { s with extras := true } l
termination_by l.length
decreasing_by
  all_goals simp_wf
  · have := length_optional _h
    omega
  · have := length_undash l
    omega
  · have := length_firstA _h
    omega

/-- The parse after an option. -/
def resume : Except Outcome (State × List (Str × Kind)) → Outcome
  | .error o => o
  | .ok (s', l') => go s' l'

theorem go_optional (s : State) (w : Str) (t : Tuple) (l : List (Str × Kind)) :
    go s ((w, .O t) :: l) = resume (optional s t l) := by
  rw [go]
  split <;> rename_i h <;> rw [h] <;> rfl

theorem go_dashes (s : State) (w : Str) (l : List (Str × Kind)) : go s ((w, .dashes) :: l) =
    if s.file.isSome then go { s with extras := true } l
    else match firstA l with
      | some (f, l') => go { s with file := some f } l'
      | none => go { s with extras := true } l := by
  rw [go]
  split
  · rfl
  · split <;> rename_i h <;> rw [h]

theorem go_arg (s : State) (f : Str) (l : List (Str × Kind)) : go s ((f, .A) :: l) =
    if s.file.isSome then go { s with extras := true } l else go { s with file := some f } (undash l) := by
  rw [go]

theorem go_nil (s : State) : go s [] = if s.extras then .usage else match s.file with
      | none => .usage
      | some f => .parsed f s.args := by
  rw [go]

private theorem go_extras_aux : ∀ (n : Nat) (l : List (Str × Kind)), l.length ≤ n → more l = false →
    ∀ s : State, s.extras = true → go s l = .usage := by
  intro n
  induction n with
  | zero =>
    intro l hl _ s hs
    obtain rfl : l = [] := List.length_eq_zero_iff.mp (by omega)
    rw [go, if_pos hs]
  | succ n ih =>
    intro l hl hm s hs
    match l with
    | [] => rw [go, if_pos hs]
    | (w, .O t) :: l => simp [more] at hm
    | (w, .A) :: l =>
      have hm' : more l = false := by simpa [more] using hm
      rw [go_arg]
      simp only [List.length_cons] at hl
      split
      · exact ih l (by omega) hm' _ rfl
      · have := length_undash l
        exact ih _ (by omega) ((more_undash l).trans hm') _ hs
    | (w, .dashes) :: l =>
      have hm' : more l = false := by simpa [more] using hm
      rw [go_dashes]
      simp only [List.length_cons] at hl
      split
      · exact ih l (by omega) hm' _ rfl
      · split
        · rename_i h
          have := length_firstA h
          exact ih _ (by omega) ((more_firstA h).trans hm') _ hs
        · exact ih l (by omega) hm' _ rfl

theorem go_extras {s : State} {l : List (Str × Kind)} (hs : s.extras = true) (hm : more l = false) : go s l = .usage :=
  go_extras_aux l.length l (Nat.le_refl _) hm s hs

theorem go_rest {s : State} {l : List (Str × Kind)} (hf : s.file.isSome = true) (hm : more l = false) :
    go s l = if s.extras ∨ l ≠ [] then .usage else match s.file with
      | none => .usage
      | some f => .parsed f s.args := by
  match l with
  | [] => rw [go_nil]; simp
  | (w, .O t) :: l => simp [more] at hm
  | (w, .A) :: l =>
    rw [go_arg, if_pos hf, go_extras rfl (by simpa [more] using hm), if_pos (Or.inr (by simp))]
  | (w, .dashes) :: l =>
    rw [go_dashes, if_pos hf, go_extras rfl (by simpa [more] using hm), if_pos (Or.inr (by simp))]

theorem positionals_some {s : State} (l : List (Str × Kind)) (hf : s.file.isSome = true) : positionals s l = none := by
  unfold positionals
  rw [if_pos hf]

theorem positionals_arg {s : State} (f : Str) (l : List (Str × Kind)) (hf : ¬ s.file.isSome = true) :
    positionals s ((f, .A) :: l) = some ({ s with file := some f }, undash l) := by
  unfold positionals
  rw [if_neg hf]
  match l with
  | [] => rfl
  | (_, .dashes) :: l => rfl
  | (_, .A) :: l => rfl
  | (_, .O _) :: l => rfl

theorem positionals_dashes {s : State} (f : Str) (l : List (Str × Kind)) (hf : ¬ s.file.isSome = true) :
    positionals s ((f, .dashes) :: l) = (firstA l).map fun x => ({ s with file := some x.1 }, x.2) := by
  unfold positionals
  rw [if_neg hf]
  match l with
  | [] => rfl
  | (_, .dashes) :: l => rfl
  | (_, .A) :: l => rfl
  | (_, .O _) :: l => rfl

theorem positionals_opt {s : State} (f : Str) (t : Tuple) (l : List (Str × Kind)) : positionals s ((f, .O t) :: l) = none := by
  unfold positionals
  split <;> rfl

/-- What `positionals` takes, `go` takes. -/
theorem go_positionals {s s' : State} {l l' : List (Str × Kind)} (h : positionals s l = some (s', l')) :
    go s l = go s' l' ∧ s'.file.isSome = true ∧ (more l' = more l) := by
  by_cases hf : s.file.isSome = true
  · rw [positionals_some l hf] at h; cases h
  · match l with
    | [] => unfold positionals at h; rw [if_neg hf] at h; cases h
    | (w, .O t) :: l => rw [positionals_opt] at h; cases h
    | (w, .A) :: l =>
      rw [positionals_arg w l hf] at h
      cases h
      rw [go_arg, if_neg hf]
      exact ⟨rfl, rfl, by rw [more_undash]; simp [more]⟩
    | (w, .dashes) :: l =>
      rw [positionals_dashes w l hf] at h
      cases h1 : firstA l with
      | none => rw [h1] at h; cases h
      | some x =>
        obtain ⟨f, l1⟩ := x
        rw [h1] at h
        cases h
        rw [go_dashes, if_neg hf, h1]
        exact ⟨rfl, rfl, by rw [more_firstA h1]; simp [more]⟩

theorem go_finish (s : State) (l : List (Str × Kind)) (hm : more l = false) : go s l = finish s l := by
  unfold finish
  cases h : positionals s l with
  | some x =>
    obtain ⟨s', l'⟩ := x
    obtain ⟨h1, h2, h3⟩ := go_positionals h
    rw [h1, go_rest h2 (h3.trans hm)]
    rfl
  | none =>
    by_cases hf : s.file.isSome = true
    · rw [go_rest hf hm]; rfl
    · simp only [Option.getD_none]
      match l with
      | [] =>
        rw [go_nil]
        simp only [ne_eq, not_true_eq_false, or_false]
        split
        · rfl
        · cases s.file <;> rfl
      | (w, .O t) :: l => simp [more] at hm
      | (w, .A) :: l => rw [positionals_arg w l hf] at h; cases h
      | (w, .dashes) :: l =>
        rw [positionals_dashes w l hf] at h
        rw [if_pos (Or.inr (by simp)), go_dashes, if_neg hf]
        cases h1 : firstA l with
        | some x => rw [h1] at h; cases h
        | none => exact go_extras rfl (by simpa [more] using hm)

theorem go_skip {s : State} {l : List (Str × Kind)} (h : positionals s l = none) :
    go s l = go { s with extras := s.extras || decide ((skip l).length < l.length) } (skip l) ∨
      ¬ s.file.isSome = true ∧ ∃ w l', l = (w, .dashes) :: l' ∧ firstA l' = none := by
  by_cases hf : s.file.isSome = true
  · left
    clear h
    induction l generalizing s with
    | nil => simp [skip]
    | cons x l ih =>
      obtain ⟨w, k⟩ := x
      have hl := length_skip l
      cases k with
      | O t => simp [skip]
      | A =>
        have : (skip l).length < l.length + 1 := by omega
        rw [go_arg, if_pos hf, ih (by simpa using hf)]
        show _ = go { s with extras := s.extras || decide ((skip l).length < l.length + 1) } (skip l)
        rw [decide_eq_true this]
        simp
      | dashes =>
        have : (skip l).length < l.length + 1 := by omega
        rw [go_dashes, if_pos hf, ih (by simpa using hf)]
        show _ = go { s with extras := s.extras || decide ((skip l).length < l.length + 1) } (skip l)
        rw [decide_eq_true this]
        simp
  · match l with
    | [] => left; simp [skip]
    | (w, .O t) :: l => left; simp [skip]
    | (w, .A) :: l => rw [positionals_arg w l hf] at h; cases h
    | (w, .dashes) :: l =>
      right
      rw [positionals_dashes w l hf] at h
      refine ⟨hf, w, l, rfl, ?_⟩
      cases h1 : firstA l with
      | none => rfl
      | some x => rw [h1] at h; cases h

/-- Behind the dashes there are only arguments. -/
def Tidy : List (Str × Kind) → Prop
  | [] => True
  | (_, .dashes) :: l => more l = false
  | (_, .A) :: l => Tidy l
  | (_, .O _) :: l => Tidy l

theorem tidy_of_more {l : List (Str × Kind)} (h : more l = false) : Tidy l := by
  induction l with
  | nil => trivial
  | cons x l ih =>
    obtain ⟨w, _ | _ | t⟩ := x
    · exact ih (by simpa [more] using h)
    · show more l = false
      simpa [more] using h
    · simp [more] at h

theorem tidy_tail {x : Str × Kind} {l : List (Str × Kind)} (h : Tidy (x :: l)) : Tidy l := by
  obtain ⟨w, _ | _ | t⟩ := x
  · exact h
  · exact tidy_of_more h
  · exact h

theorem tidy_skip {l : List (Str × Kind)} (h : Tidy l) : Tidy (skip l) := by
  induction l with
  | nil => exact h
  | cons x l ih =>
    obtain ⟨w, _ | _ | t⟩ := x
    · exact ih (tidy_tail h)
    · exact ih (tidy_tail h)
    · exact h

theorem tidy_positionals {s s' : State} {l l' : List (Str × Kind)} (h : positionals s l = some (s', l')) (ht : Tidy l) : Tidy l' := by
  by_cases hf : s.file.isSome = true
  · rw [positionals_some l hf] at h; cases h
  · match l with
    | [] => unfold positionals at h; rw [if_neg hf] at h; cases h
    | (w, .O t) :: l => rw [positionals_opt] at h; cases h
    | (w, .A) :: l =>
      rw [positionals_arg w l hf] at h
      cases h
      have ht := tidy_tail ht
      match l with
      | [] => exact ht
      | (_, .dashes) :: l => exact tidy_tail ht
      | (_, .A) :: l => exact ht
      | (_, .O _) :: l => exact ht
    | (w, .dashes) :: l =>
      rw [positionals_dashes w l hf] at h
      cases h1 : firstA l with
      | none => rw [h1] at h; cases h
      | some x =>
        obtain ⟨f, l1⟩ := x
        rw [h1] at h
        cases h
        exact tidy_of_more ((more_firstA h1).trans ht)

theorem tidy_actions {t : Taken} {l l' : List (Str × Kind)} {acts : List (Act × Option Str)} (h : actions t l = some (acts, l'))
    (ht : Tidy l) : Tidy l' := by
  unfold actions at h
  repeat' split at h
  all_goals first | cases h
  all_goals exact ht

theorem tidy_optional {s s' : State} {t : Tuple} {l l' : List (Str × Kind)} (h : optional s t l = .ok (s', l')) (ht : Tidy l) :
    Tidy l' := by
  unfold optional at h
  split at h
  · cases h; exact ht
  · split at h
    · cases h
    · split at h
      · cases h
      · rename_i ha
        cases takeAll_ok h
        exact tidy_actions ha ht

theorem more_skip {l : List (Str × Kind)} (h : more l = true) : ∃ w t l', skip l = (w, .O t) :: l' := by
  induction l with
  | nil => simp [more] at h
  | cons x l ih =>
    obtain ⟨w, _ | _ | t⟩ := x
    · exact ih (by simpa [more] using h)
    · exact ih (by simpa [more] using h)
    · exact ⟨w, t, l, rfl⟩

theorem loop_go : ∀ (n : Nat) (s : State) (l : List (Str × Kind)), l.length ≤ n → Tidy l → loop s l = go s l := by
  intro n
  induction n with
  | zero =>
    intro s l hl _
    obtain rfl : l = [] := List.length_eq_zero_iff.mp (by omega)
    rw [loop, if_neg (by simp [more]), go_finish _ _ (by simp [more])]
  | succ n ih =>
    intro s l hl ht
    rw [loop]
    by_cases hm : more l = true
    · rw [if_pos hm]
      split
      · rename_i s' l' h
        have := length_positionals h
        rw [ih s' l' (by omega) (tidy_positionals h ht), (go_positionals h).1]
      · rename_i h
        have hg := (go_skip h).resolve_right (by
          rintro ⟨_, w, l', rfl, _⟩
          have : more l' = false := ht
          simp [more] at hm
          simp [more] at this
          obtain ⟨a, b, h1, h2⟩ := hm
          have := this a b h1
          split at h2
          · simp at this
          · exact absurd h2 (by simp))
        obtain ⟨w, t, l', hk⟩ := more_skip hm
        have hl' := length_skip l
        rw [hk] at hl'
        simp only [List.length_cons] at hl'
        rw [hg, hk]
        split
        · rename_i heq
          cases heq
          rw [go_optional]
          simp only [List.length_cons]
          split
          · rename_i h2
            rw [h2]
            rfl
          · rename_i h2
            rw [h2]
            show _ = go _ _
            have := length_optional h2
            exact ih _ _ (by omega) (tidy_optional h2 (tidy_tail (by rw [← hk]; exact tidy_skip ht)))
        · rename_i hx
          exact absurd rfl (hx _ _ _)
    · rw [if_neg hm, go_finish _ _ (by simpa using hm)]

theorem tidy_pattern {digit : Char → Bool} {argv : List Str} {l : List (Str × Kind)} (h : pattern digit argv = some l) : Tidy l := by
  induction argv generalizing l with
  | nil => cases h; trivial
  | cons w ws ih =>
    rw [pattern] at h
    split at h
    · cases h
      show more _ = false
      simp [more]
    · cases h1 : parseOptional digit w with
      | none => simp [h1] at h
      | some t =>
        cases h2 : pattern digit ws with
        | none => simp [h1, h2] at h
        | some l' =>
          simp [h1, h2] at h
          subst h
          cases t
          · exact (ih h2 : Tidy l')
          · exact (ih h2 : Tidy l')

theorem parseArgs_go (digit : Char → Bool) (argv : List Str) : parseArgs digit argv = match pattern digit argv with
    | none => .usage
    | some l => go {} l := by
  unfold parseArgs
  cases h : pattern digit argv with
  | none => rfl
  | some l => exact loop_go _ _ _ (Nat.le_refl _) (tidy_pattern h)

end Verif.ArgParse
