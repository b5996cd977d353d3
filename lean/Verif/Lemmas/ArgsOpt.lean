import Verif.Lemmas.ArgsWords

/-
Lemmas: the argument parser reads options as the specification does.
-/

namespace Verif.ArgParse

open Spec.CommandLine

def Taken.settings (T : Taken) : List Setting :=
  T.acts.map settingOf ++ match T.last with
    | some a => if a.takesArg then [] else [settingOf (a, none)]
    | none => []

def Taken.tail (T : Taken) : Tail :=
  if T.extra then .unknown else match T.last with
    | some a => if a.takesArg then .next else .done
    | none => .done

/-- Another option is put before. -/
def Taken.after (a : Act) (T : Taken) : Taken := { T with acts := (a, none) :: T.acts }

theorem short_arg (a : Act) (h : a.takesArg = true) (x : Char) (r : Str) :
    short a (x :: r) = some ⟨[(a, some (if x = '=' then r else x :: r))], false, none⟩ := by
  by_cases hx : x = '='
  · subst hx
    rw [short, explicit.eq_def, if_pos h, if_pos rfl]
  · rw [short, explicit.eq_def, if_pos h, if_neg hx]
    · simp
    · intro v hv; cases hv; exact hx rfl

theorem short_equals (a : Act) (h : a.takesArg = false) (v : Str) : short a ('=' :: v) = none := by
  rw [short, explicit.eq_def, if_neg (by simp [h])]
  cases v <;> simp

theorem short_flag (a : Act) (h : a.takesArg = false) (x : Char) (r : Str) (hx : x ≠ '=') :
    short a (x :: r) = if x = '-' then none else match OPTIONS.lookup ['-', x] with
      | none => some ⟨[(a, none)], true, none⟩
      | some b => (short b r).map (Taken.after a) := by
  rw [short, explicit, if_neg (by simp [h])]
  · simp only [Bool.false_eq_true, false_or]
    split
    · rfl
    · cases OPTIONS.lookup ['-', x] with
      | none => rfl
      | some b =>
        simp only
        match r with
        | [] => rfl
        | c :: r =>
          by_cases hc : c = '='
          · subst hc
            rw [short]
            simp
            rfl
          · rw [short]
            · simp [hc]
              rfl
            · simp
            · intro v hv; cases hv; exact hc rfl
  · simp
  · intro v hv; cases hv; exact hx rfl

theorem settings_after (a : Act) (T : Taken) : (T.after a).settings = settingOf (a, none) :: T.settings := by
  simp [Taken.settings, Taken.after]

theorem tail_after (a : Act) (T : Taken) : (T.after a).tail = T.tail := rfl

theorem cluster_sound {a : Act} {r : Str} {T : Taken} (h : short a r = some T) : Cluster (a.letter :: r) T.settings T.tail := by
  induction r generalizing a T with
  | nil =>
    cases h
    cases ha : a.takesArg with
    | true =>
      have : a = .codepage := by revert ha; cases a <;> decide
      subst this
      exact .next
    | false =>
      have := flag_of_act a ha none
      simp only [Taken.settings, Taken.tail, ha]
      exact .flag this
  | cons x r ih =>
    cases ha : a.takesArg with
    | true =>
      have : a = .codepage := by revert ha; cases a <;> decide
      subst this
      rw [short_arg _ ha] at h
      cases h
      by_cases hx : x = '='
      · subst hx
        exact .equals
      · rw [if_neg hx]
        exact .value hx
    | false =>
      have hf := flag_of_act a ha none
      by_cases hx : x = '='
      · subst hx
        rw [short_equals a ha] at h
        cases h
      · rw [short_flag a ha x r hx] at h
        split at h
        · cases h
        · rename_i hx'
          by_cases hl : x ∈ letters
          · obtain ⟨b, rfl⟩ := mem_letters.mp hl
            rw [lookup_letter] at h
            simp only [Option.map_eq_some_iff] at h
            obtain ⟨T', h', rfl⟩ := h
            rw [settings_after, tail_after]
            exact .more hf (ih h')
          · rw [lookup_char hl] at h
            cases h
            exact .unknown hf hl hx' hx

theorem cluster_complete {w : Str} {ss : List Setting} {t : Tail} (h : Cluster w ss t) :
    ∃ (a : Act) (r : Str) (T : Taken), w = a.letter :: r ∧ short a r = some T ∧ T.settings = ss ∧ T.tail = t := by
  induction h with
  | flag hf =>
    obtain ⟨a, ha, rfl, rfl, h⟩ := act_of_flag hf
    exact ⟨a, [], _, rfl, rfl, by simp [Taken.settings, ha, h], by simp [Taken.tail, ha]⟩
  | more hf _ ih =>
    obtain ⟨a, ha, rfl, rfl, h⟩ := act_of_flag hf
    obtain ⟨b, r, T, rfl, h1, h2, h3⟩ := ih
    refine ⟨a, _, T.after a, rfl, ?_, by rw [settings_after, h, h2], by rw [tail_after, h3]⟩
    rw [short_flag a ha _ _ (by cases b <;> decide), if_neg (by cases b <;> decide), lookup_letter]
    simp only
    rw [h1]
    rfl
  | unknown hf h1 h2 h3 =>
    obtain ⟨a, ha, rfl, rfl, h⟩ := act_of_flag hf
    refine ⟨a, _, ⟨[(a, none)], true, none⟩, rfl, ?_, by simp [Taken.settings, h], by simp [Taken.tail]⟩
    rw [short_flag a ha _ _ h3, if_neg h2, lookup_char h1]
  | next => exact ⟨.codepage, [], _, rfl, rfl, rfl, rfl⟩
  | value hx => exact ⟨.codepage, _, _, rfl, short_arg _ rfl _ _, by simp [Taken.settings, settingOf, hx], rfl⟩
  | equals => exact ⟨.codepage, _, _, rfl, short_arg _ rfl _ _, rfl, rfl⟩

/-! ### Taking the actions -/

/-- What a setting does to the arguments. -/
def applyOne (a : Args) : Setting → Args
  | .target => { a with target := true }
  | .json => { a with json := true }
  | .all => { a with print_all := true }
  | .codepage v => { a with cp := String.ofList v }
  | .help => a

def apply (a : Args) (ss : List Setting) : Args := ss.foldl applyOne a

open Classical in
/-- The parse goes on after an option, or ends with the help. -/
noncomputable def follow (s : State) (ss : List Setting) (k : Bool) (l : List (Str × Kind)) :
    Except Outcome (State × List (Str × Kind)) :=
  if Setting.help ∈ ss then .error .help else .ok ({ s with args := apply s.args ss, extras := s.extras || !k }, l)

theorem take_eq (s : State) (acts : List (Act × Option Str)) :
    (Setting.help ∈ acts.map settingOf → s.take acts = none) ∧
    (Setting.help ∉ acts.map settingOf → s.take acts = some { s with args := apply s.args (acts.map settingOf) }) := by
  induction acts generalizing s with
  | nil => simp [State.take, apply]
  | cons x acts ih =>
    obtain ⟨a, v⟩ := x
    cases a
    · simp [State.take, settingOf]
    all_goals
      simp only [State.take, settingOf, List.map_cons, List.mem_cons, reduceCtorEq, false_or]
      exact ih _

theorem take_follow (s : State) (acts : List (Act × Option Str)) (e : Bool) (l : List (Str × Kind)) :
    State.takeAll { s with extras := s.extras || e } acts l = follow s (acts.map settingOf) (!e) l := by
  unfold follow State.takeAll
  obtain ⟨h1, h2⟩ := take_eq { s with extras := s.extras || e } acts
  split_ifs with h
  · rw [h1 h]
  · rw [h2 h]
    simp

theorem optional_none {s : State} {t : Tuple} {l : List (Str × Kind)} {a : Act} (h1 : t.act = some a)
    (h2 : takenOf a t = none) : optional s t l = .error .usage := by
  unfold optional
  rw [h1]
  simp only
  rw [h2]

theorem optional_done {s : State} {t : Tuple} {l : List (Str × Kind)} {a : Act} {T : Taken} (h1 : t.act = some a)
    (h2 : takenOf a t = some T) (h3 : T.tail = .done) : optional s t l = follow s T.settings true l := by
  obtain ⟨acts, extra, last⟩ := T
  unfold optional
  rw [h1]
  simp only
  rw [h2]
  simp only
  cases extra with
  | true => cases h3
  | false =>
    cases last with
    | none => exact (take_follow s acts false l).trans (by simp [Taken.settings])
    | some b =>
      cases hb : b.takesArg with
      | true => simp [Taken.tail, hb] at h3
      | false =>
        unfold actions
        simp only [hb]
        exact (take_follow s _ false l).trans (by simp [Taken.settings, hb])

theorem optional_unknown {s : State} {t : Tuple} {l : List (Str × Kind)} {a : Act} {T : Taken} (h1 : t.act = some a)
    (h2 : takenOf a t = some T) (h3 : T.extra = true) (h4 : T.last = none) : optional s t l = follow s T.settings false l := by
  obtain ⟨acts, extra, last⟩ := T
  unfold optional
  rw [h1]
  simp only
  rw [h2]
  simp only
  cases h3
  cases h4
  exact (take_follow s acts true l).trans (by simp [Taken.settings])

theorem optional_next {s : State} {t : Tuple} {l : List (Str × Kind)} {a : Act} {T : Taken} (h1 : t.act = some a)
    (h2 : takenOf a t = some T) (h3 : T.tail = .next) :
    (∀ v l', l = (v, .A) :: l' → optional s t l = follow s (T.settings ++ [.codepage v]) true l') ∧
    ((∀ v l', l ≠ (v, .A) :: l') → optional s t l = .error .usage) := by
  obtain ⟨acts, extra, last⟩ := T
  unfold optional
  rw [h1]
  simp only
  rw [h2]
  simp only
  cases extra with
  | true => cases h3
  | false =>
    cases last with
    | none => cases h3
    | some b =>
      cases hb : b.takesArg with
      | false => simp [Taken.tail, hb] at h3
      | true =>
        obtain rfl : b = .codepage := by revert hb; cases b <;> decide
        unfold actions
        simp only [hb, if_true]
        constructor
        · rintro v l' rfl
          exact (take_follow s _ false l').trans (by simp [Taken.settings, hb, settingOf])
        · intro h
          match l with
          | [] => rfl
          | (v, .A) :: l' => exact absurd rfl (h _ _)
          | (v, .dashes) :: l' => rfl
          | (v, .O _) :: l' => rfl

theorem last_of_extra {a : Act} {r : Str} {T : Taken} (h : short a r = some T) (he : T.extra = true) : T.last = none := by
  induction r generalizing a T with
  | nil => cases h; cases he
  | cons x r ih =>
    cases ha : a.takesArg with
    | true =>
      rw [short_arg _ ha] at h
      cases h
      rfl
    | false =>
      by_cases hx : x = '='
      · subst hx
        rw [short_equals a ha] at h
        cases h
      · rw [short_flag a ha x r hx] at h
        split at h
        · cases h
        · split at h
          · cases h; rfl
          · simp only [Option.map_eq_some_iff] at h
            obtain ⟨T', h', rfl⟩ := h
            exact (ih h' he : T'.last = none)

/-! ### Options of the specification -/

/-- The word, with the argument behind it if it takes one, is an option. -/
def Reads (digit : Char → Bool) (w : Str) (l : List (Str × Kind)) (ss : List Setting) (k : Bool) (l' : List (Str × Kind)) : Prop :=
  (Opt digit [w] ss k ∧ l' = l) ∨ ∃ v, l = (v, .A) :: l' ∧ Opt digit [w, v] ss k

theorem abbreviates_stem {p : Str} {a : Act} (h : Abbreviates p a.name) : '=' ∉ p := by
  intro hm
  have := h.2.subset hm
  revert this
  cases a <;> decide

theorem explicit_arg (a : Act) (h : a.takesArg = true) (d s : Bool) (v : Str) :
    explicit a d s v = some ⟨[(a, some v)], false, none⟩ := by
  rw [explicit.eq_def, if_pos h]

theorem explicit_double (a : Act) (h : a.takesArg = false) (s : Bool) (v : Str) : explicit a true s v = none := by
  rw [explicit.eq_def, if_neg (by simp [h])]

theorem codepage_of {a : Act} (h : a.takesArg = true) : a = .codepage := by revert h; cases a <;> decide

theorem unknown_word {digit : Char → Bool} (hn : digit '\n' = false) (hd : digit '.' = false) {w : Str} (h1 : ¬ Named w)
    (h2 : ¬ Argument digit w) : parseOptional digit w = some (some ⟨none, w, false, none⟩) := by
  cases word hn hd w with
  | arg h => exact absurd h h2
  | ambiguous => exact absurd (.long (name := "all".toList) (by decide) (by simp [stem])) h1
  | dashes => exact absurd (.long (name := "all".toList) (by decide) (by simp [stem])) h1
  | short => exact absurd (.short (mem_letters.mpr ⟨_, rfl⟩)) h1
  | long _ h => exact absurd (.long (mem_names.mpr ⟨_, rfl⟩) h) h1
  | unknown _ _ _ h => exact h

theorem optional_complete {digit : Char → Bool} (hn : digit '\n' = false) (hd : digit '.' = false) {w : Str} {t : Tuple}
    (ht : parseOptional digit w = some (some t)) {l l' : List (Str × Kind)} {ss : List Setting} {k : Bool}
    (h : Reads digit w l ss k l') (s : State) : optional s t l = follow s ss k l' := by
  rcases h with ⟨h, rfl⟩ | ⟨v, rfl, h⟩
  · cases h with
    | long hf hp =>
      obtain ⟨a, ha, rfl, rfl, hs⟩ := act_of_flag hf
      have hne := abbreviates_stem hp
      obtain ⟨t', h1, h2, h3⟩ := long_word digit _ a (by rw [stem_self hne]; exact hp.1) (by rw [stem_self hne]; exact hp.2)
      cases ht.symm.trans h1
      rw [partition_none hne] at h3
      rw [optional_done h2 h3 (by simp [Taken.tail, ha])]
      simp [Taken.settings, ha, hs]
    | longEquals hp =>
      have hne := abbreviates_stem (a := .codepage) hp
      rename_i p v
      obtain ⟨t', h1, h2, h3⟩ := long_word digit (p ++ '=' :: v) .codepage (by rw [stem_append hne]; exact hp.1)
        (by rw [stem_append hne]; exact hp.2)
      cases ht.symm.trans h1
      rw [partition_some hne] at h3
      rw [optional_done h2 (h3.trans (explicit_arg _ rfl _ _ _)) rfl]
      rfl
    | short hc =>
      obtain ⟨a, r, T, rfl, h1, rfl, h3⟩ := cluster_complete hc
      obtain ⟨t', h4, h5, h6⟩ := short_word digit a r
      cases ht.symm.trans h4
      exact optional_done h5 (h6.trans h1) h3
    | shortUnknown hc =>
      obtain ⟨a, r, T, rfl, h1, rfl, h3⟩ := cluster_complete hc
      obtain ⟨t', h4, h5, h6⟩ := short_word digit a r
      cases ht.symm.trans h4
      have he : T.extra = true := by
        by_contra he
        simp only [Taken.tail, if_neg he] at h3
        repeat' split at h3
        all_goals cases h3
      exact optional_unknown h5 (h6.trans h1) he (last_of_extra h1 he)
    | unknown h1 h2 h3 =>
      rename_i r
      have key : parseOptional digit ('-' :: r) = some (some ⟨none, '-' :: r, false, none⟩) := unknown_word hn hd h2 h3
      cases ht.symm.trans key
      simp [optional, follow, apply]
  · cases h with
    | longNext hp hv =>
      have hne := abbreviates_stem (a := .codepage) hp
      obtain ⟨t', h1, h2, h3⟩ := long_word digit _ .codepage (by rw [stem_self hne]; exact hp.1) (by rw [stem_self hne]; exact hp.2)
      cases ht.symm.trans h1
      rw [partition_none hne] at h3
      exact (optional_next h2 h3 rfl).1 v l' rfl
    | shortNext hc hv =>
      obtain ⟨a, r, T, rfl, h1, rfl, h3⟩ := cluster_complete hc
      obtain ⟨t', h4, h5, h6⟩ := short_word digit a r
      cases ht.symm.trans h4
      exact (optional_next h5 (h6.trans h1) h3).1 v l' rfl

theorem optional_sound {digit : Char → Bool} (hn : digit '\n' = false) (hd : digit '.' = false) {w : Str} {t : Tuple}
    (ht : parseOptional digit w = some (some t)) (hw : w ≠ ['-', '-']) {l : List (Str × Kind)}
    (hl : ∀ v l', l = (v, .A) :: l' → Argument digit v) {s : State} (h : optional s t l ≠ .error .usage) :
    ∃ ss k l', Reads digit w l ss k l' := by
  cases word hn hd w with
  | arg h1 h2 => rw [h2] at ht; cases ht
  | ambiguous => rw [ambiguous_word] at ht; cases ht
  | dashes => exact absurd rfl hw
  | unknown h1 h2 h3 => exact ⟨[], false, l, Or.inl ⟨.unknown h1 h2 h3, rfl⟩⟩
  | short =>
    rename_i a r
    obtain ⟨t', h4, h5, h6⟩ := short_word digit a r
    cases ht.symm.trans h4
    cases hs : short a r with
    | none => exact absurd (optional_none h5 (h6.trans hs)) h
    | some T =>
      have hc := cluster_sound hs
      cases hT : T.tail with
      | done => exact ⟨_, _, _, Or.inl ⟨.short (hT ▸ hc), rfl⟩⟩
      | unknown => exact ⟨_, _, _, Or.inl ⟨.shortUnknown (hT ▸ hc), rfl⟩⟩
      | next =>
        by_cases hv : ∃ v l', l = (v, .A) :: l'
        · obtain ⟨v, l', rfl⟩ := hv
          exact ⟨_, _, _, Or.inr ⟨v, rfl, .shortNext (hT ▸ hc) (hl v l' rfl)⟩⟩
        · exact absurd ((optional_next h5 (h6.trans hs) hT).2 fun v l' h' => hv ⟨v, l', h'⟩) h
  | long h1 h2 =>
    rename_i a p
    obtain ⟨t', h4, h5, h6⟩ := long_word digit p a h1 h2
    cases ht.symm.trans h4
    rcases stem_cases p with ⟨hp, hp'⟩ | ⟨v, hp, hp'⟩
    · rw [hp'] at h1 h2
      rw [partition_none hp] at h6
      cases ha : a.takesArg with
      | false => exact ⟨_, _, _, Or.inl ⟨.long (flag_of_act a ha none) ⟨h1, h2⟩, rfl⟩⟩
      | true =>
        obtain rfl := codepage_of ha
        by_cases hv : ∃ v l', l = (v, .A) :: l'
        · obtain ⟨v, l', rfl⟩ := hv
          exact ⟨_, _, _, Or.inr ⟨v, rfl, .longNext ⟨h1, h2⟩ (hl v l' rfl)⟩⟩
        · exact absurd ((optional_next h5 h6 rfl).2 fun v l' h' => hv ⟨v, l', h'⟩) h
    · have hpart : (partition p).2 = some v := by rw [hp, partition_some hp']
      rw [hpart] at h6
      cases ha : a.takesArg with
      | false => exact absurd (optional_none h5 (h6.trans (explicit_double a ha _ _))) h
      | true =>
        obtain rfl := codepage_of ha
        refine ⟨[.codepage v], true, l, Or.inl ⟨?_, rfl⟩⟩
        rw [hp]
        exact .longEquals ⟨h1, h2⟩

end Verif.ArgParse
