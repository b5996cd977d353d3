import Verif.Py.CmdLine
import Verif.Spec.Command

namespace Verif

open Spec

namespace CmdLine

theorem cons'_nil (r : Str × Str) : cons' [] r = r := rfl

theorem cons'_cons' (a b : Str) (r : Str × Str) : cons' a (cons' b r) = cons' (a ++ b) r := by
  simp [cons', List.append_assoc]

theorem takeArg_slashes (twice quoted : Bool) (n m : Nat) (X : Str) :
    takeArg twice quoted n (List.replicate m '\\' ++ X) = takeArg twice quoted (n + m) X := by
  induction m generalizing n with
  | zero => rfl
  | succ m ih =>
    rw [List.replicate_succ, List.cons_append, takeArg, if_pos rfl, ih]
    congr 1; omega

theorem takeArg_quote (twice quoted : Bool) (n : Nat) (X : Str) :
    takeArg twice quoted (2 * n + 1) ('"' :: X) = cons' (List.replicate n '\\' ++ ['"']) (takeArg twice quoted 0 X) := by
  rw [takeArg, if_neg (by decide), if_pos rfl, if_pos (by omega)]
  congr 3; omega

theorem takeArg_close (twice quoted : Bool) (n : Nat) (X : Str) (h : ∀ cs, X ≠ '"' :: cs) :
    takeArg twice quoted (2 * n) ('"' :: X) = cons' (List.replicate n '\\') (takeArg twice (!quoted) 0 X) := by
  rw [takeArg, if_neg (by decide), if_pos rfl, if_neg (by omega)]
  have : 2 * n / 2 = n := by omega
  rw [if_neg, this]
  simp only [Bool.and_eq_true, decide_eq_true_eq, List.head?_eq_some_iff]
  rintro ⟨-, cs, rfl⟩
  exact h _ rfl

theorem takeArg_open (twice : Bool) (X : Str) :
    takeArg twice false 0 ('"' :: X) = takeArg twice true 0 X := by
  rw [takeArg, if_neg (by decide), if_pos rfl, if_neg (by omega), if_neg (by simp)]
  rfl

theorem takeArg_other (twice quoted : Bool) (n : Nat) (c : Char) (X : Str) (h1 : c ≠ '\\') (h2 : c ≠ '"')
    (h3 : isBlank c = true → quoted = true) :
    takeArg twice quoted n (c :: X) = cons' (List.replicate n '\\' ++ [c]) (takeArg twice quoted 0 X) := by
  rw [takeArg, if_neg h1, if_neg h2, if_neg]
  rw [Bool.and_eq_true]
  rintro ⟨h4, h5⟩
  rw [h3 h4] at h5
  simp at h5

/-- What the loop emits is read back as the characters it got, apart from the backslashes it still holds. -/
theorem takeArg_loop (twice quoted : Bool) (s : Str) (n : Nat) (hs : ∀ c ∈ s, isBlank c = true → quoted = true) :
    ∃ core, List.replicate n '\\' ++ s = core ++ List.replicate (loop s n).2 '\\' ∧
      ∀ X, takeArg twice quoted 0 ((loop s n).1 ++ X) = cons' core (takeArg twice quoted 0 X) := by
  induction s generalizing n with
  | nil => exact ⟨[], by simp [loop], fun X => rfl⟩
  | cons c cs ih =>
    have ih := fun n => ih n fun c hc => hs c (List.mem_cons_of_mem _ hc)
    by_cases h1 : c = '\\'
    · subst h1
      obtain ⟨core, h2, h3⟩ := ih (n + 1)
      refine ⟨core, ?_, ?_⟩
      · rw [loop, if_pos rfl, ← h2]
        simp [List.replicate_succ']
      · rw [loop, if_pos rfl]; exact h3
    · obtain ⟨core, h2, h3⟩ := ih 0
      rw [List.replicate_zero, List.nil_append] at h2
      by_cases h4 : c = '"'
      · subst h4
        refine ⟨List.replicate n '\\' ++ '"' :: core, ?_, fun X => ?_⟩
        · rw [loop, if_neg h1, if_pos rfl]
          simp only [List.append_assoc, List.cons_append]
          rw [← h2]
        · rw [loop, if_neg h1, if_pos rfl]
          simp only [List.append_assoc, List.cons_append]
          rw [takeArg_slashes, takeArg, if_pos rfl, show 0 + n * 2 + 1 = 2 * n + 1 by omega, takeArg_quote, h3, cons'_cons']
          simp
      · refine ⟨List.replicate n '\\' ++ c :: core, ?_, fun X => ?_⟩
        · rw [loop, if_neg h1, if_neg h4]
          simp only [List.append_assoc, List.cons_append]
          rw [← h2]
        · rw [loop, if_neg h1, if_neg h4]
          simp only [List.append_assoc, List.cons_append]
          rw [takeArg_slashes, Nat.zero_add, takeArg_other _ _ _ _ _ h1 h4 (hs c List.mem_cons_self), h3, cons'_cons']
          simp

/-- Ends an argument. -/
def Ends (T : Str) : Prop := T = [] ∨ ∃ c cs, T = c :: cs ∧ isBlank c = true

theorem takeArg_ends (twice : Bool) (n : Nat) (T : Str) (h : Ends T) :
    takeArg twice false n T = (List.replicate n '\\', T) := by
  rcases h with rfl | ⟨c, cs, rfl, h⟩
  · rw [takeArg]
  · rw [takeArg, if_neg, if_neg, if_pos]
    · simpa using h
    · rintro rfl; exact absurd h (by decide)
    · rintro rfl; exact absurd h (by decide)

theorem needquote_iff (s : Str) : needquote s = true ↔ s = [] ∨ ∃ c ∈ s, isBlank c = true := by
  simp only [needquote, Bool.or_eq_true, List.contains_iff_mem, List.isEmpty_iff, isBlank, decide_eq_true_eq]
  constructor
  · rintro ((h | h) | h)
    · exact .inr ⟨_, h, .inl rfl⟩
    · exact .inr ⟨_, h, .inr rfl⟩
    · exact .inl h
  · rintro (h | ⟨c, h, rfl | rfl⟩)
    · exact .inr h
    · exact .inl (.inl h)
    · exact .inl (.inr h)

theorem takeArg_list2cmdline (twice : Bool) (s T : Str) (h : Ends T) :
    takeArg twice false 0 (list2cmdline s ++ T) = (s, T) := by
  unfold list2cmdline
  by_cases hq : needquote s = true
  · rw [if_pos hq]
    obtain ⟨core, h1, h2⟩ := takeArg_loop twice true s 0 fun _ _ _ => rfl
    rw [List.replicate_zero, List.nil_append] at h1
    rw [List.cons_append, takeArg_open]
    simp only [List.append_assoc]
    rw [h2, takeArg_slashes, takeArg_slashes, List.singleton_append,
      show 0 + (loop s 0).2 + (loop s 0).2 = 2 * (loop s 0).2 by omega, takeArg_close]
    · rw [Bool.not_true, takeArg_ends _ _ _ h]
      rw [cons'_cons', cons', ← h1]; simp
    · rintro cs rfl
      rcases h with h | ⟨c, cs', h, hb⟩
      · exact absurd h (by simp)
      · rw [List.cons.injEq] at h
        rw [← h.1] at hb
        exact absurd hb (by decide)
  · rw [if_neg hq]
    have hq' := mt (needquote_iff s).2 hq
    obtain ⟨core, h1, h2⟩ := takeArg_loop twice false s 0 fun c hc hb => absurd (.inr ⟨c, hc, hb⟩) hq'
    rw [List.replicate_zero, List.nil_append] at h1
    rw [List.append_assoc, h2, takeArg_slashes, takeArg_ends _ _ _ h]
    rw [cons', Nat.zero_add, ← h1]

theorem list2cmdline_ne_nil (s : Str) : list2cmdline s ≠ [] := by
  intro h
  have := takeArg_list2cmdline false s [] (.inl rfl)
  rw [h, List.append_nil, takeArg] at this
  obtain rfl : [] = s := by simpa using this
  exact absurd h (by decide)

/-- A quoted argument does not start with white space. -/
theorem list2cmdline_head (s T : Str) (h : Ends T) :
    ∃ c cs, list2cmdline s ++ T = c :: cs ∧ isBlank c = false := by
  have hk := takeArg_list2cmdline false s T h
  rcases hl : list2cmdline s with _ | ⟨c, cs⟩
  · exact absurd hl (list2cmdline_ne_nil s)
  · refine ⟨c, cs ++ T, rfl, ?_⟩
    cases hb : isBlank c with
    | false => rfl
    | true =>
      rw [hl, List.cons_append, takeArg_ends _ _ _ (.inr ⟨c, cs ++ T, rfl, hb⟩)] at hk
      have := congrArg List.length (Prod.mk.inj hk).2
      simp at this
      omega

/-! ### program names -/

theorem loop_plain (s : Str) (n : Nat) (h : '"' ∉ s) :
    (loop s n).1 ++ List.replicate (loop s n).2 '\\' = List.replicate n '\\' ++ s := by
  induction s generalizing n with
  | nil => simp [loop]
  | cons c cs ih =>
    have ih := fun n => ih n fun hc => h (List.mem_cons_of_mem _ hc)
    by_cases h1 : c = '\\'
    · subst h1
      rw [loop, if_pos rfl, ih]
      simp [List.replicate_succ']
    · rw [loop, if_neg h1, if_neg (fun e : c = '"' => h (e ▸ List.mem_cons_self))]
      simp only [List.append_assoc, List.cons_append]
      rw [ih]
      rfl

theorem takeProgram_plain (quoted : Bool) (s X : Str) (h : '"' ∉ s) (hs : ∀ c ∈ s, isBlank c = true → quoted = true) :
    takeProgram quoted (s ++ X) = cons' s (takeProgram quoted X) := by
  induction s with
  | nil => rfl
  | cons c cs ih =>
    rw [List.cons_append, takeProgram, if_neg (fun e : c = '"' => h (e ▸ List.mem_cons_self)), if_neg,
      ih (fun hc => h (List.mem_cons_of_mem _ hc)) (fun c hc => hs c (List.mem_cons_of_mem _ hc)), cons'_cons']
    · rfl
    · rw [Bool.and_eq_true]
      rintro ⟨h4, h5⟩
      rw [hs c List.mem_cons_self h4] at h5
      simp at h5

theorem takeProgram_ends (T : Str) (h : Ends T) : takeProgram false T = ([], T) := by
  rcases h with rfl | ⟨c, cs, rfl, h⟩
  · rfl
  · rw [takeProgram, if_neg, if_pos]
    · simpa using h
    · rintro rfl; exact absurd h (by decide)

theorem takeProgram_list2cmdline (s T : Str) (h : Ends T) (hq : '"' ∉ s)
    (hb : (∃ c ∈ s, isBlank c = true) → s.getLast? ≠ some '\\') :
    takeProgram false (list2cmdline s ++ T) = (s, T) := by
  have hl := loop_plain s 0 hq
  rw [List.replicate_zero, List.nil_append] at hl
  unfold list2cmdline
  by_cases hn : needquote s = true
  · rw [if_pos hn]
    have h0 : (loop s 0).2 = 0 := by
      rcases hm : (loop s 0).2 with _ | m
      · rfl
      · exfalso
        rw [hm, List.replicate_succ', ← List.append_assoc] at hl
        have h1 : s.getLast? = some '\\' := by rw [← hl, List.getLast?_concat]
        rcases (needquote_iff s).1 hn with rfl | h2
        · simp at h1
        · exact hb h2 h1
    simp only [h0, List.replicate_zero, List.append_nil] at hl ⊢
    rw [hl, List.cons_append, takeProgram, if_pos rfl, List.append_assoc, Bool.not_false,
      takeProgram_plain true s _ hq (fun _ _ _ => rfl), List.singleton_append, takeProgram, if_pos rfl, Bool.not_true,
      takeProgram_ends _ h]
    simp [cons']
  · rw [if_neg hn]
    have hq' := mt (needquote_iff s).2 hn
    rw [hl, takeProgram_plain false s _ hq (fun c hc hb => absurd (.inr ⟨c, hc, hb⟩) hq'), takeProgram_ends _ h]
    simp [cons']

end CmdLine

end Verif
