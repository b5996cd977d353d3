import Verif.Spec.Calendar
import Verif.Lemmas.Bytes

namespace Verif

open Spec

theorem isLeap_iff (y : Nat) : isLeap y = decide (LeapYear y) := by
  rw [Bool.eq_iff_iff, decide_eq_true_iff]
  unfold isLeap LeapYear
  simp only [Bool.and_eq_true, Bool.or_eq_true, beq_iff_eq, bne_iff_ne]
  omega

theorem yearLength (y : Nat) : (monthLengths y).sum = if LeapYear y then 366 else 365 := by
  unfold monthLengths; split <;> rfl

theorem daysOfYears_eq (n : Nat) : daysOfYears n + n / 100 = 365 * n + n / 4 + n / 400 := by
  induction n with
  | zero => rfl
  | succ n ih =>
    rw [daysOfYears, yearLength]
    by_cases h : LeapYear (n + 1) <;> simp only [h, if_true, if_false] <;> unfold LeapYear at h <;> omega

theorem daysOfYears_mono {a b : Nat} (h : a ≤ b) : daysOfYears a ≤ daysOfYears b := by
  induction h with
  | refl => exact Nat.le_refl _
  | step _ ih => rw [daysOfYears]; omega

theorem daysInMonth_eq {y m : Nat} (h1 : 1 ≤ m) (h2 : m ≤ 12) :
    daysInMonth y m = (monthLengths y).getD (m - 1) 0 := by
  unfold daysInMonth monthLengths
  rw [isLeap_iff]
  have : m = 1 ∨ m = 2 ∨ m = 3 ∨ m = 4 ∨ m = 5 ∨ m = 6 ∨ m = 7 ∨ m = 8 ∨ m = 9 ∨ m = 10 ∨ m = 11 ∨ m = 12 := by
    omega
  rcases this with h | h | h | h | h | h | h | h | h | h | h | h <;> subst h <;> simp

theorem valid_iff (t : DateTime) : t.valid = true ↔ ValidDateTime t := by
  unfold DateTime.valid ValidDateTime
  simp only [Bool.and_eq_true, decide_eq_true_eq]
  constructor
  · rintro ⟨⟨⟨⟨⟨⟨⟨⟨⟨h1, h2⟩, h3⟩, h4⟩, h5⟩, h6⟩, h7⟩, h8⟩, h9⟩, h10⟩
    rw [daysInMonth_eq h3 h4] at h6
    exact ⟨⟨h1, h2⟩, ⟨h3, h4⟩, ⟨h5, h6⟩, by omega, by omega, by omega, by omega⟩
  · rintro ⟨⟨h1, h2⟩, ⟨h3, h4⟩, ⟨h5, h6⟩, h7, h8, h9, h10⟩
    rw [← daysInMonth_eq h3 h4] at h6
    exact ⟨⟨⟨⟨⟨⟨⟨⟨⟨h1, h2⟩, h3⟩, h4⟩, h5⟩, h6⟩, by omega⟩, by omega⟩, by omega⟩, by omega⟩

/-- `monthDay` inverts the day-of-year count. -/
theorem monthDay_spec (y n : Nat) (hn : n < (monthLengths y).sum) :
    1 ≤ (monthDay y n).1 ∧ (monthDay y n).1 ≤ 12 ∧ 1 ≤ (monthDay y n).2 ∧
      (monthDay y n).2 ≤ (monthLengths y).getD ((monthDay y n).1 - 1) 0 ∧
      ((monthLengths y).take ((monthDay y n).1 - 1)).sum + ((monthDay y n).2 - 1) = n := by
  rw [yearLength] at hn
  unfold monthDay
  rw [isLeap_iff]
  unfold monthLengths
  by_cases hl : LeapYear y
  · simp only [hl, decide_true, if_true] at hn ⊢
    by_cases h1 : n < 31 <;> simp only [h1, if_true, if_false]
    · simp; omega
    by_cases h2 : n < 59 + 1 <;> simp only [h2, if_true, if_false]
    · simp; omega
    by_cases h3 : n < 90 + 1 <;> simp only [h3, if_true, if_false]
    · simp; omega
    by_cases h4 : n < 120 + 1 <;> simp only [h4, if_true, if_false]
    · simp; omega
    by_cases h5 : n < 151 + 1 <;> simp only [h5, if_true, if_false]
    · simp; omega
    by_cases h6 : n < 181 + 1 <;> simp only [h6, if_true, if_false]
    · simp; omega
    by_cases h7 : n < 212 + 1 <;> simp only [h7, if_true, if_false]
    · simp; omega
    by_cases h8 : n < 243 + 1 <;> simp only [h8, if_true, if_false]
    · simp; omega
    by_cases h9 : n < 273 + 1 <;> simp only [h9, if_true, if_false]
    · simp; omega
    by_cases h10 : n < 304 + 1 <;> simp only [h10, if_true, if_false]
    · simp; omega
    by_cases h11 : n < 334 + 1 <;> simp only [h11, if_true, if_false]
    · simp; omega
    simp; omega
  · simp only [hl, decide_false, Bool.false_eq_true, if_false] at hn ⊢
    by_cases h1 : n < 31 <;> simp only [h1, if_true, if_false]
    · simp; omega
    by_cases h2 : n < 59 + 0 <;> simp only [h2, if_true, if_false]
    · simp; omega
    by_cases h3 : n < 90 + 0 <;> simp only [h3, if_true, if_false]
    · simp; omega
    by_cases h4 : n < 120 + 0 <;> simp only [h4, if_true, if_false]
    · simp; omega
    by_cases h5 : n < 151 + 0 <;> simp only [h5, if_true, if_false]
    · simp; omega
    by_cases h6 : n < 181 + 0 <;> simp only [h6, if_true, if_false]
    · simp; omega
    by_cases h7 : n < 212 + 0 <;> simp only [h7, if_true, if_false]
    · simp; omega
    by_cases h8 : n < 243 + 0 <;> simp only [h8, if_true, if_false]
    · simp; omega
    by_cases h9 : n < 273 + 0 <;> simp only [h9, if_true, if_false]
    · simp; omega
    by_cases h10 : n < 304 + 0 <;> simp only [h10, if_true, if_false]
    · simp; omega
    by_cases h11 : n < 334 + 0 <;> simp only [h11, if_true, if_false]
    · simp; omega
    simp; omega

/-- Mixed-radix decomposition of a day number. -/
theorem civil_digits (n : Nat) :
    ∃ a b c d r : Nat, b ≤ 3 ∧ c ≤ 24 ∧ d ≤ 3 ∧ n = 146097 * a + 36524 * b + 1461 * c + 365 * d + r ∧
      civilOfDay n = (400 * a + 100 * b + 4 * c + d + 1, monthDay (400 * a + 100 * b + 4 * c + d + 1) r) ∧
      (r < 365 ∨ (r = 365 ∧ d = 3 ∧ (c < 24 ∨ b = 3))) := by
  refine ⟨n / 146097, min 3 (n % 146097 / 36524), (n % 146097 - min 3 (n % 146097 / 36524) * 36524) / 1461,
    min 3 ((n % 146097 - min 3 (n % 146097 / 36524) * 36524) % 1461 / 365), _, ?_, ?_, ?_, ?_, rfl, ?_⟩
  all_goals omega

/-- The year part of `civilOfDay`. -/
theorem civil_year (n : Nat) :
    ∃ r, r < (monthLengths (civilOfDay n).1).sum ∧ 1 ≤ (civilOfDay n).1 ∧
      daysOfYears ((civilOfDay n).1 - 1) + r = n ∧ (civilOfDay n).2 = monthDay (civilOfDay n).1 r := by
  obtain ⟨a, b, c, d, r, hb, hc, hd, hn, he, hr⟩ := civil_digits n
  rw [he]
  refine ⟨r, ?_, by simp, ?_, rfl⟩
  · rw [yearLength]
    simp only
    by_cases h : LeapYear (400 * a + 100 * b + 4 * c + d + 1) <;> simp only [h, if_true, if_false] <;>
      unfold LeapYear at h <;> omega
  · simp only [Nat.add_sub_cancel]
    have := daysOfYears_eq (400 * a + 100 * b + 4 * c + d)
    rw [show (400 * a + 100 * b + 4 * c + d) / 4 = 100 * a + 25 * b + c by omega,
      show (400 * a + 100 * b + 4 * c + d) / 100 = 4 * a + b by omega,
      show (400 * a + 100 * b + 4 * c + d) / 400 = a by omega] at this
    omega

/-- `civilOfDay` gives a real date whose day number is the argument. -/
theorem civilOfDay_spec (n : Nat) :
    1 ≤ (civilOfDay n).1 ∧ 1 ≤ (civilOfDay n).2.1 ∧ (civilOfDay n).2.1 ≤ 12 ∧ 1 ≤ (civilOfDay n).2.2 ∧
      (civilOfDay n).2.2 ≤ (monthLengths (civilOfDay n).1).getD ((civilOfDay n).2.1 - 1) 0 ∧
      dayNumber (civilOfDay n).1 (civilOfDay n).2.1 (civilOfDay n).2.2 = n := by
  obtain ⟨r, h1, h2, h3, h4⟩ := civil_year n
  obtain ⟨m1, m2, m3, m4, m5⟩ := monthDay_spec _ r h1
  rw [← h4] at m1 m2 m3 m4 m5
  refine ⟨h2, m1, m2, m3, m4, ?_⟩
  unfold dayNumber
  omega

/-- Day of the year of a valid date. -/
theorem dayOfYear_lt {y m d : Nat} (h1 : 1 ≤ m) (h2 : m ≤ 12) (h3 : 1 ≤ d)
    (h4 : d ≤ (monthLengths y).getD (m - 1) 0) :
    ((monthLengths y).take (m - 1)).sum + (d - 1) < (monthLengths y).sum := by
  rw [yearLength]
  unfold monthLengths at *
  have : m = 1 ∨ m = 2 ∨ m = 3 ∨ m = 4 ∨ m = 5 ∨ m = 6 ∨ m = 7 ∨ m = 8 ∨ m = 9 ∨ m = 10 ∨ m = 11 ∨ m = 12 := by
    omega
  by_cases hl : LeapYear y <;> simp only [hl, if_true, if_false] at h4 ⊢ <;>
    rcases this with h | h | h | h | h | h | h | h | h | h | h | h <;> subst h <;> simp at h4 ⊢ <;> omega

theorem take_sum_succ (l : List Nat) (i : Nat) : (l.take (i + 1)).sum = (l.take i).sum + l.getD i 0 := by
  induction l generalizing i with
  | nil => simp
  | cons a l ih =>
    cases i with
    | zero => simp
    | succ i =>
      rw [List.take_succ_cons, List.take_succ_cons, List.sum_cons, List.sum_cons, ih, List.getD_cons_succ]; omega

theorem take_sum_mono (l : List Nat) {i j : Nat} (h : i ≤ j) : (l.take i).sum ≤ (l.take j).sum := by
  induction h with
  | refl => exact Nat.le_refl _
  | step _ ih => rw [take_sum_succ]; omega

/-- Within a year the date is determined by the day of the year. -/
theorem monthDay_inj {y m d m' d' : Nat} (h1 : 1 ≤ m) (h3 : 1 ≤ d)
    (h4 : d ≤ (monthLengths y).getD (m - 1) 0) (h1' : 1 ≤ m') (h3' : 1 ≤ d')
    (h4' : d' ≤ (monthLengths y).getD (m' - 1) 0)
    (h : ((monthLengths y).take (m - 1)).sum + (d - 1) = ((monthLengths y).take (m' - 1)).sum + (d' - 1)) :
    m = m' ∧ d = d' := by
  have e : m = m' := by
    by_contra hne
    rcases Nat.lt_or_gt_of_ne hne with hlt | hlt
    · have a1 := take_sum_succ (monthLengths y) (m - 1)
      have a2 := take_sum_mono (monthLengths y) (i := m - 1 + 1) (j := m' - 1) (by omega)
      omega
    · have a1 := take_sum_succ (monthLengths y) (m' - 1)
      have a2 := take_sum_mono (monthLengths y) (i := m' - 1 + 1) (j := m - 1) (by omega)
      omega
  subst e
  exact ⟨rfl, by omega⟩

theorem dayNumber_bounds {y m d : Nat} (h0 : 1 ≤ y) (h1 : 1 ≤ m) (h2 : m ≤ 12) (h3 : 1 ≤ d)
    (h4 : d ≤ (monthLengths y).getD (m - 1) 0) :
    daysOfYears (y - 1) ≤ dayNumber y m d ∧ dayNumber y m d < daysOfYears y := by
  have := dayOfYear_lt h1 h2 h3 h4
  have e : daysOfYears y = daysOfYears (y - 1) + (monthLengths y).sum := by
    conv => lhs; rw [show y = (y - 1) + 1 by omega, daysOfYears]
    rw [show y - 1 + 1 = y by omega]
  unfold dayNumber
  omega

theorem civilOfDay_dayNumber {y m d : Nat} (h0 : 1 ≤ y) (h1 : 1 ≤ m) (h2 : m ≤ 12) (h3 : 1 ≤ d)
    (h4 : d ≤ (monthLengths y).getD (m - 1) 0) : civilOfDay (dayNumber y m d) = (y, m, d) := by
  obtain ⟨a0, a1, a2, a3, a4, a5⟩ := civilOfDay_spec (dayNumber y m d)
  generalize hc : civilOfDay (dayNumber y m d) = c at *
  obtain ⟨y', m', d'⟩ := c
  simp only at a0 a1 a2 a3 a4 a5
  have b1 := dayNumber_bounds h0 h1 h2 h3 h4
  have b2 := dayNumber_bounds a0 a1 a2 a3 a4
  rw [a5] at b2
  have hy : y' = y := by
    by_contra hne
    rcases Nat.lt_or_gt_of_ne hne with h | h
    · have := daysOfYears_mono (a := y') (b := y - 1) (by omega); omega
    · have := daysOfYears_mono (a := y) (b := y' - 1) (by omega); omega
  subst hy
  have := monthDay_inj a1 a3 a4 h1 h3 h4 (by unfold dayNumber at a5; omega)
  simp [this.1, this.2]

end Verif
