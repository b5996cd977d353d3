import Verif.Lemmas.Double
import Verif.Props.Time

/-
C79: FILETIME values exactly: which are dates, and which date.
-/

namespace Verif.Props

open Spec

theorem filetime_first : filetime ⟨1, 1, 1, 0, 0, 0, 0⟩ = -504911232000000000 := by decide +kernel

theorem filetime_last : filetime ⟨9999, 12, 31, 23, 59, 59, 0⟩ = 2650467743990000000 := by decide +kernel

theorem inCalendar_iff (v : ℤ) : (0 ≤ filetimeMicros v ∧ filetimeMicros v < (instantLimit : ℤ)) ↔ ¬ OutOfCalendar v := by
  unfold OutOfCalendar
  rw [filetime_first, filetime_last]
  have hl : (instantLimit : ℤ) = 315537897600000000 := by decide
  rw [hl]
  constructor
  · rintro ⟨h1, h2⟩ (h | h)
    · have := filetimeMicros_mono (v := v) (w := -504911232000000039) (by omega)
      have := micros_last_rejected
      omega
    · have := filetimeMicros_mono (v := 2650467743999999848) (w := v) (by omega)
      have := micros_first_rejected
      omega
  · intro h
    push Not at h
    constructor
    · have := filetimeMicros_mono (v := -504911232000000038) (w := v) (by omega)
      have := micros_first_accepted
      omega
    · have := filetimeMicros_mono (v := v) (w := 2650467743999999847) (by omega)
      have := micros_last_accepted
      omega

/-- C79: a FILETIME other than zero is announced as invalid exactly if its number of seconds, as binary64 number, is not in the years
1 to 9999; otherwise the date reported is exactly the one binary64 arithmetic gives. -/
theorem filetime_date (v : Int64) (h0 : v ≠ 0) : ∃ n, Stamp v.toInt n ∧ (∀ m, Stamp v.toInt m → m = n) ∧
    (OutOfCalendar v.toInt ↔ n < 0 ∨ instant ⟨9999, 12, 31, 23, 59, 59, 999999⟩ < n) ∧
    ((OutOfCalendar v.toInt ∧ parseFiletime (leI 8 v.toInt) = ⟨[.invalidFiletime (leI 8 v.toInt)], .ok none⟩) ∨
      (¬ OutOfCalendar v.toInt ∧ ∃ d, ValidDateTime d ∧ instant d = n ∧ parseFiletime (leI 8 v.toInt) = pure (some d))) := by
  have hi := inCalendar_iff v.toInt
  refine ⟨_, filetimeMicros_stamp _, fun m hm => stamp_unique hm (filetimeMicros_stamp _), ?_, ?_⟩
  · have hl : (instantLimit : ℤ) = 315537897600000000 := by decide
    have h9 : instant ⟨9999, 12, 31, 23, 59, 59, 999999⟩ = 315537897599999999 := by decide +kernel
    rw [h9]
    rw [hl] at hi
    rw [← not_iff_not, ← hi]
    push Not
    push_cast
    omega
  · rw [parseFiletime_micros, if_neg h0]
    by_cases h : OutOfCalendar v.toInt
    · rw [if_neg (fun hc => (hi.1 hc) h)]
      exact .inl ⟨h, rfl⟩
    · have hr := hi.2 h
      rw [if_pos hr]
      refine .inr ⟨h, _, valid_ofInstant (by omega), ?_, rfl⟩
      rw [instant_ofInstant]
      omega

/-- C79: the first and the last FILETIME with a date, and their neighbours. -/
theorem filetime_ends :
    parseFiletime (leI 8 (-504911232000000038)) = pure (some ⟨1, 1, 1, 0, 0, 0, 0⟩) ∧
    parseFiletime (leI 8 (-504911232000000039)) = ⟨[.invalidFiletime (leI 8 (-504911232000000039))], .ok none⟩ ∧
    parseFiletime (leI 8 2650467743999999847) = pure (some ⟨9999, 12, 31, 23, 59, 59, 999969⟩) ∧
    parseFiletime (leI 8 2650467743999999848) = ⟨[.invalidFiletime (leI 8 2650467743999999848)], .ok none⟩ := by
  have key : ∀ (v : ℤ) (w : Int64), w.toInt = v → v ≠ 0 → parseFiletime (leI 8 v) =
      if 0 ≤ filetimeMicros v ∧ filetimeMicros v < (instantLimit : Int) then pure (some (ofInstant (filetimeMicros v).toNat))
      else ⟨[.invalidFiletime (leI 8 v)], .ok none⟩ := by
    rintro v w rfl h
    rw [parseFiletime_micros, if_neg (by rintro rfl; exact h rfl)]
  have hl : (instantLimit : ℤ) = 315537897600000000 := by decide
  refine ⟨?_, ?_, ?_, ?_⟩
  · rw [key _ (-504911232000000038) (by decide) (by decide), micros_first_accepted, hl, if_pos (by decide)]
    have : ofInstant (0 : ℤ).toNat = ⟨1, 1, 1, 0, 0, 0, 0⟩ := by decide +kernel
    rw [this]
  · rw [key _ (-504911232000000039) (by decide) (by decide), if_neg (by have := micros_last_rejected; omega)]
  · rw [key _ 2650467743999999847 (by decide) (by decide), micros_last, hl, if_pos (by decide)]
    have : ofInstant (315537897599999969 : ℤ).toNat = ⟨9999, 12, 31, 23, 59, 59, 999969⟩ := by decide +kernel
    rw [this]
  · rw [key _ 2650467743999999848 (by decide) (by decide), micros_first_rejected, hl, if_neg (by decide)]

end Verif.Props
