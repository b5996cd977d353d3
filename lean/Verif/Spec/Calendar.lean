import Verif.Py.DateTime
import Verif.Spec.Bytes

/-
Specification layer: the proleptic Gregorian calendar, FILETIME ([MS-DTYP] 2.3.3) and DOS date/time.
Only the record type `DateTime` is shared with the model.
-/

namespace Verif.Spec

/-- A year is a leap year if divisible by 4, unless divisible by 100 and not by 400. -/
def LeapYear (y : Nat) : Prop := 4 ∣ y ∧ (¬ 100 ∣ y ∨ 400 ∣ y)

instance (y : Nat) : Decidable (LeapYear y) := by unfold LeapYear; infer_instance

/-- The lengths of the twelve months. -/
def monthLengths (y : Nat) : List Nat :=
  [31, if LeapYear y then 29 else 28, 31, 30, 31, 30, 31, 31, 30, 31, 30, 31]

/-- Number of days in the first `n` years (years 1 to `n`). -/
def daysOfYears : Nat → Nat
  | 0 => 0
  | n + 1 => daysOfYears n + (monthLengths (n + 1)).sum

/-- Number of days from 0001-01-01 to a date. -/
def dayNumber (y m d : Nat) : Nat := daysOfYears (y - 1) + ((monthLengths y).take (m - 1)).sum + (d - 1)

/-- A date of the years 1 to 9999 and a time of day. -/
def ValidDateTime (t : DateTime) : Prop :=
  (1 ≤ t.year ∧ t.year ≤ 9999) ∧ (1 ≤ t.month ∧ t.month ≤ 12) ∧
    (1 ≤ t.day ∧ t.day ≤ (monthLengths t.year).getD (t.month - 1) 0) ∧
    t.hour ≤ 23 ∧ t.minute ≤ 59 ∧ t.second ≤ 59 ∧ t.microsecond ≤ 999999

instance (t : DateTime) : Decidable (ValidDateTime t) := by unfold ValidDateTime; infer_instance

/-- Microseconds from 0001-01-01T00:00:00 to a date-time. -/
def instant (t : DateTime) : Nat :=
  (((dayNumber t.year t.month t.day * 24 + t.hour) * 60 + t.minute) * 60 + t.second) * 1000000 + t.microsecond

/-- FILETIME of a date-time: 100ns intervals since 1601-01-01T00:00:00. -/
def filetime (t : DateTime) : Int := ((instant t : Int) - instant ⟨1601, 1, 1, 0, 0, 0, 0⟩) * 10

/-- The DOS date word and time word of a date-time, date first. -/
def dosEncode (t : DateTime) : List UInt8 :=
  le 2 ((t.year - 1980) * 512 + t.month * 32 + t.day) ++ le 2 (t.hour * 2048 + t.minute * 32 + t.second / 2)

end Verif.Spec
