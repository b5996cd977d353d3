import Verif.Spec.Calendar
import Mathlib.Data.Rat.Defs
import Mathlib.Data.Rat.Floor
import Mathlib.Algebra.Order.Field.Basic

/-
binary64 arithmetic as IEEE 754 describes it: the numbers, and the nearest of them to an exact result (ties to the one whose
last bit is zero). Exponents are not limited. And, in these terms, the instant of a FILETIME.
-/

namespace Verif.Spec

/-- The numbers with at most `n` significant bits. -/
def Binary (n : Nat) (x : ℚ) : Prop := ∃ m e : ℤ, |m| < 2 ^ n ∧ x = m * 2 ^ e

/-- `x` is the binary64 number for the exact result `q`: none is nearer, and if another is as near, the last bit of `x` is
zero. -/
structure Rounded (q x : ℚ) : Prop where
  binary : Binary 53 x
  nearest : ∀ y, Binary 53 y → |x - q| ≤ |y - q|
  even : ∀ y, Binary 53 y → |y - q| = |x - q| → y = x ∨ Binary 52 x

/-- `n` is the integer nearest to `q`; of two, the even one. -/
def RoundedInt (q : ℚ) (n : ℤ) : Prop := |(n : ℚ) - q| ≤ 1 / 2 ∧ (|(n : ℚ) - q| = 1 / 2 → 2 ∣ n)

/-- `n` microseconds for the time `x` in seconds: whole seconds count exactly, the rest (of the same sign) is multiplied in
binary64 and rounded. -/
def Microseconds (x : ℚ) (n : ℤ) : Prop :=
  ∃ (s : ℤ) (f p : ℚ) (us : ℤ), x = s + f ∧ |f| < 1 ∧ (0 ≤ x → 0 ≤ f) ∧ (x < 0 → f ≤ 0) ∧ Rounded (f * 1000000) p ∧
    RoundedInt p us ∧ n = s * 1000000 + us

/-- `n`: microseconds since 0001-01-01 of the FILETIME `v`, by way of the binary64 number of seconds since 1970. -/
def Stamp (v n : ℤ) : Prop :=
  ∃ (x : ℚ) (us : ℤ), Rounded ((v - filetime ⟨1970, 1, 1, 0, 0, 0, 0⟩ : ℤ) / 10000000) x ∧ Microseconds x us ∧
    n = us + instant ⟨1970, 1, 1, 0, 0, 0, 0⟩

/-- The FILETIME values without a date in the years 1 to 9999: the binary64 number of seconds lies before the year 1, or is that of
the year 10000. (Doubles near the year 1 are 2⁻¹⁷ seconds apart, or 76 ticks; near the year 10000, 2⁻¹⁵ seconds or 305 ticks.) -/
def OutOfCalendar (v : ℤ) : Prop :=
  v < filetime ⟨1, 1, 1, 0, 0, 0, 0⟩ - 38 ∨ filetime ⟨9999, 12, 31, 23, 59, 59, 0⟩ + 9999848 ≤ v

end Verif.Spec
