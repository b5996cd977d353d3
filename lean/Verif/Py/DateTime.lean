import Verif.Py.Basic
import Verif.Py.Fmt
import Mathlib.Data.Int.Log
import Mathlib.Data.Rat.Floor

/-
`datetime`: construction with validity check, `fromtimestamp(float, tz=utc)` with exact binary64
rounding, `isoformat`.
-/

namespace Verif

/-- A timezone-aware (UTC) `datetime.datetime`. -/
structure DateTime where
  year : Nat
  month : Nat
  day : Nat
  hour : Nat
  minute : Nat
  second : Nat
  microsecond : Nat
deriving DecidableEq, Repr

/-- Gregorian leap years. -/
def isLeap (y : Nat) : Bool := y % 4 == 0 && (y % 100 != 0 || y % 400 == 0)

/-- Number of days of a month (0 for a month number outside 1-12). -/
def daysInMonth (y m : Nat) : Nat :=
  if m = 2 then (if isLeap y then 29 else 28)
  else if m = 4 ∨ m = 6 ∨ m = 9 ∨ m = 11 then 30
  else if 1 ≤ m ∧ m ≤ 12 then 31 else 0

/-- The range check of the `datetime` constructor (year 1-9999, real month/day, time of day). -/
def DateTime.valid (d : DateTime) : Bool :=
  1 ≤ d.year && d.year ≤ 9999 && 1 ≤ d.month && d.month ≤ 12 && 1 ≤ d.day
    && d.day ≤ daysInMonth d.year d.month && d.hour < 24 && d.minute < 60 && d.second < 60
    && d.microsecond < 1000000

/-- `datetime(y, mo, d, h, mi, s, tzinfo=timezone.utc)`: `ValueError` when a field is out of range. -/
def mkDateTime (y mo d h mi s : Nat) : Py DateTime :=
  let r : DateTime := ⟨y, mo, d, h, mi, s, 0⟩
  if r.valid then pure r else Py.raise .valueError

/-! ### binary64 arithmetic -/

/-- Round to the nearest integer, ties to even. -/
def roundHalfEven (q : ℚ) : ℤ :=
  if q - ⌊q⌋ < 1 / 2 then ⌊q⌋
  else if 1 / 2 < q - ⌊q⌋ then ⌊q⌋ + 1
  else if ⌊q⌋ % 2 = 0 then ⌊q⌋ else ⌊q⌋ + 1

/-- Spacing of binary64 numbers around `q ≠ 0` (53-bit significand, exponent range not limited: the values
that occur lie between 10^-7 and 2^60, far from overflow and subnormals). -/
def ulp (q : ℚ) : ℚ := (2 : ℚ) ^ (Int.log 2 |q| - 52)

/-- The binary64 number nearest to `q`, ties to even: the result of a correctly rounded operation. -/
def toDouble (q : ℚ) : ℚ := if q = 0 then 0 else roundHalfEven (q / ulp q) * ulp q

/-- `modf`: truncation towards zero. -/
def truncate (q : ℚ) : ℤ := if 0 ≤ q then ⌊q⌋ else ⌈q⌉

/-- The number of microseconds since the epoch that `fromtimestamp(x)` computes for a double `x`
(`_PyTime_DoubleToDenominator` with ROUND_HALF_EVEN): split off the integral part, multiply the fraction by
1e6 in double arithmetic, round half to even, carry. -/
def timestampMicros (x : ℚ) : ℤ :=
  truncate x * 1000000 + roundHalfEven (toDouble ((x - truncate x) * 1000000))

/-! ### calendar -/

/-- Month and day from the zero-based day of the year. -/
def monthDay (y n : Nat) : Nat × Nat :=
  let l := if isLeap y then 1 else 0
  if n < 31 then (1, n + 1)
  else if n < 59 + l then (2, n - 31 + 1)
  else if n < 90 + l then (3, n - (59 + l) + 1)
  else if n < 120 + l then (4, n - (90 + l) + 1)
  else if n < 151 + l then (5, n - (120 + l) + 1)
  else if n < 181 + l then (6, n - (151 + l) + 1)
  else if n < 212 + l then (7, n - (181 + l) + 1)
  else if n < 243 + l then (8, n - (212 + l) + 1)
  else if n < 273 + l then (9, n - (243 + l) + 1)
  else if n < 304 + l then (10, n - (273 + l) + 1)
  else if n < 334 + l then (11, n - (304 + l) + 1)
  else (12, n - (334 + l) + 1)

/-- Year, month, day of the `n`-th day (0 = 0001-01-01) of the proleptic Gregorian calendar; this is what
`gmtime` computes. -/
def civilOfDay (n : Nat) : Nat × Nat × Nat :=
  let n400 := n / 146097
  let r := n % 146097
  let n100 := min 3 (r / 36524)
  let r := r - n100 * 36524
  let n4 := r / 1461
  let r := r % 1461
  let n1 := min 3 (r / 365)
  let r := r - n1 * 365
  let y := 400 * n400 + 100 * n100 + 4 * n4 + n1 + 1
  (y, monthDay y r)

/-- Days from 0001-01-01 to 1970-01-01. -/
def epochDay : Nat := 719162

/-- `datetime.fromtimestamp(x, tz=timezone.utc)` for a double `x`: `ValueError` when the year is outside
1-9999 (for the values that occur `time_t` does not overflow on a 64-bit platform; other platforms raise
`OverflowError`/`OSError`, which the caller treats alike). -/
def fromTimestamp (x : ℚ) : Py DateTime :=
  let t := timestampMicros x + (epochDay : ℤ) * 86400000000
  if t < 0 then Py.raise .valueError
  else
    let us := t.toNat
    let day := us / 86400000000
    let r := us % 86400000000
    let c := civilOfDay day
    if c.1 ≤ 9999 then
      pure ⟨c.1, c.2.1, c.2.2, r / 3600000000, r / 60000000 % 60, r / 1000000 % 60, r % 1000000⟩
    else Py.raise .valueError

/-- `%0wd`. -/
def zdec (w n : Nat) : Str := zpad w (decStr n)

/-- `d.replace(microsecond=0).isoformat()` for a UTC datetime (lnk_file.py:186). -/
def DateTime.isoSeconds (d : DateTime) : Str :=
  zdec 4 d.year ++ '-' :: zdec 2 d.month ++ '-' :: zdec 2 d.day ++ 'T' :: zdec 2 d.hour ++ ':' ::
    zdec 2 d.minute ++ ':' :: zdec 2 d.second ++ "+00:00".toList

end Verif
