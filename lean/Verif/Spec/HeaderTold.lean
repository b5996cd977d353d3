import Verif.Spec.InfoTold

/-
Specification layer: when two headers are reported alike.
-/

namespace Verif.Spec

/-- The value of a time has no date: it is zero, or not in the years 1 to 9999. -/
def NoDate (t : Int) : Prop := t = 0 ∨ OutOfCalendar t

/-- The same time at an offset: none in both, or the same microsecond. -/
def EqualTime (b b' : List UInt8) (off : Nat) : Prop :=
  ∃ t t', sAt 8 b off = some t ∧ sAt 8 b' off = some t' ∧
    ((NoDate t ∧ NoDate t') ∨ (¬ NoDate t ∧ ¬ NoDate t' ∧ ∃ n, Stamp t n ∧ Stamp t' n))

/-- The same header: all bytes but those of the times, which are compared as dates, and of the show command, of which only 3 and 7 are told
apart from the rest. -/
structure EqualHeader (b b' : List UInt8) : Prop where
  first : SameBytes b b' 0 28
  creation : EqualTime b b' 28
  access : EqualTime b b' 36
  write : EqualTime b b' 44
  second : SameBytes b b' 52 60
  showCommand : ∀ i : Int, i = 3 ∨ i = 7 → (sAt 4 b 60 = some i ↔ sAt 4 b' 60 = some i)
  third : SameBytes b b' 64 76

end Verif.Spec
