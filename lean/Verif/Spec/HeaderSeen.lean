import Verif.Spec.Visible

/-
Specification layer: two headers that nothing tells apart.
-/

namespace Verif.Spec

instance (v : ℤ) : Decidable (OutOfCalendar v) := by
  unfold OutOfCalendar
  infer_instance

/-- The times of a header that are announced as invalid, in the order of the header. -/
def badTimes (h : Header) : List Int64 := [h.creationTime, h.accessTime, h.writeTime].filter fun v => decide (OutOfCalendar v.toInt)

/-- Headers that nothing tells apart: what is reported is the same, and the invalid times, which are only seen in warnings, are the same in
the same order - but not necessarily of the same fields. -/
structure AlikeHeader (h h' : Header) : Prop where
  same : SameHeader h h'
  bad : badTimes h = badTimes h'

end Verif.Spec
