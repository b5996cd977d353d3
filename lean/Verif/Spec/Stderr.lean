import Verif.Model.Stderr

/-
Specification layer: which messages are seen.
-/

namespace Verif.Spec

/-- Two calls on the same line of the program with the same message. -/
def SameLine (c c' : Call) : Prop := c.place = c'.place ∧ c.text = c'.text

instance (c c' : Call) : Decidable (SameLine c c') := inferInstanceAs (Decidable (_ ∧ _))

/-- Of the calls `cs`, those that no call before them, and none of `before`, is like. -/
def firstCalls (before cs : List Call) : List Call :=
  (List.range cs.length).filterMap fun i => cs[i]?.filter fun c => decide (∀ c' ∈ before ++ cs.take i, ¬ SameLine c' c)

/-- The calls issue these warnings. -/
def Issues (cs : List Call) (W : List Warn) : Prop := cs.map (·.warn) = W

end Verif.Spec
