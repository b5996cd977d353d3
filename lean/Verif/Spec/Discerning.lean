import Verif.Spec.Alike

/-
Specification layer: code pages that tell letters apart.
-/

namespace Verif.Spec

/-- The code page has one byte per character and the letters A and B where ASCII has them. -/
def Lettered (tp : TextProc) : Prop :=
  ∃ c t, tp.env.resolve tp.cp = some c ∧ IsTable c t ∧ t 0x41 = some 'A' ∧ t 0x42 = some 'B'

end Verif.Spec
