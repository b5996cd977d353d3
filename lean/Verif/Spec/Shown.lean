import Verif.Py.Basic

/-
Specification layer: characters that do nothing but appear.
-/

namespace Verif.Spec

/-- A printable ASCII character: neither a control character nor a line end. -/
def Harmless (c : Char) : Prop := 32 ≤ c.toNat ∧ c.toNat ≤ 126

instance (c : Char) : Decidable (Harmless c) := inferInstanceAs (Decidable (_ ∧ _))

end Verif.Spec
