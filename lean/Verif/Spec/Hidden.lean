import Verif.Spec.OpenEnd

/-
Specification layer: stretches of a file in which nothing is looked at.
-/

namespace Verif.Spec

/-- Where the fields that are reported end, for the kinds of blocks with fields at fixed places. -/
def fieldsEnd : List (Nat × Nat) :=
  [ (0xA0000001, 788), (0xA0000002, 144), (0xA0000003, 96), (0xA0000004, 12), (0xA0000005, 16), (0xA0000006, 788), (0xA0000007, 788),
    (0xA000000B, 28) ]

/-- The items of an ID list, with any contents that begin with a type byte, and its terminal id. -/
structure ListBytes (x : List UInt8) (items : List (List UInt8)) : Prop where
  bytes : x = items.flatMap itemBytes ++ [0, 0]
  typed : ∀ p ∈ items, p ≠ []
  small : ∀ p ∈ items, p.length + 2 < 65536

end Verif.Spec
