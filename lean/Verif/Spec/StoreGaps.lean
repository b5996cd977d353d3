import Verif.Spec.ItemGaps
import Verif.Spec.Extra

/-
Specification layer: the bytes of a property store that are looked at.
-/

namespace Verif.Spec

/-- What is looked at in a typed value at `o`: its type and padding, and of a text its length and the text up to its first zero; of a value of
any other type nothing more. -/
def valueUsed (i : List UInt8) (o : Nat) : List (Nat × Nat) :=
  (o, o + 4) :: if u2 i (o + 2) = 0 ∧ u2 i o = 0x1F then [(o + 4, o + 8), wideIn i (o + 8) (o + 8 + u4 i (o + 4) * 2)] else []

/-- What is looked at in a property at `o`: size and id or length of the name, the name up to its first zero, the value; not the byte between. -/
def propertyUsed (named : Bool) (i : List UInt8) (o : Nat) : List (Nat × Nat) :=
  (o, o + 8) :: if named then wideIn i (o + 9) (o + 9 + u4 i (o + 4)) :: valueUsed i (o + 9 + u4 i (o + 4)) else valueUsed i (o + 9)

/-- What is looked at in records from `o` on, each with its size in front, up to one of size zero. -/
def recordsUsed (f : Nat → List (Nat × Nat)) (i : List UInt8) (o : Nat) : List (Nat × Nat) :=
  (o, o + 4) :: match _h : uAt 4 i o with
  | none => []
  | some n => if _hn : n = 0 then [] else f o ++ recordsUsed f i (o + n)
termination_by i.length - o
decreasing_by
  have : o + 4 ≤ i.length := by
    unfold uAt at _h
    split at _h
    · assumption
    · cases _h
  omega

/-- What is looked at in a storage at `o`. -/
def storageUsed (i : List UInt8) (o : Nat) : List (Nat × Nat) :=
  (o, o + 24) :: recordsUsed (propertyUsed (decide (between i (o + 8) (o + 24) = stringNamedFormat.encode)) i) i (o + 24)

/-- What is looked at in a block with a property store. -/
def storeUsed (i : List UInt8) : List (Nat × Nat) := (0, 8) :: recordsUsed (storageUsed i) i 8

end Verif.Spec
