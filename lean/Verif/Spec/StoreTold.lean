import Verif.Spec.BlockTold

/-
Specification layer: when two property stores are reported alike.
-/

namespace Verif.Spec

/-- The typed values have the same type; texts (type 0x1F with a padding of zero) are the same up to their first zero.  Of values of other
types, and of the padding and the length of a text, nothing is said. -/
structure EqualTyped (v v' : List UInt8) : Prop where
  type : SameBytes v v' 0 2
  isText : uAt 2 v 0 = some 0x1F → (uAt 2 v 2 = some 0 ↔ uAt 2 v' 2 = some 0)
  text : uAt 2 v 0 = some 0x1F → uAt 2 v 2 = some 0 →
    ∀ s, WideText (between v 8 (8 + u4 v 4 * 2)) s ↔ WideText (between v' 8 (8 + u4 v' 4 * 2)) s

/-- The same sizes and the same identifier, or name, and the same typed value. -/
def EqualProperty (named : Bool) (v v' : List UInt8) : Prop :=
  SameBytes v v' 0 8 ∧
    if named then
      (∀ s, WideText (between v 9 (9 + u4 v 4)) s ↔ WideText (between v' 9 (9 + u4 v' 4)) s) ∧
        EqualTyped (v.drop (9 + u4 v 4)) (v'.drop (9 + u4 v' 4))
    else EqualTyped (v.drop 9) (v'.drop 9)

/-- The same size, version and format, and the same properties, one by one. -/
def EqualStorage (s s' : List UInt8) : Prop :=
  SameBytes s s' 0 24 ∧ ∃ l l', Records (s.drop 24) l ∧ Records (s'.drop 24) l' ∧
    List.Forall₂ (EqualProperty (decide (between s 8 24 = stringNamedFormat.encode))) l l'

/-- The same storages, one by one. -/
def EqualStore (b b' : List UInt8) : Prop :=
  ∃ l l', Records (b.drop 8) l ∧ Records (b'.drop 8) l' ∧ List.Forall₂ EqualStorage l l'

end Verif.Spec
