import Verif.Spec.Order
import Verif.Spec.Reported

/-
Specification layer: extra data with several blocks of one kind.
-/

namespace Verif.Spec

/-- The last of the blocks that can be reported under a name. -/
def LastReadable (name : String) (l : List Piece) (p : Piece) : Prop :=
  ∃ pre post, l = pre ++ p :: post ∧ ReportedAs name p ∧ ∀ q ∈ post, ¬ ReportedAs name q

/-- Both lists have the same blocks of unknown kinds, in the same order, and of every other kind the same last block that can be
reported. -/
structure SameLast (l l' : List Piece) : Prop where
  known : ∀ name, name ≠ "UNKNOWN_BLOCK" → ∀ p, LastReadable name l p ↔ LastReadable name l' p
  unknown : l.filter (fun p => decide (p.signature.map blockName = some "UNKNOWN_BLOCK")) =
    l'.filter fun p => decide (p.signature.map blockName = some "UNKNOWN_BLOCK")

end Verif.Spec
