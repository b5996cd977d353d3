import Verif.Spec.OpenEnd

/-
Specification layer: extra data with the same blocks in another order.
-/

namespace Verif.Spec

/-- Both lists have the same blocks of every kind, in the same order within the kind. -/
def SameByKind (l l' : List Piece) : Prop :=
  ∀ kind, l.filter (fun p => decide (p.signature.map blockName = some kind)) = l'.filter fun p => decide (p.signature.map blockName = some kind)

/-- Extra data whose blocks all have a size and a signature and are all there, with these bytes behind the last one. -/
structure WholeBlocks (t : List UInt8) (l : List Piece) (last : List UInt8) : Prop where
  cut : Cut t l last
  whole : ∀ p ∈ l, 8 ≤ p.declared ∧ p.bytes.length = p.declared

end Verif.Spec
