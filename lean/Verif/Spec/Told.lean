import Verif.Spec.Readable
import Verif.Spec.Shape

/-
Specification layer: what the readable output keeps of the tree of `get_json`.
-/

namespace Verif.Spec

/-- A location without the number of a drive type that has no name. -/
def toldLocation (d : Dict) : Dict :=
  match d.get? "drive_type" with
  | some .none => without ["r_drive_type"] d
  | _ => d

/-- The tree without the number of a drive type that has no name. -/
def readableTree (j : Dict) : Dict := under "link_info" (onDict (under "location_info" (onDict toldLocation))) j

/-- Every drive type in the location of the tree has a name. -/
def DriveTypesNamed (j : Dict) : Prop :=
  ∀ i l, ("link_info", PyVal.dict i) ∈ j → ("location_info", PyVal.dict l) ∈ i → Dict.get? l "drive_type" ≠ some .none

end Verif.Spec
