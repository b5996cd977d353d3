import Verif.Spec.Outcome
import Verif.Spec.Warnings

/-
Specification layer: all warnings of a report, in order, for arbitrary bytes.
-/

namespace Verif.Spec

/-- Warnings other than that a text cannot be decoded and that a block cannot be reported. -/
def told : Warn → Bool
  | .decode _ => false
  | .extraBlock _ _ => false
  | _ => true

/-- A warning unless the two are equal. -/
def unlessEqual (name : String) (expected got : MustVal) : List Warn := if got = expected then [] else [.mustBe name expected got]

/-- The type byte of an item belongs to no class. -/
def typeNotices (t : Nat) : List Warn := if itemClass t = none then [.itemType t] else []

/-- The low half of the type byte that starts `w` has no name. -/
def kindNotices : List UInt8 → List Warn
  | [] => []
  | t :: _ => if fsKind (t.toNat % 16) = none then [.itemFlags (t.toNat % 16)] else []

/-- The date and time words at offsets 6 and 8 of `w` are neither zero nor a date. -/
def timeNotices (w : List UInt8) : List Warn :=
  match uAt 2 w 6, uAt 2 w 8 with
  | some date, some time =>
    if date = 0 ∧ time = 0 ∨ ValidDateTime (dosDateTime date time) then [] else [.invalidDostime (between w 6 10)]
  | _, _ => []

/-- The warnings for an item of the named class; `w` are its bytes from the type byte on, and two more.  The file entry of a users
files folder starts at offset 8 with its size. -/
def itemNotices (cls : String) (w : List UInt8) : List Warn :=
  if cls = "Control panel category" then
    match uAt 4 w 6 with
    | some c => if categoryName c = none then [.category c] else []
    | none => []
  else if cls = "Root Folder" then
    match uAt 1 w 1 with
    | some v => if sortIndexName v = none then [.sortIndex v] else []
    | none => []
  else if cls = "File entry" then kindNotices w ++ timeNotices w
  else if cls = "Network location" then kindNotices w
  else if cls = "Users files folder" then
    match uAt 2 w 8 with
    | some m => kindNotices (between w 10 (10 + m)) ++ timeNotices (between w 10 (10 + m))
    | none => []
  else []

/-- The warnings for a list of items. -/
def listNotices (b : List UInt8) : List Warn :=
  if b = [] then []
  else
    match uAt 2 b 0, b[2]? with
    | some (n + 1), some t =>
      typeNotices t.toNat ++ itemNotices ((itemClass t.toNat).getD "Unknown") ((b.drop 2).take (n + 1)) ++
        listNotices (b.drop (n + 1))
    | _, _ => []
termination_by b.length
decreasing_by
  have : 0 < b.length := List.length_pos_iff.2 ‹_›
  simp
  omega

/-- The warnings for an extra block: the length and the version of a tracker block, as far as they are there; the items of a shell
item block. -/
def pieceNotices (p : Piece) : List Warn :=
  if p.signature = some 0xA0000003 then
    (match uAt 4 p.bytes 8 with
      | some n => unlessEqual "length" (.int 0x58) (.int n)
      | none => []) ++
    match uAt 4 p.bytes 12 with
    | some n => unlessEqual "version" (.int 0) (.int n)
    | none => []
  else if p.signature = some 0xA000000C then listNotices (p.bytes.drop 8)
  else []

end Verif.Spec
