import Verif.Spec.Values

/-
Specification layer: byte strings that are complete, in that nothing in them is cut off by their end.
-/

namespace Verif.Spec

/-- The text of one-byte units at an offset ends before the bytes do. -/
def NarrowEnds (b : List UInt8) (off : Nat) : Prop := 0 ∈ b.drop off

/-- The text of two-byte units at an offset ends before the bytes do. -/
def WideEnds (b : List UInt8) (off : Nat) : Prop := ∃ us rest, b.drop off = units us ++ (le 2 0 ++ rest)

/-- The numbers and texts of a VolumeID at offset `o`. -/
def VolumeComplete (i : List UInt8) (o : Nat) : Prop :=
  o + 16 ≤ i.length ∧
    if u4 i (o + 12) = 0x14 then o + 20 ≤ i.length ∧ (u4 i (o + 16) ≠ 0 → WideEnds i (o + u4 i (o + 16)))
    else NarrowEnds i (o + u4 i (o + 12))

/-- The numbers and texts of a CommonNetworkRelativeLink at offset `o`. -/
def NetworkComplete (i : List UInt8) (o : Nat) : Prop :=
  o + 20 ≤ i.length ∧
    if 0x14 < u4 i (o + 8) then
      o + 28 ≤ i.length ∧ (u4 i (o + 20) ≠ 0 → WideEnds i (o + u4 i (o + 20))) ∧ (u4 i (o + 24) ≠ 0 → WideEnds i (o + u4 i (o + 24)))
    else NarrowEnds i (o + u4 i (o + 8)) ∧ NarrowEnds i (o + u4 i (o + 12))

/-- All numbers and texts of the link info at the start of `i` are within `i`. -/
def InfoComplete (i : List UInt8) (kind : String) : Prop :=
  28 ≤ i.length ∧ (u4 i 16 ≠ 0 → NarrowEnds i (u4 i 16)) ∧ (u4 i 24 ≠ 0 → NarrowEnds i (u4 i 24)) ∧
    (0x24 ≤ u4 i 4 → 36 ≤ i.length ∧ (u4 i 28 ≠ 0 → WideEnds i (u4 i 28)) ∧ (u4 i 32 ≠ 0 → WideEnds i (u4 i 32 + 4))) ∧
    if kind = "Local" then VolumeComplete i (u4 i 12) else NetworkComplete i (u4 i 20)

/-- A file with the sections at these places, these blocks of extra data and `last` from its terminal block on is complete. -/
structure Complete (b : List UInt8) (L : Layout) (l : List Piece) (last : List UInt8) : Prop where
  layout : layout b = some L
  cut : Cut (b.drop L.extraAt) l last
  /-- there is a terminal block -/
  terminal : 4 ≤ last.length
  signed : ∀ p ∈ l, p.signature.isSome
  info : infoAnnounced L.flags = true → L.infoAt + 12 ≤ b.length ∧
    ∀ kind, infoLocation b L.infoAt = some kind → InfoComplete (b.drop L.infoAt) kind

end Verif.Spec
