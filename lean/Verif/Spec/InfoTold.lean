import Verif.Spec.Values

/-
Specification layer: when two link infos are reported alike.
-/

namespace Verif.Spec

/-- The bytes from `a` to `c` are the same. -/
def SameBytes (i i' : List UInt8) (a c : Nat) : Prop := ∀ k, a ≤ k → k < c → i[k]? = i'[k]?

/-- The texts at an offset are the same, in the code page or in Unicode. -/
def SameNarrow (tp : TextProc) (i i' : List UInt8) (off : Nat) : Prop := ∀ s, NarrowText tp (i.drop off) s ↔ NarrowText tp (i'.drop off) s
def SameWide (i i' : List UInt8) (off : Nat) : Prop := ∀ s, WideText (i.drop off) s ↔ WideText (i'.drop off) s

/-- The numbers of a VolumeID and its label, in Unicode if the offset of the label is 20. -/
def EqualVolume (tp : TextProc) (i i' : List UInt8) (o : Nat) : Prop :=
  SameBytes i i' o (o + 16) ∧
    if u4 i (o + 12) = 0x14 then SameBytes i i' (o + 16) (o + 20) ∧ (u4 i (o + 16) ≠ 0 → SameWide i i' (o + u4 i (o + 16)))
    else SameNarrow tp i i' (o + u4 i (o + 12))

/-- The numbers of a CommonNetworkRelativeLink and its names, in Unicode if the offset of the first is larger than 20. -/
def EqualNetwork (tp : TextProc) (i i' : List UInt8) (o : Nat) : Prop :=
  SameBytes i i' o (o + 20) ∧
    if 0x14 < u4 i (o + 8) then
      SameBytes i i' (o + 20) (o + 28) ∧ (u4 i (o + 20) ≠ 0 → SameWide i i' (o + u4 i (o + 20))) ∧
        (u4 i (o + 24) ≠ 0 → SameWide i i' (o + u4 i (o + 24)))
    else SameNarrow tp i i' (o + u4 i (o + 8)) ∧ SameNarrow tp i i' (o + u4 i (o + 12))

/-- All numbers of two link infos of one kind are the same, and the texts they point to. -/
def EqualInfo (tp : TextProc) (kind : String) (i i' : List UInt8) : Prop :=
  SameBytes i i' 0 28 ∧ (u4 i 16 ≠ 0 → SameNarrow tp i i' (u4 i 16)) ∧ (u4 i 24 ≠ 0 → SameNarrow tp i i' (u4 i 24)) ∧
    (0x24 ≤ u4 i 4 → SameBytes i i' 28 36 ∧ (u4 i 28 ≠ 0 → SameWide i i' (u4 i 28)) ∧ (u4 i 32 ≠ 0 → SameWide i i' (u4 i 32 + 4))) ∧
    if kind = "Local" then EqualVolume tp i i' (u4 i 12) else EqualNetwork tp i i' (u4 i 20)

/-- The kind of the link info of a file, if it has one. -/
def infoKind (b : List UInt8) (L : Layout) : Option String := if infoAnnounced L.flags then infoLocation b L.infoAt else none

/-- Neither file has link info, or both have link info of the same kind with the same numbers and texts. -/
def EqualInfoAt (tp : TextProc) (b b' : List UInt8) (L L' : Layout) : Prop :=
  infoKind b L = infoKind b' L' ∧ ∀ kind, infoKind b L = some kind → EqualInfo tp kind (b.drop L.infoAt) (b'.drop L'.infoAt)

end Verif.Spec
