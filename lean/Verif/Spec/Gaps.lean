import Verif.Spec.Complete

/-
Specification layer: the bytes of a link info that are looked at.
-/

namespace Verif.Spec

/-- The number of bytes of a text of one-byte characters with the zero behind it. -/
def narrowLength (b : List UInt8) : Nat := (b.takeWhile fun x => decide (x ≠ 0)).length + 1

/-- The number of bytes of a text of two-byte units with the zero unit behind it. -/
def wideLength : List UInt8 → Nat
  | x :: y :: rest => if x = 0 ∧ y = 0 then 2 else 2 + wideLength rest
  | rest => rest.length

/-- From where to where a text at an offset goes. -/
def narrowAt (i : List UInt8) (off : Nat) : Nat × Nat := (off, off + narrowLength (i.drop off))

/-- The same for a text of two-byte units. -/
def wideAt (i : List UInt8) (off : Nat) : Nat × Nat := (off, off + wideLength (i.drop off))

/-- What is looked at in a VolumeID at offset `o`. -/
def volumeUsed (i : List UInt8) (o : Nat) : List (Nat × Nat) :=
  (o, o + 16) :: if u4 i (o + 12) = 0x14 then
    (o + 16, o + 20) :: if u4 i (o + 16) = 0 then [] else [wideAt i (o + u4 i (o + 16))]
  else [narrowAt i (o + u4 i (o + 12))]

/-- What is looked at in a CommonNetworkRelativeLink at offset `o`. -/
def networkUsed (i : List UInt8) (o : Nat) : List (Nat × Nat) :=
  (o, o + 20) :: if 0x14 < u4 i (o + 8) then
    (o + 20, o + 28) :: (if u4 i (o + 20) = 0 then [] else [wideAt i (o + u4 i (o + 20))]) ++
      if u4 i (o + 24) = 0 then [] else [wideAt i (o + u4 i (o + 24))]
  else [narrowAt i (o + u4 i (o + 8)), narrowAt i (o + u4 i (o + 12))]

/-- What is looked at in the link info at the start of `i`. -/
def infoUsed (i : List UInt8) (kind : String) : List (Nat × Nat) :=
  (0, 28) :: (if u4 i 16 = 0 then [] else [narrowAt i (u4 i 16)]) ++ (if u4 i 24 = 0 then [] else [narrowAt i (u4 i 24)]) ++
    (if u4 i 4 < 0x24 then [] else
      (28, 36) :: (if u4 i 28 = 0 then [] else [wideAt i (u4 i 28)]) ++ if u4 i 32 = 0 then [] else [wideAt i (u4 i 32 + 4)]) ++
    if kind = "Local" then volumeUsed i (u4 i 12) else networkUsed i (u4 i 20)

/-- From where to where a text in a field goes: it ends with the field at the latest. -/
def narrowIn (b : List UInt8) (s e : Nat) : Nat × Nat := (s, min e (s + narrowLength ((b.drop s).take (e - s))))

/-- The same for a text of two-byte units. -/
def wideIn (b : List UInt8) (s e : Nat) : Nat × Nat := (s, min e (s + wideLength ((b.drop s).take (e - s))))

/-- What is looked at in a block with signature `s`; of a block that is hashed, or has no fields at fixed places, everything. -/
def blockUsed (s : Nat) (q : List UInt8) : List (Nat × Nat) :=
  if s = 0xA0000001 ∨ s = 0xA0000006 ∨ s = 0xA0000007 then [(0, 8), narrowIn q 8 268, wideIn q 268 788]
  else if s = 0xA0000002 then [(0, 24), (32, 44), wideIn q 44 108, (108, 144)]
  else if s = 0xA0000003 then [(0, 16), narrowIn q 16 32, (32, 96)]
  else if s = 0xA0000004 then [(0, 12)]
  else if s = 0xA0000005 then [(0, 16)]
  else if s = 0xA0000008 then [(0, 8), narrowAt q 8]
  else if s = 0xA000000B then [(0, 28)]
  else [(0, q.length)]

end Verif.Spec
