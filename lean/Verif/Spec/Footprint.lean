import Verif.Spec.StoreGaps
import Verif.Spec.TextGaps

/-
Specification layer: all bytes of a file that are looked at.
-/

namespace Verif.Spec

/-- Stretches of a part of `n` bytes at offset `o`, as stretches of the whole; none goes over the end of the part. -/
def inside (o n : Nat) (l : List (Nat × Nat)) : List (Nat × Nat) := l.map fun r => (o + r.1, min (o + n) (o + r.2))

/-- What is looked at in a list of shell items: the size of each item and what is looked at in it and the two bytes behind it, up to a size of
zero; from an item on that does not fit, or is too small to have a type, everything. -/
def listUsed (t : List UInt8) : List (Nat × Nat) :=
  match _h : uAt 2 t 0 with
  | none => [(0, t.length)]
  | some n =>
    if n = 0 then [(0, 2)]
    else if _hn : n < 3 ∨ t.length < n then [(0, t.length)]
    else (0, 2) :: inside 2 n (itemUsed ((t.drop 2).take n)) ++ inside n (t.length - n) (listUsed (t.drop n))
termination_by t.length
decreasing_by
  rw [List.length_drop]
  omega

/-- What is looked at in a block with signature `s`. -/
def pieceUsed (s : Nat) (q : List UInt8) : List (Nat × Nat) :=
  if s = 0xA0000009 then storeUsed q
  else if s = 0xA000000C then (0, 8) :: inside 8 (q.length - 8) (listUsed (q.drop 8))
  else blockUsed s q

/-- What is looked at in the extra data: the size and signature of each block and what is looked at in it, up to a size of zero; what is behind
that only if it is asked for. -/
def blocksUsed (behind : Bool) (t : List UInt8) : List (Nat × Nat) :=
  match _h : uAt 4 t 0 with
  | none => []
  | some n =>
    if _hn : n = 0 then [(0, if behind then t.length else 4)]
    else (0, 8) :: (match uAt 4 t 4 with
        | none => []
        | some s => inside 0 n (pieceUsed s (t.take n))) ++ inside n (t.length - n) (blocksUsed behind (t.drop n))
termination_by t.length
decreasing_by
  have : 4 ≤ t.length := by
    unfold uAt at _h
    split at _h
    · omega
    · cases _h
  rw [List.length_drop]
  omega

/-- What is looked at in a file with the sections at these places. -/
def fileUsed (behind : Bool) (b : List UInt8) (L : Layout) : List (Nat × Nat) :=
  (0, 76) ::
  (if L.flags.testBit 0 then
    (L.headerSize, L.headerSize + 2) :: inside (L.headerSize + 2) (L.infoAt - (L.headerSize + 2)) (listUsed (between b (L.headerSize + 2) L.infoAt))
  else []) ++
  (if infoAnnounced L.flags then
    (L.infoAt, L.infoAt + 12) :: match infoLocation b L.infoAt with
      | none => []
      | some kind => inside L.infoAt (b.length - L.infoAt) (infoUsed (b.drop L.infoAt) kind)
  else []) ++
  stringsUsed L.flags b stringLimits L.stringsAt ++
  inside L.extraAt (b.length - L.extraAt) (blocksUsed behind (b.drop L.extraAt))

end Verif.Spec
