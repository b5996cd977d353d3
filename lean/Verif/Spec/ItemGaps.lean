import Verif.Spec.Gaps
import Verif.Spec.Hidden

/-
Specification layer: the bytes of a shell item that are looked at.
-/

namespace Verif.Spec

/-- A number of two bytes, 0 when it is not there. -/
def u2 (b : List UInt8) (off : Nat) : Nat := (uAt 2 b off).getD 0

/-- What is looked at in a file entry with bytes `w` behind its size. -/
def entryUsed (w : List UInt8) : List (Nat × Nat) :=
  [(0, 1), (2, 12), if (w.headD 0).toNat / 4 % 2 = 1 then wideAt w 12 else narrowAt w 12]

/-- What is looked at in the description of a control panel file. -/
def cplUsed (w : List UInt8) : List (Nat × Nat) :=
  if 22 ≤ w.length ∧ w[10]? = some 0 then
    [(2, 6), (10, 11), (18, 22), wideAt w 22, wideAt w (22 + u2 w 18 * 2)] ++ if u2 w 20 = 0 then [] else [wideAt w (22 + u2 w 20 * 2)]
  else
    [(2, 6), (10, 11), (6, 10), narrowAt w 10, narrowAt w (10 + u2 w 6)] ++ if u2 w 8 = 0 then [] else [narrowAt w (10 + u2 w 8)]

/-- What is looked at in a users files folder: a file entry with its size at offset 8, and two GUIDs. -/
def usersUsed (w : List UInt8) : List (Nat × Nat) :=
  (2, 10) :: (4 + u2 w 2, 4 + u2 w 2 + 32) ::
    (entryUsed ((w.drop 10).take (u2 w 8))).map fun r => (10 + r.1, min (10 + u2 w 8) (10 + r.2))

/-- The length of `k` zero-terminated texts, with their zeros. -/
def textsLength : Nat → List UInt8 → Nat
  | 0, _ => 0
  | k + 1, b => narrowLength b + textsLength k (b.drop (narrowLength b))

/-- What is looked at in a network location: the flags, the location, and the texts that are announced by the flags. -/
def remoteUsed (w : List UInt8) : List (Nat × Nat) :=
  let f := (w.getD 2 0).toNat
  [(2, 3), (3, 3 + textsLength (1 + f / 128 % 2 + f / 64 % 2) (w.drop 3))]

/-- What is looked at in a shell item, given by its bytes behind the size and the two bytes behind it: its type, and what is reported for that
type. -/
def itemUsed (w : List UInt8) : List (Nat × Nat) :=
  let t := (w.headD 0).toNat
  (0, 1) ::
    if t / 16 % 8 = 2 then [if t % 2 = 1 then narrowIn w 1 21 else (2, 18)]
    else if t / 16 % 8 = 3 then entryUsed w
    else if t / 16 % 8 = 4 then remoteUsed w
    else if t = 0x00 then cplUsed w
    else if t = 0x01 then [(6, 10)]
    else if t = 0x1E ∨ t = 0x1F then [(1, 18)]
    else if t = 0x70 ∨ t = 0x71 then [(14, 30)]
    else if t = 0x74 then usersUsed w
    else []

/-- Two lists of shell items of the same sizes that differ only in bytes that are not looked at. -/
inductive SameItems : List (List UInt8) → List (List UInt8) → Prop
  | nil : SameItems [] []
  | cons {p p' : List UInt8} {items items' : List (List UInt8)} (h : p.length = p'.length)
      (hd : ∀ k, p[k]? = p'[k]? ∨ ∀ r ∈ itemUsed (p ++ (items.flatMap itemBytes ++ [0, 0]).take 2), k < r.1 ∨ r.2 ≤ k)
      (hi : SameItems items items') : SameItems (p :: items) (p' :: items')

end Verif.Spec
