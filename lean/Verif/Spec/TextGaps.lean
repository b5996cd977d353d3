import Verif.Spec.Gaps
import Verif.Spec.Layout

/-
Specification layer: the bytes of the string data that are looked at.
-/

namespace Verif.Spec

/-- What is looked at in the string data that starts at `pos`: each count, and each text up to its first zero. -/
def stringsUsed (flags : Nat) (b : List UInt8) : List (Nat × Nat) → Nat → List (Nat × Nat)
  | [], _ => []
  | (bit, limit) :: fs, pos =>
    if flags.testBit bit then
      (pos, pos + 2) :: match uAt 2 b pos with
      | none => []
      | some n =>
        let stop := pos + 2 + min n limit * if flags.testBit 7 then 2 else 1
        (if flags.testBit 7 then wideIn b (pos + 2) stop else narrowIn b (pos + 2) stop) :: stringsUsed flags b fs stop
    else stringsUsed flags b fs pos

/-- The byte at `k` is one that is looked at for none of the link info and the string data. -/
structure UnreadText (b : List UInt8) (L : Layout) (k : Nat) : Prop where
  start : L.infoAt ≤ k
  stop : k < L.extraAt
  info : infoAnnounced L.flags = true → L.infoAt + 12 ≤ k ∧
    ∀ kind, infoLocation b L.infoAt = some kind → ∀ r ∈ infoUsed (b.drop L.infoAt) kind, k < L.infoAt + r.1 ∨ L.infoAt + r.2 ≤ k
  strings : ∀ r ∈ stringsUsed L.flags b stringLimits L.stringsAt, k < r.1 ∨ r.2 ≤ k

end Verif.Spec
