import Verif.Spec.Complete
import Verif.Spec.Warnings

/-
Specification layer: files that end behind their strings or a block of extra data, without a terminal block, and what follows them.
-/

namespace Verif.Spec

/-- A file with the sections at these places ends exactly where its last block of extra data does, or without such blocks where its
last announced string does. -/
structure OpenEnd (b : List UInt8) (L : Layout) (l : List Piece) : Prop where
  layout : layout b = some L
  cut : Cut (b.drop L.extraAt) l []
  /-- the extra data begin within the file or at its end -/
  there : L.extraAt ≤ b.length
  /-- no string that the header announces is missing -/
  strings : stringsCut L.flags b stringLimits L.stringsAt = false
  /-- every block has a size and a signature, and all its bytes are there -/
  whole : ∀ p ∈ l, 8 ≤ p.declared ∧ p.bytes.length = p.declared
  info : infoAnnounced L.flags = true → L.infoAt + 12 ≤ b.length ∧
    ∀ kind, infoLocation b L.infoAt = some kind → InfoComplete (b.drop L.infoAt) kind

/-- A header that announces nothing. -/
def bareHeader : List UInt8 := le 4 76 ++ shellLinkCLSID.encode ++ List.replicate 56 0

/-- One list behind the other. -/
def together : PyVal → PyVal → PyVal
  | .list xs, .list ys => .list (xs ++ ys)
  | _, v => v

/-- What is said about the blocks of two stretches of extra data, one behind the other: of the blocks of one kind the last one counts,
but blocks of unknown kinds are all listed. -/
def mergeBlocks (a d : List (String × PyVal)) : List (String × PyVal) :=
  (a.map fun kv => match d.lookup kv.1 with
    | none => kv
    | some v => (kv.1, if kv.1 = "UNKNOWN_BLOCK" then together kv.2 v else v)) ++
  d.filter fun kv => (a.lookup kv.1).isNone

/-- The report of a file with more bytes behind it, from its report and that of a bare header with these bytes behind it. -/
def joinReports (r s : List (String × PyVal)) : List (String × PyVal) :=
  r.map fun kv => (kv.1, match kv.2, s.lookup kv.1 with
    | .int m, some (.int n) => if kv.1 = "size" then .int (m + n - 76) else kv.2
    | .dict a, some (.dict d) => if kv.1 = "extra" then .dict (mergeBlocks a d) else kv.2
    | v, _ => v)

end Verif.Spec
