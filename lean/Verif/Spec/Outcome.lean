import Verif.Spec.Layout
import Verif.Spec.Targets

/-
Specification layer: which files can be reported, and what is raised for the others.  For arbitrary bytes.
-/

namespace Verif.Spec

/-- `struct.error` unless there are `n` bytes. -/
def tooShort (n : Nat) (w : List UInt8) : Option PyErr := if n ≤ w.length then none else some .structError

/-- What is raised for an item of the named class; `w` are its bytes from the type byte on, and two more.  Volumes with a name
(odd type byte) need nothing else; a network location needs the strings its flags announce, each but the last one ended by a NUL;
in a users files folder both the file entry (whose size is at offset 8) and the two identifiers (behind as many bytes as stated at
offset 2) have to be there. -/
def itemFault (cls : String) (w : List UInt8) : Option PyErr :=
  if cls = "Control panel CPL file" ∨ cls = "Control panel category" then tooShort 10 w
  else if cls = "Root Folder" then tooShort 18 w
  else if cls = "Volume Item" then
    match w with
    | [] => some .structError
    | t :: _ => if t.toNat % 2 = 1 then none else tooShort 18 w
  else if cls = "File entry" then tooShort 12 w
  else if cls = "Network location" then
    match w with
    | _ :: _ :: cf :: strings =>
      if (if cf.toNat.testBit 7 then 1 else 0) + (if cf.toNat.testBit 6 then 1 else 0) ≤ strings.count 0 then none
      else some .runtimeError
    | _ => some .structError
  else if cls = "Control panel" then tooShort 30 w
  else if cls = "Users files folder" then
    match uAt 2 w 8, uAt 2 w 2 with
    | some m, some n => if 12 ≤ m ∧ 22 ≤ w.length ∧ n + 36 ≤ w.length then none else some .structError
    | _, _ => some .structError
  else none

/-- What is raised for a list of items: what is raised for the first item that cannot be reported. -/
def listFault (b : List UInt8) : Option PyErr :=
  if b = [] then none
  else
    match uAt 2 b 0 with
    | none => some .structError
    | some 0 => none
    | some (n + 1) =>
      match b[2]? with
      | none => some .structError
      | some t =>
        match itemFault ((itemClass t.toNat).getD "Unknown") ((b.drop 2).take (n + 1)) with
        | some e => some e
        | none => listFault (b.drop (n + 1))
termination_by b.length
decreasing_by
  have : 0 < b.length := List.length_pos_iff.2 ‹_›
  simp
  omega

/-- The fields of a LinkInfo that starts with `raw` are there: the first seven; the two optional ones if the header is said to be
long enough; those of the volume id or of the network link, with their optional ones. -/
def InfoReadable (kind : String) (raw : List UInt8) : Prop :=
  28 ≤ raw.length ∧ (∀ n, uAt 4 raw 4 = some n → 0x24 ≤ n → 36 ≤ raw.length) ∧
    if kind = "Local" then
      ∀ v, uAt 4 raw 12 = some v → v + 16 ≤ raw.length ∧ (uAt 4 raw (v + 12) = some 0x14 → v + 20 ≤ raw.length)
    else
      ∀ c, uAt 4 raw 20 = some c → c + 20 ≤ raw.length ∧ ∀ n, uAt 4 raw (c + 8) = some n → 0x14 < n → c + 28 ≤ raw.length

/-- The text of `b` up to the first zero unit at an even offset. -/
def WideText (b : List UInt8) (s : List Char) : Prop :=
  ∃ us : List UInt16, 0 ∉ us ∧ ((∃ tail, tail.length < 2 ∧ b = units us ++ tail ∧ Utf16Lenient b s) ∨
    ∃ rest, b = units us ++ le 2 0 ++ rest ∧ Utf16Lenient (units us) s)

/-- The Unicode descriptor of a Darwin block is too short: fewer than 20 characters, or fewer than 20 behind the first `>`. -/
def ShortDescriptor (block : List UInt8) : Prop :=
  ∃ s, WideText ((block.drop 268).take 520) s ∧
    (s.length < 20 ∨ ∃ pre post, s = pre ++ '>' :: post ∧ '>' ∉ pre ∧ post.length < 20)

/-- What is raised for an extra block and not caught. -/
inductive BlockFault (p : Piece) : PyErr → Prop
  | darwin : p.signature = some 0xA0000006 → ShortDescriptor p.bytes → BlockFault p .indexError
  | shellItems : p.signature = some 0xA000000C → listFault (p.bytes.drop 8) = some .runtimeError → BlockFault p .runtimeError

/-- The header fields are there. -/
def HeaderReadable (b : List UInt8) (L : Layout) : Prop := 76 ≤ L.headerSize ∧ 76 ≤ b.length

/-- What is raised for the ID list. -/
def targetFault (b : List UInt8) (L : Layout) : Option PyErr :=
  if L.flags.testBit 0 then listFault (between b (L.headerSize + 2) L.infoAt) else none

/-- The link info can be reported, if there is one. -/
def InfoReadableAt (b : List UInt8) (L : Layout) : Prop :=
  infoAnnounced L.flags = true → ∀ kind, infoLocation b L.infoAt = some kind → InfoReadable kind (b.drop L.infoAt)

/-- What `get_json` raises: the fault of the first section, and in it of the first item or block, that has one. -/
inductive ReportFault (b : List UInt8) (L : Layout) (l : List Piece) : PyErr → Prop
  | header : ¬ HeaderReadable b L → ReportFault b L l .structError
  | target {e} : HeaderReadable b L → targetFault b L = some e → ReportFault b L l e
  | info : HeaderReadable b L → targetFault b L = none → ¬ InfoReadableAt b L → ReportFault b L l .structError
  | block {pre p post e} : HeaderReadable b L → targetFault b L = none → InfoReadableAt b L → l = pre ++ p :: post →
      (∀ q ∈ pre, ∀ e, ¬ BlockFault q e) → BlockFault p e → ReportFault b L l e

end Verif.Spec
