import Verif.Spec.Outcome

/-
Specification layer: which extra blocks are reported.  For arbitrary bytes.
-/

namespace Verif.Spec

/-- `Records b l`: records follow each other from the start of `b` up to a size of zero; `l` are the rests of `b` from the start of
each record on (a record may refer to bytes behind its own end). -/
inductive Records : List UInt8 → List (List UInt8) → Prop
  | stop {b} : uAt 4 b 0 = some 0 → Records b []
  | next {b n l} : uAt 4 b 0 = some n → n ≠ 0 → Records (b.drop n) l → Records b (b :: l)

/-- The typed value at the start of `v` can be reported: its type has a name; with a padding of zero it is not VT_I2, and if it is
VT_LPWSTR its length is there. -/
def TypedReadable (v : List UInt8) : Prop :=
  ∃ t padding, uAt 2 v 0 = some t ∧ uAt 2 v 2 = some padding ∧ typeName t ≠ none ∧
    (padding = 0 → t ≠ 0x02 ∧ (t = 0x1F → 8 ≤ v.length))

/-- The property at the start of `v`: its size, its id or the size of its name, one byte, the name, the value. -/
def PropertyReadable (named : Bool) (v : List UInt8) : Prop :=
  ∃ n, uAt 4 v 4 = some n ∧ TypedReadable (v.drop (9 + if named then n else 0))

/-- The storage at the start of `s`: size, version, format, properties. -/
def StorageReadable (s : List UInt8) : Prop :=
  24 ≤ s.length ∧ ∃ l, Records (s.drop 24) l ∧ ∀ v ∈ l, PropertyReadable (decide (between s 8 24 = stringNamedFormat.encode)) v

/-- The block with a signature can be reported: its fields are there; for the variable ones see above. -/
def BlockReadable (signature : Nat) (b : List UInt8) : Prop :=
  if signature = 0xA0000002 then 144 ≤ b.length
  else if signature = 0xA0000003 then 96 ≤ b.length
  else if signature = 0xA0000004 then 12 ≤ b.length
  else if signature = 0xA0000005 then 16 ≤ b.length
  else if signature = 0xA0000006 then ¬ ShortDescriptor b
  else if signature = 0xA0000009 then ∃ l, Records (b.drop 8) l ∧ ∀ s ∈ l, StorageReadable s
  else if signature = 0xA000000B then 28 ≤ b.length
  else if signature = 0xA000000C then listFault (b.drop 8) = none
  else True

/-- The piece is reported under a name. -/
def ReportedAs (name : String) (p : Piece) : Prop := ∃ s, p.signature = some s ∧ blockName s = name ∧ BlockReadable s p.bytes

open Classical in
/-- The names of the pieces that cannot be reported. -/
noncomputable def unreadableNames (l : List Piece) : List String :=
  l.filterMap fun p => p.signature.bind fun s => if BlockReadable s p.bytes then none else some (blockName s)

end Verif.Spec
