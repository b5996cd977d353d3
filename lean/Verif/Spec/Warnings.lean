import Verif.Spec.Reported
import Verif.Spec.Targets
import Verif.Spec.File
import Verif.Spec.Double

/-
Specification layer: what a warning says about the file.  For arbitrary bytes.
-/

namespace Verif.Spec

/-- Warnings about the header at the start of `b`: a field that is not what it must be, or a time outside the years 1 to 9999. -/
inductive HeaderWarn (b : List UInt8) : Warn → Prop
  | size {n : Nat} : uAt 4 b 0 = some n → n ≠ 76 → HeaderWarn b (.mustBe "size" (.int 76) (.int n))
  | classId {g : Guid} : between b 4 20 = g.encode → g ≠ shellLinkCLSID →
      HeaderWarn b (.mustBe "link_cls_id" (.str shellLinkCLSID.text) (.str g.text))
  | reserved0 {n : Nat} : uAt 2 b 66 = some n → n ≠ 0 → HeaderWarn b (.mustBe "reserved0" (.int 0) (.int n))
  | reserved1 {n : Nat} : uAt 4 b 68 = some n → n ≠ 0 → HeaderWarn b (.mustBe "reserved1" (.int 0) (.int n))
  | reserved2 {n : Nat} : uAt 4 b 72 = some n → n ≠ 0 → HeaderWarn b (.mustBe "reserved2" (.int 0) (.int n))
  | time {off : Nat} {v : Int64} : off = 28 ∨ off = 36 ∨ off = 44 → between b off (off + 8) = leI 8 v.toInt → v ≠ 0 →
      OutOfCalendar v.toInt →
      HeaderWarn b (.invalidFiletime (leI 8 v.toInt))

/-- Warnings about an item of an ID list: a number without a name, a time that is none, or a text that cannot be decoded. -/
inductive ItemWarn : Warn → Prop
  | type {t : Nat} : t < 256 → itemClass t = none → ItemWarn (.itemType t)
  | kind {n : Nat} : n < 16 → fsKind n = none → ItemWarn (.itemFlags n)
  | category {c : Nat} : c < 2 ^ 32 → categoryName c = none → ItemWarn (.category c)
  | sortIndex {v : Nat} : v < 256 → sortIndexName v = none → ItemWarn (.sortIndex v)
  | time {b : List UInt8} {date time : Nat} : b.length = 4 → uAt 2 b 0 = some date → uAt 2 b 2 = some time →
      ¬ (date = 0 ∧ time = 0) → ¬ ValidDateTime (dosDateTime date time) → ItemWarn (.invalidDostime b)
  | text (s : List Char) : ItemWarn (.decode s)

/-- Warnings about what an extra block holds: a field of a tracker block is not what it must be; an item of a shell item block; a
text. -/
inductive FieldWarn (p : Piece) : Warn → Prop
  | length {n : Nat} : p.signature = some 0xA0000003 → uAt 4 p.bytes 8 = some n → n ≠ 0x58 →
      FieldWarn p (.mustBe "length" (.int 0x58) (.int n))
  | version {n : Nat} : p.signature = some 0xA0000003 → uAt 4 p.bytes 12 = some n → n ≠ 0 →
      FieldWarn p (.mustBe "version" (.int 0) (.int n))
  | item {w : Warn} : p.signature = some 0xA000000C → ItemWarn w → FieldWarn p w
  | text (s : List Char) : FieldWarn p (.decode s)

/-- Warnings about an extra block: it cannot be reported, or what it holds. -/
inductive PieceWarn (p : Piece) : Warn → Prop
  | unreadable {s : Nat} {e : PyErr} : p.signature = some s → ¬ BlockReadable s p.bytes →
      e = .structError ∨ (s = 0xA0000009 ∧ e = .valueError) → PieceWarn p (.extraBlock (blockName s) e)
  | field {w : Warn} : FieldWarn p w → PieceWarn p w

/-- The block a warning says cannot be reported. -/
def unreportedBlock : Warn → Option String
  | .extraBlock name _ => some name
  | _ => none

/-- An announced string of the string data at `pos` has no room for its count. -/
def stringsCut (flags : Nat) (b : List UInt8) : List (Nat × Nat) → Nat → Bool
  | [], _ => false
  | (bit, limit) :: fs, pos =>
    if flags.testBit bit then
      match uAt 2 b pos with
      | none => true
      | some n => stringsCut flags b fs (pos + 2 + min n limit * if flags.testBit 7 then 2 else 1)
    else stringsCut flags b fs pos

end Verif.Spec
