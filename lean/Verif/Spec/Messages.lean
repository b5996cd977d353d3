import Verif.Spec.Outcome
import Verif.Spec.Warnings

/-
Specification layer: reading the message of a warning.  A reader sees the text only.
-/

namespace Verif.Spec

/-- What a reader takes from a message. -/
inductive Notice
  | mustBe (field expected got : List Char)
  | filetime (b : List UInt8)
  | dostime (b : List UInt8)
  | text (rest : List Char)
  | itemType (n : Nat)
  | kind (n : Nat)
  | sortIndex (n : Nat)
  | category (n : Nat)
  | item (name : List Char)
  | infoFlags
  | strings
  | blockSize
  | blockSignature
  | block (name : List Char)
deriving DecidableEq

namespace Messages

/-- The rest of `s` after the prefix `p`. -/
def after : List Char → List Char → Option (List Char)
  | [], s => some s
  | _ :: _, [] => none
  | c :: p, d :: s => if c = d then after p s else none

/-- The part of `s` before the first `c`. -/
def upTo (c : Char) (s : List Char) : List Char := s.takeWhile (· ≠ c)

/-- The value of a digit; `a` is the first letter used. -/
def digit (a c : Char) : Option Nat :=
  if '0' ≤ c ∧ c ≤ '9' then some (c.toNat - '0'.toNat)
  else if a ≤ c ∧ c.toNat < a.toNat + 6 then some (10 + (c.toNat - a.toNat))
  else none

/-- The decimal number, most significant digit first. -/
def decimal (s : List Char) : Option Nat :=
  if s.all Char.isDigit then
    s.foldl (fun acc c => match acc, digit 'A' c with
      | some n, some d => some (10 * n + d)
      | _, _ => none) (some 0)
  else none

/-- The byte written as two digits. -/
def byte (a : Char) : List Char → Option Nat
  | [x, y] => do
    let x ← digit a x
    let y ← digit a y
    some (16 * x + y)
  | _ => none

/-- Bytes written as two small digits each, with blanks between them. -/
def bytes : List Char → Option (List UInt8)
  | [] => some []
  | [a, b] => do
    let x ← byte 'a' [a, b]
    some [UInt8.ofNat x]
  | a :: b :: ' ' :: s => do
    let x ← byte 'a' [a, b]
    let l ← bytes s
    some (UInt8.ofNat x :: l)
  | _ => none

/-- A number, then a fixed text. -/
def numberThen (number : List Char → Option Nat) (tail : String) (k : Nat → Notice) (s : List Char) : Option Notice :=
  if s.drop (upTo ' ' s).length = tail.toList then (number (upTo ' ' s)).map k else none

/-- A name in quotation marks, then the exception in brackets. -/
def nameThen (next : String) (k : List Char → Notice) (s : List Char) : Option Notice :=
  match after next.toList (s.drop (upTo '`' s).length) with
  | some rest => if rest.getLast? = some ')' then some (k (upTo '`' s)) else none
  | none => none

/-- How messages start, and how to go on. -/
def forms : List (String × (List Char → Option Notice)) :=
  [ ("Invalid filetime: ", fun s => (bytes s).map .filetime),
    ("Invalid dostime: ", fun s => (bytes s).map .dostime),
    ("Error while decoding string `", fun s => some (.text s)),
    ("Not implemented item_type 0x", numberThen (byte 'A')
      " in TargetFactory.SHELL_ITEM_CLASSES. Use fallback value: <class 'LnkParse3.target.unknown.Unknown'>." .itemType),
    ("Not implemented flags 0x", numberThen (byte 'A')
      " in LnkTargetBase.SHELL_ITEM_SHELL_FS_FOLDER. Use fallback value: \"Unknown\"." .kind),
    ("Not implemented sort_index_value ", numberThen (byte 'A')
      " in RootFolder.SORT_INDEX. Use fallback value: \"Unknown\"." .sortIndex),
    ("Not implemented category_id ", numberThen decimal
      " in ControlPanelCategory.CATEGORIES. Use fallback value: \"Unknown\"." .category),
    ("Error while parsing TargetID `", nameThen "` (KeyError " .item),
    ("Error while parsing extra TargetID `", nameThen "` (KeyError " .item),
    ("Error while selecting proper Info class: ", fun _ => some .infoFlags),
    ("Error while parsing String data: ", fun _ => some .strings),
    ("Error while parsing extra data: ", fun _ => some .blockSize),
    ("Error while parsing extra's signature ", fun _ => some .blockSignature),
    ("Error while parsing `", nameThen "` (" .block) ]

/-- The first form that fits. -/
def firstForm (s : List Char) : List (String × (List Char → Option Notice)) → Option Notice
  | [] => none
  | (p, k) :: fs =>
    match after p.toList s with
    | some rest => k rest
    | none => firstForm s fs

/-- "FIELD must be EXPECTED: GOT". -/
def readMustBe (s : List Char) : Option Notice :=
  let field := upTo ' ' s
  match after " must be ".toList (s.drop field.length) with
  | some s =>
    let expected := upTo ':' s
    match after ": ".toList (s.drop expected.length) with
    | some got => some (.mustBe field expected got)
    | none => none
  | none => none

/-- Reading a message. -/
def readMessage (s : List Char) : Option Notice :=
  if forms.any fun f => (after f.1.toList s).isSome then firstForm s forms else readMustBe s

end Messages

/-- A field that must have a value has another one: its name, what it must be and what it is, as texts; `b` is the file, `l` its
extra blocks. -/
inductive FieldTrue (b : List UInt8) (l : List Piece) : List Char → List Char → List Char → Prop
  | header {name : String} {off len must n : Nat} :
      (name, off, len, must) ∈ [("size", 0, 4, 76), ("reserved0", 66, 2, 0), ("reserved1", 68, 4, 0), ("reserved2", 72, 4, 0)] →
      uAt len b off = some n → n ≠ must → FieldTrue b l name.toList (Nat.toDigits 10 must) (Nat.toDigits 10 n)
  | classId {g : Guid} : between b 4 20 = g.encode → g ≠ shellLinkCLSID →
      FieldTrue b l "link_cls_id".toList shellLinkCLSID.text g.text
  | tracker {p : Piece} {name : String} {off must n : Nat} :
      (name, off, must) ∈ [("length", 8, 88), ("version", 12, 0)] → p ∈ l → p.signature = some 0xA0000003 →
      uAt 4 p.bytes off = some n → n ≠ must → FieldTrue b l name.toList (Nat.toDigits 10 must) (Nat.toDigits 10 n)

/-- What a number or a time of an item is announced for. -/
def ItemTrue : Notice → Prop
  | .itemType t => t < 256 ∧ itemClass t = none
  | .kind k => k < 16 ∧ fsKind k = none
  | .category c => c < 2 ^ 32 ∧ categoryName c = none
  | .sortIndex v => v < 256 ∧ sortIndexName v = none
  | .dostime x => ∃ date time, x.length = 4 ∧ uAt 2 x 0 = some date ∧ uAt 2 x 2 = some time ∧ ¬ (date = 0 ∧ time = 0) ∧
      ¬ ValidDateTime (dosDateTime date time)
  | _ => False

/-- What a message says about the file `b` with sections `L` and extra blocks `l`, behind which `last` remains. -/
inductive NoticeTrue (b : List UInt8) (L : Layout) (l : List Piece) (last : List UInt8) : Notice → Prop
  | mustBe {f e g : List Char} : FieldTrue b l f e g → NoticeTrue b L l last (.mustBe f e g)
  | filetime {off : Nat} {v : Int64} : off = 28 ∨ off = 36 ∨ off = 44 → between b off (off + 8) = leI 8 v.toInt → v ≠ 0 →
      OutOfCalendar v.toInt →
      NoticeTrue b L l last (.filetime (between b off (off + 8)))
  | text (s : List Char) : NoticeTrue b L l last (.text s)
  | item {n : Notice} : L.flags.testBit 0 = true ∨ (∃ p ∈ l, p.signature = some 0xA000000C) → ItemTrue n → NoticeTrue b L l last n
  | block {p : Piece} {s : Nat} : p ∈ l → p.signature = some s → ¬ BlockReadable s p.bytes →
      NoticeTrue b L l last (.block (blockName s).toList)
  | infoFlags : infoAnnounced L.flags = true → uAt 4 b (L.infoAt + 8) = none → NoticeTrue b L l last .infoFlags
  | strings : stringsCut L.flags b stringLimits L.stringsAt = true → NoticeTrue b L l last .strings
  | blockSignature {p : Piece} : p ∈ l → p.signature = none → NoticeTrue b L l last .blockSignature
  | blockSize : 0 < last.length → last.length < 4 → NoticeTrue b L l last .blockSize

/-- What no message tells: the text that could not be decoded is not delimited, and the exception is not named. -/
def blurred : Warn → Warn
  | .decode _ => .decode []
  | .extraBlock name _ => .extraBlock name .valueError
  | w => w

end Verif.Spec
