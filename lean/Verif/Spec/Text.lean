import Verif.Spec.Bytes
import Verif.Model.Text

/-
Specification layer for texts: UTF-16LE as an encoder, UTF-8 as Lean core's encoder, the Windows-1252 code
page as a table of exceptions to Latin-1.
-/

namespace Verif.Spec

/-! ### UTF-16LE -/

/-- UTF-16LE encoding of one character: one unit, or a surrogate pair. -/
def utf16Char (c : Char) : List UInt8 :=
  if c.toNat < 0x10000 then le 2 c.toNat
  else le 2 (0xD800 + (c.toNat - 0x10000) / 1024) ++ le 2 (0xDC00 + (c.toNat - 0x10000) % 1024)

/-- UTF-16LE encoding of a text. -/
def utf16 (s : List Char) : List UInt8 := s.flatMap utf16Char

/-- A sequence of 2-byte units as bytes. -/
def units (us : List UInt16) : List UInt8 := us.flatMap fun u => le 2 u.toNat

/-- The units that may start (`0xD800`-`0xDBFF`) or end (`0xDC00`-`0xDFFF`) a surrogate pair. -/
def HighUnit (u : UInt16) : Prop := 0xD800 ≤ u.toNat ∧ u.toNat ≤ 0xDBFF
def LowUnit (u : UInt16) : Prop := 0xDC00 ≤ u.toNat ∧ u.toNat ≤ 0xDFFF

/-- Reading with replacement: `s` is the text of `b` where every maximal part that is not UTF-16 has become
U+FFFD. -/
inductive Utf16Lenient : List UInt8 → List Char → Prop
  | nil : Utf16Lenient [] []
  | char (c : Char) {b s} : Utf16Lenient b s → Utf16Lenient (utf16Char c ++ b) (c :: s)
  /-- an incomplete unit -/
  | odd (x : UInt8) : Utf16Lenient [x] ['�']
  /-- the second half of a pair without the first -/
  | low (u : UInt16) {b s} : LowUnit u → Utf16Lenient b s → Utf16Lenient (le 2 u.toNat ++ b) ('�' :: s)
  /-- the first half of a pair at the end -/
  | highEnd (u : UInt16) {b : List UInt8} : HighUnit u → b.length < 2 →
      Utf16Lenient (le 2 u.toNat ++ b) ['�']
  /-- the first half of a pair followed by something else -/
  | high (u v : UInt16) {b s} : HighUnit u → ¬ LowUnit v → Utf16Lenient (le 2 v.toNat ++ b) s →
      Utf16Lenient (le 2 u.toNat ++ (le 2 v.toNat ++ b)) ('�' :: s)

/-! ### UTF-8 -/

/-- UTF-8 encoding of a text (the character encoder is Lean core's). -/
def utf8 (s : List Char) : List UInt8 := s.flatMap String.utf8EncodeChar

/-! ### Windows-1252 -/

/-- The bytes of Windows-1252 that are not Latin-1. -/
def cp1252Special : List (UInt8 × Char) :=
  [ (0x80, '€'), (0x82, '‚'), (0x83, 'ƒ'), (0x84, '„'), (0x85, '…'), (0x86, '†'), (0x87, '‡'), (0x88, 'ˆ'),
    (0x89, '‰'), (0x8A, 'Š'), (0x8B, '‹'), (0x8C, 'Œ'), (0x8E, 'Ž'), (0x91, '‘'), (0x92, '’'), (0x93, '“'),
    (0x94, '”'), (0x95, '•'), (0x96, '–'), (0x97, '—'), (0x98, '˜'), (0x99, '™'), (0x9A, 'š'), (0x9B, '›'),
    (0x9C, 'œ'), (0x9E, 'ž'), (0x9F, 'Ÿ') ]

/-- Byte `b` of Windows-1252 denotes `c`. -/
def Cp1252Char (b : UInt8) (c : Char) : Prop :=
  ((b.toNat < 0x80 ∨ 0xA0 ≤ b.toNat) ∧ c.toNat = b.toNat) ∨ (b, c) ∈ cp1252Special

/-- The bytes `b` of Windows-1252 denote the text `s`. -/
def Cp1252 : List UInt8 → List Char → Prop
  | [], [] => True
  | b :: bs, c :: cs => Cp1252Char b c ∧ Cp1252 bs cs
  | _, _ => False

/-! ### texts in the code page -/

/-- The bytes `b`, which contain no NUL, are text `s` in the code page of `tp` according to Python's own
`bytes.decode`. -/
def CodePageText (tp : TextProc) (b : List UInt8) (s : List Char) : Prop :=
  0 ∉ b ∧ decodeNamed tp.env tp.cp b = pure s

/-- The code page can be used: strict decoding fails only with `UnicodeDecodeError`, decoding with replacement
does not fail. -/
def UsableCodePage (tp : TextProc) : Prop :=
  ∀ b : List UInt8, (∀ e, (decodeNamed tp.env tp.cp b).res = .error e → e = .unicodeDecode) ∧
    ∃ s, (decodeNamedReplace tp.env tp.cp b).res = .ok s

/-- The code page decodes to at most one character for each byte. -/
def Frugal (tp : TextProc) : Prop :=
  ∀ (b : List UInt8) (s : List Char), (decodeNamed tp.env tp.cp b).res = .ok s ∨
    (decodeNamedReplace tp.env tp.cp b).res = .ok s → s.length ≤ b.length

end Verif.Spec
