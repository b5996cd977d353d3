import Verif.Py.Basic

/-
`bytes.decode`: the codecs LnkParse3 names itself (cp1252, UTF-8, UTF-16LE, ASCII) are concrete, any
other code page is a parameter.
-/

namespace Verif

/-- U+FFFD, what `errors="replace"` inserts. -/
def replacementChar : Char := Char.ofNat 0xFFFD

/-- A text codec as seen by `bytes.decode(name)` and `bytes.decode(name, errors="replace")` on non-empty
input. -/
structure Codec where
  strict : Bytes → Except PyErr Str
  replace : Bytes → Except PyErr Str

/-- What the model takes from the outside world: the codec registry and `hashlib.sha256(..).hexdigest()`. -/
structure Env where
  lookup : String → Option Codec
  sha256hex : Bytes → Str

/-! ### cp1252 -/

/-- The 0x80-0x9F row of Python's cp1252 table (`none` = undefined byte). -/
def cp1252High : List (Option Nat) :=
  [ some 0x20AC, none, some 0x201A, some 0x0192, some 0x201E, some 0x2026, some 0x2020, some 0x2021,
    some 0x02C6, some 0x2030, some 0x0160, some 0x2039, some 0x0152, none, some 0x017D, none,
    none, some 0x2018, some 0x2019, some 0x201C, some 0x201D, some 0x2022, some 0x2013, some 0x2014,
    some 0x02DC, some 0x2122, some 0x0161, some 0x203A, some 0x0153, none, some 0x017E, some 0x0178 ]

/-- cp1252 decoding of one byte. -/
def cp1252Char (b : UInt8) : Option Char :=
  if b.toNat < 0x80 ∨ 0xA0 ≤ b.toNat then some (Char.ofNat b.toNat)
  else ((cp1252High[b.toNat - 0x80]?).getD none).map Char.ofNat

/-- Strict reading of a list of decoded pieces: any error piece is a `UnicodeDecodeError`. -/
def strictOf (l : List (Option Char)) : Except PyErr Str :=
  if l.all Option.isSome then .ok (l.map (·.getD replacementChar)) else .error .unicodeDecode

/-- `errors="replace"` reading of a list of decoded pieces. -/
def replaceOf (l : List (Option Char)) : Str := l.map (·.getD replacementChar)

/-- Python's `cp1252` codec. -/
def cp1252 : Codec where
  strict b := strictOf (b.map cp1252Char)
  replace b := .ok (replaceOf (b.map cp1252Char))

/-! ### UTF-16LE -/

/-- High (leading) surrogate code unit. -/
def isHighSurr (u : Nat) : Bool := 0xD800 ≤ u && u < 0xDC00

/-- Low (trailing) surrogate code unit. -/
def isLowSurr (u : Nat) : Bool := 0xDC00 ≤ u && u < 0xE000

/-- CPython's UTF-16LE decoder (`PyUnicode_DecodeUTF16Stateful`, final chunk): `some c` for a decoded
character, `none` for one decoding error.  An odd last byte is one error; a lone low surrogate is one error of
2 bytes; a high surrogate without two following bytes is one error reaching to the end; a high surrogate
followed by another unit is one error of 2 bytes and decoding resumes at that unit. -/
def utf16Pieces : Bytes → List (Option Char)
  | [] => []
  | [_] => [none]
  | lo :: hi :: rest =>
    let u := lo.toNat + 256 * hi.toNat
    if isLowSurr u then none :: utf16Pieces rest
    else if isHighSurr u then
      match rest with
      | lo2 :: hi2 :: rest2 =>
        let v := lo2.toNat + 256 * hi2.toNat
        if isLowSurr v then
          some (Char.ofNat (0x10000 + (u - 0xD800) * 0x400 + (v - 0xDC00))) :: utf16Pieces rest2
        else none :: utf16Pieces (lo2 :: hi2 :: rest2)
      | _ => [none]
    else some (Char.ofNat u) :: utf16Pieces rest

/-! ### UTF-8 (strict) -/

/-- Continuation byte in a given range. -/
def inRange (lo hi : Nat) (b : UInt8) : Bool := lo ≤ b.toNat && b.toNat ≤ hi

/-- Strict UTF-8 decoding, accepting exactly the well-formed sequences of Unicode Table 3-7. -/
def utf8Decode : Bytes → Option Str
  | [] => some []
  | b0 :: rest =>
    let n0 := b0.toNat
    if n0 < 0x80 then (utf8Decode rest).map (Char.ofNat n0 :: ·)
    else if 0xC2 ≤ n0 ∧ n0 ≤ 0xDF then
      match rest with
      | b1 :: r =>
        if inRange 0x80 0xBF b1 then
          (utf8Decode r).map (Char.ofNat ((n0 - 0xC0) * 64 + (b1.toNat - 0x80)) :: ·)
        else none
      | _ => none
    else if 0xE0 ≤ n0 ∧ n0 ≤ 0xEF then
      match rest with
      | b1 :: b2 :: r =>
        if inRange (if n0 = 0xE0 then 0xA0 else 0x80) (if n0 = 0xED then 0x9F else 0xBF) b1
            && inRange 0x80 0xBF b2 then
          (utf8Decode r).map
            (Char.ofNat ((n0 - 0xE0) * 4096 + (b1.toNat - 0x80) * 64 + (b2.toNat - 0x80)) :: ·)
        else none
      | _ => none
    else if 0xF0 ≤ n0 ∧ n0 ≤ 0xF4 then
      match rest with
      | b1 :: b2 :: b3 :: r =>
        if inRange (if n0 = 0xF0 then 0x90 else 0x80) (if n0 = 0xF4 then 0x8F else 0xBF) b1
            && inRange 0x80 0xBF b2 && inRange 0x80 0xBF b3 then
          (utf8Decode r).map
            (Char.ofNat ((n0 - 0xF0) * 262144 + (b1.toNat - 0x80) * 4096 + (b2.toNat - 0x80) * 64
              + (b3.toNat - 0x80)) :: ·)
        else none
      | _ => none
    else none

/-! ### ASCII with replacement -/

/-- `b.decode("ascii", errors="replace")` (target/users_files_folder.py:68). -/
def asciiReplace (b : Bytes) : Str :=
  b.map fun x => if x.toNat < 0x80 then Char.ofNat x.toNat else replacementChar

/-! ### decoding by codec name -/

/-- The codec registered under a name; `cp1252` is fixed, everything else comes from the environment. -/
def Env.resolve (env : Env) (name : String) : Option Codec :=
  if name = "cp1252" then some cp1252 else env.lookup name

/-- `b.decode(name)`.  CPython returns `""` for empty input without looking the codec up. -/
def decodeNamed (env : Env) (name : String) (b : Bytes) : Py Str :=
  if b = [] then pure []
  else match env.resolve name with
    | none => Py.raise .lookupError
    | some c => ⟨[], c.strict b⟩

/-- `b.decode(name, errors="replace")`. -/
def decodeNamedReplace (env : Env) (name : String) (b : Bytes) : Py Str :=
  if b = [] then pure []
  else match env.resolve name with
    | none => Py.raise .lookupError
    | some c => ⟨[], c.replace b⟩

/-- `b.decode("utf-8")`. -/
def decodeUtf8 (b : Bytes) : Py Str :=
  match utf8Decode b with
  | some s => pure s
  | none => Py.raise .unicodeDecode

/-- `b.decode("utf-16le")`. -/
def decodeUtf16 (b : Bytes) : Py Str := ⟨[], strictOf (utf16Pieces b)⟩

/-- `b.decode("utf-16le", errors="replace")`. -/
def decodeUtf16Replace (b : Bytes) : Py Str := pure (replaceOf (utf16Pieces b))

end Verif
