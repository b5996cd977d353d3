import Verif.Py.Codec
import Verif.Py.DateTime

/-
LnkParse3/utils.py, LnkParse3/decorators.py
-/

namespace Verif

/-- The `must_be` decorator: pass the result through, warn when it differs from `expected`.
Models decorators.py:10-24. -/
def mustBe (func : String) (expected : MustVal) (wrap : α → MustVal) (x : Py α) : Py α := do
  let result ← x
  if wrap result ≠ expected then
    Py.warn (.mustBe func expected (wrap result))
  pure result

/-- `parse_uuid(binary)`: `unpack("<LHH", binary[0:8])` then `unpack(">HHI", binary[8:16])`; each needs all its
8 bytes.  Models utils.py:8-18. -/
def parseUuid (binary : Bytes) : Py Str := do
  let a := slice binary 0 8
  let b := slice binary 8 16
  if a.length ≠ 8 then Py.raise .structError
  if b.length ≠ 8 then Py.raise .structError
  let d1 := leNat (slice a 0 4)
  let d2 := leNat (slice a 4 6)
  let d3 := leNat (slice a 6 8)
  let d4 := beNat (slice b 0 2)
  let d51 := beNat (slice b 2 4)
  let d52 := beNat (slice b 4 8)
  pure (fmtX 8 d1 ++ '-' :: fmtX 4 d2 ++ '-' :: fmtX 4 d3 ++ '-' :: fmtX 4 d4 ++ '-' ::
    (fmtX 4 d51 ++ fmtX 8 d52))

/-- The alphabet of packed GUIDs.  Models utils.py:24-26. -/
def base85 : Str :=
  "!$%&'()*+,-.0123456789=?@ABCDEFGHIJKLMNOPQRSTUVWXYZ[]^_`abcdefghijklmnopqrstuvwxyz{}~".toList

/-- `text.find(char)`: index of the first occurrence or -1. -/
def strFind (text : Str) (c : Char) : Int :=
  match text.idxOf? c with
  | some i => (i : Int)
  | none => -1

/-- The `while i >= 1` loop of `_quad_to_hex`, `n` being the loop variable `i`.  Models utils.py:29-35. -/
def quadLoop (quad : Str) : Nat → Int → Py Int
  | 0, ddec => pure ddec
  | n + 1, ddec =>
    match quad[n]? with
    | none => Py.raise .indexError
    | some char =>
      let b85 := strFind base85 char
      let ddec := ddec + b85
      let ddec := if n + 1 > 1 then ddec * 85 else ddec
      quadLoop quad n ddec

/-- `_quad_to_hex(quad)`.  Models utils.py:21-37. -/
def quadToHex (quad : Str) : Py Str := do
  let ddec ← quadLoop quad 5 0
  pure (fmtXInt 8 ddec)

/-- `parse_packed_uuid(text)` (`None` in, `None` out).  Models utils.py:40-78. -/
def parsePackedUuid : Option Str → Py (Option Str)
  | none => pure none
  | some text => do
    let quad1 ← quadToHex (slice text 0 5)
    let quad2 ← quadToHex (slice text 5 10)
    let quad3 ← quadToHex (slice text 10 15)
    let quad4 ← quadToHex (slice text 15 20)
    let quads := quad1 ++ quad2 ++ quad3 ++ quad4
    let d1 := slice quads 0 8
    let d2 := slice quads 12 16
    let d3 := slice quads 8 12
    let d41 := slice quads 22 24
    let d42 := slice quads 20 22
    let d51 := slice quads 18 20
    let d52 := slice quads 16 18
    let d53 := slice quads 30 32
    let d54 := slice quads 28 30
    let d55 := slice quads 26 28
    let d56 := slice quads 24 26
    pure (some (d1 ++ '-' :: d2 ++ '-' :: d3 ++ '-' :: d41 ++ d42 ++ '-' ::
      (d51 ++ d52 ++ d53 ++ d54 ++ d55 ++ d56)))

/-- 100ns intervals between 1601-01-01 and 1970-01-01.  Models utils.py:95. -/
def epochAsFiletime : Int := 116444736000000000

/-- `parse_filetime(binary)`: `None` for zero and (with a warning) for values `fromtimestamp` rejects.  The
division of two integers is correctly rounded to a double.  `struct.error` is not caught.
Models utils.py:81-110 (the Python < 3.8 branch only formats the warning text and is dropped). -/
def parseFiletime (binary : Bytes) : Py (Option DateTime) :=
  Py.tryExcept
    (do
      let nanosec ← unpackI 8 binary
      if nanosec = 0 then pure none
      else do
        let timestamp := toDouble (((nanosec - epochAsFiletime : Int) : ℚ) / 10000000)
        let d ← fromTimestamp timestamp
        pure (some d))
    (fun e => e = .osError ∨ e = .overflowError ∨ e.isValueError)
    (fun _ => do
      Py.warn (.invalidFiletime binary)
      pure none)

/-- `parse_dostime(binary)`.  Models utils.py:113-168. -/
def parseDostime (binary : Bytes) : Py (Option DateTime) :=
  Py.tryExcept
    (do
      let dos ← unpackU 4 binary
      if dos = 0 then pure none
      else do
        let d ← mkDateTime
          (((dos &&& 0x0000FE00) >>> 9) + 1980)
          ((dos &&& 0x000001E0) >>> 5)
          ((dos &&& 0x0000001F) >>> 0)
          ((dos &&& 0xF8000000) >>> 27)
          ((dos &&& 0x07E00000) >>> 21)
          (((dos &&& 0x001F0000) >>> 16) * 2)
        pure (some d))
    (fun e => e.isValueError)
    (fun _ => do
      Py.warn (.invalidDostime binary)
      pure none)

end Verif
