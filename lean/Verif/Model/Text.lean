import Verif.Py.Codec

/-
LnkParse3/text_processor.py.  A generator is the list of its suspended steps: element `i` is the computation
performed by the `i`-th `next()`.
-/

namespace Verif

/-- A `TextProcessor`: the registry and the code page name.  Models text_processor.py:12-14. -/
structure TextProc where
  env : Env
  cp : String

/-- `TextProcessor(cp=cp)`: `cp or "cp1252"` (an empty string is falsy too).  Models text_processor.py:13-14. -/
def TextProc.mk' (env : Env) (cp : Option String) : TextProc :=
  ⟨env, match cp with
    | none => "cp1252"
    | some s => if s = "" then "cp1252" else s⟩

namespace TextProc

/-- `_chars_to_string` of `read_strings`: the code page, then UTF-8, then the code page with replacement and a
warning.  Models text_processor.py:19-31. -/
def ansiToStr (tp : TextProc) (b : Bytes) : Py Str :=
  Py.tryExcept (decodeNamed tp.env tp.cp b) (fun e => e = .unicodeDecode) fun _ =>
    Py.tryExcept (decodeUtf8 b) (fun e => e = .unicodeDecode) fun _ => do
      let s ← decodeNamedReplace tp.env tp.cp b
      Py.warn (.decode s)
      pure s

/-- `read_strings`: split at zero bytes, decode each piece when it is asked for; `chars` is the piece being
collected.  Models text_processor.py:33-40. -/
def readStringsGo (tp : TextProc) (chars : Bytes) : Bytes → List (Py Str)
  | [] => [tp.ansiToStr chars]
  | char :: rest =>
    if char = 0 then tp.ansiToStr chars :: readStringsGo tp [] rest
    else readStringsGo tp (chars ++ [char]) rest

/-- `read_strings(binary)`.  Models text_processor.py:16-40. -/
def readStrings (tp : TextProc) (binary : Bytes) : List (Py Str) := tp.readStringsGo [] binary

/-- `next(it)` on a generator, with the generator that remains. -/
def next : List (Py Str) → Py (Str × List (Py Str))
  | [] => Py.raise .stopIteration
  | x :: rest => do
    let s ← x
    pure (s, rest)

/-- `read_string(binary)`.  Models text_processor.py:42-44. -/
def readString (tp : TextProc) (binary : Bytes) : Py Str := do
  let r ← next (tp.readStrings binary)
  pure r.1

/-- `_chars_to_string` of `read_unicode_strings`: UTF-16LE, then with replacement and a warning.
Models text_processor.py:49-57. -/
def wideToStr (b : Bytes) : Py Str :=
  Py.tryExcept (decodeUtf16 b) (fun e => e = .unicodeDecode) fun _ => do
    let s ← decodeUtf16Replace b
    Py.warn (.decode s)
    pure s

/-- `_2bytes_each(binary)`: pairs of bytes, a last odd byte on its own.  Models text_processor.py:72-84. -/
def twoBytesEach : Bytes → List Bytes
  | [] => []
  | [a] => [[a]]
  | a :: b :: rest => [a, b] :: twoBytesEach rest

/-- The loop of `read_unicode_strings` over the 2-byte units.  Models text_processor.py:59-66. -/
def readWideGo (chars : Bytes) : List Bytes → List (Py Str)
  | [] => [wideToStr chars]
  | char :: rest =>
    if char = [0, 0] then wideToStr chars :: readWideGo [] rest
    else readWideGo (chars ++ char) rest

/-- `read_unicode_strings(binary)`.  Models text_processor.py:46-66. -/
def readUnicodeStrings (binary : Bytes) : List (Py Str) := readWideGo [] (twoBytesEach binary)

/-- `read_unicode_string(binary)`.  Models text_processor.py:68-70. -/
def readUnicodeString (binary : Bytes) : Py Str := do
  let r ← next (readUnicodeStrings binary)
  pure r.1

end TextProc

end Verif
