import Verif.Model.Header
import Verif.Model.Text
import Verif.Py.Dict

/-
LnkParse3/string_data.py
-/

namespace Verif

/-- `"Flag" in header.link_flags()`.  Models lnk_file.py:36-61. -/
def LnkHeader.hasFlag (h : LnkHeader) (name : String) : Py Bool := do
  let fs ← h.linkFlags
  pure (fs.contains name)

/-- A `StringData` object: the strings read, in order, and the number of bytes consumed.
Models string_data.py:25-61. -/
structure StringData where
  data : List (String × Str)
  size : Nat

namespace StringData

/-- `read(binary, limit_length)`: character count, characters; the text and the number of bytes consumed.
Models string_data.py:81-93. -/
def read (h : LnkHeader) (tp : TextProc) (binary : Bytes) (limit_length : Bool) : Py (Str × Nat) := do
  let char_count ← unpackU 2 (slice binary 0 2)
  let length := if limit_length && decide (char_count > 260) then 260 else char_count
  let u ← h.hasFlag "IsUnicode"
  if u then do
    let length := length * 2
    let text ← TextProc.readUnicodeString (slice binary 2 (2 + length))
    pure (text, 2 + length)
  else do
    let text ← tp.readString (slice binary 2 (2 + length))
    pure (text, 2 + length)

/-- The five optional strings: flag, key, whether the 260 character limit applies.
Models string_data.py:34-57. -/
def fields : List (String × String × Bool) :=
  [ ("HasName", "description", true), ("HasRelativePath", "relative_path", true),
    ("HasWorkingDir", "working_directory", true), ("HasArguments", "command_line_arguments", false),
    ("HasIconLocation", "icon_location", false) ]

/-- The body of the `try` block, field by field; a `struct.error` is reported and ends it, what was read before
it stays.  Models string_data.py:32-61. -/
def loop (h : LnkHeader) (tp : TextProc) (raw : Bytes) :
    List (String × String × Bool) → List (String × Str) → Nat → Py StringData
  | [], data, start => pure ⟨data, start⟩
  | (flag, key, limit) :: fs, data, start => do
    let r ← Py.attempt
      (do
        let b ← h.hasFlag flag
        if b then do
          let tl ← read h tp (raw.drop start) limit
          pure (some tl)
        else pure none : Py (Option (Str × Nat)))
      (fun e => e = .structError)
    match r with
    | .error _ => do
      Py.warn .stringData
      pure ⟨data, start⟩
    | .ok none => loop h tp raw fs data start
    | .ok (some (text, length)) => loop h tp raw fs (data ++ [(key, text)]) (start + length)

/-- `StringData(lnk_file, indata, cp)`.  Models string_data.py:25-61. -/
def init (h : LnkHeader) (tp : TextProc) (indata : Bytes) : Py StringData := loop h tp indata fields [] 0

/-- `description()` etc.: `_data.get(key)`.  Models string_data.py:66-79. -/
def get? (s : StringData) (key : String) : Option Str := s.data.lookup key

/-- Models string_data.py:95-96 (no value is ever `None`). -/
def asDict (s : StringData) : Dict := s.data.map fun kv => (kv.1, .str kv.2)

end StringData

end Verif
