import Verif.Spec.Text

/-
Specification layer: StringData ([MS-SHLLINK] 2.4).
-/

namespace Verif.Spec

/-- One of the five optional strings: the LinkFlags bit that announces it, the key it is reported under, the
largest number of characters the parser accepts, and, if present, its bytes and the text they stand for. -/
structure StringField where
  bit : Nat
  key : String
  limit : Nat
  content : Option (List UInt8 × List Char)

/-- The five optional strings (bytes and text of those present). -/
structure Strings where
  name : Option (List UInt8 × List Char)
  relativePath : Option (List UInt8 × List Char)
  workingDir : Option (List UInt8 × List Char)
  arguments : Option (List UInt8 × List Char)
  iconLocation : Option (List UInt8 × List Char)

/-- The strings in file order ([MS-SHLLINK] 2.4). -/
def Strings.fields (s : Strings) : List StringField :=
  [ ⟨2, "description", 260, s.name⟩, ⟨3, "relative_path", 260, s.relativePath⟩,
    ⟨4, "working_directory", 260, s.workingDir⟩, ⟨5, "command_line_arguments", 65535, s.arguments⟩,
    ⟨6, "icon_location", 65535, s.iconLocation⟩ ]

/-- One string: the number of characters (UTF-16 units or bytes), then the characters; not terminated. -/
def stringBytes (unicode : Bool) (raw : List UInt8) : List UInt8 :=
  le 2 (if unicode then raw.length / 2 else raw.length) ++ raw

/-- A field; nothing if the string is absent. -/
def StringField.encode (unicode : Bool) (f : StringField) : List UInt8 :=
  match f.content with
  | none => []
  | some (raw, _) => stringBytes unicode raw

/-- Several fields one after another. -/
def encodeFields (unicode : Bool) (fs : List StringField) : List UInt8 := fs.flatMap (StringField.encode unicode)

/-- Key and text of the strings present. -/
def fieldTexts (fs : List StringField) : List (String × List Char) :=
  fs.filterMap fun f => f.content.map fun c => (f.key, c.2)

/-- The StringData section. -/
def Strings.encode (unicode : Bool) (s : Strings) : List UInt8 := encodeFields unicode s.fields

/-- The announced strings are the ones present. -/
def Announced (flags : Nat) (fs : List StringField) : Prop := ∀ f ∈ fs, flags.testBit f.bit = f.content.isSome

/-- The bytes are the text in the chosen form and the text is not longer than the parser's limit. -/
def StringField.Valid (tp : TextProc) (unicode : Bool) (f : StringField) : Prop :=
  ∀ raw text, f.content = some (raw, text) →
    if unicode then raw = utf16 text ∧ '\x00' ∉ text ∧ raw.length / 2 ≤ f.limit
    else CodePageText tp raw text ∧ raw.length ≤ f.limit

end Verif.Spec
