import Verif.Model.Messages

/-
What `warnings.warn` writes to standard error, with the filters Python starts with: category `UserWarning` falls to the action
"default".
-/

namespace Verif

/-- A call of `warnings.warn`: the warning, what its message quotes, and, for a text that cannot be decoded, whether
`read_unicode_strings` issues it. -/
structure Call where
  warn : Warn
  quote : Quote
  wide : Bool

/-- Where a call is written: the file in the directory of the package, the number of the line, and the line without its indentation. -/
structure Place where
  file : String
  line : Nat
  source : String
deriving DecidableEq

namespace Call

/-- The message. -/
def text (c : Call) : Str := c.warn.text c.quote

/-- Models decorators.py:18, utils.py:109 and 167, text_processor.py:30 and 56, target_factory.py:46, target/lnk_target_base.py:59,
target/root_folder.py:49, target/control_panel_category.py:61, lnk_targets.py:92, extra/shell_item.py:64, info_factory.py:46,
string_data.py:59, extra_data.py:35 and 68, extra_factory.py:64. -/
def place (c : Call) : Place :=
  match c.warn with
  | .mustBe _ _ _ => ⟨"decorators.py", 18, "warnings.warn(msg)"⟩
  | .invalidFiletime _ => ⟨"utils.py", 109, "warnings.warn(msg)"⟩
  | .invalidDostime _ => ⟨"utils.py", 167, "warnings.warn(msg)"⟩
  | .decode _ => ⟨"text_processor.py", if c.wide then 56 else 30, "warnings.warn(msg)"⟩
  | .itemType _ => ⟨"target_factory.py", 46, "warnings.warn(msg)"⟩
  | .itemFlags _ => ⟨"target/lnk_target_base.py", 59, "warnings.warn(msg)"⟩
  | .sortIndex _ => ⟨"target/root_folder.py", 49, "warnings.warn(msg)"⟩
  | .category _ => ⟨"target/control_panel_category.py", 61, "warnings.warn(msg)"⟩
  | .targetKey _ => if c.quote.inBlock then ⟨"extra/shell_item.py", 64, "warnings.warn(msg)"⟩ else ⟨"lnk_targets.py", 92, "warnings.warn(msg)"⟩
  | .infoClass => ⟨"info_factory.py", 46, "warnings.warn(f\"Error while selecting proper Info class: {e!r}\")"⟩
  | .stringData => ⟨"string_data.py", 59, "warnings.warn(f\"Error while parsing String data: {e!r}\")"⟩
  | .extraSize => ⟨"extra_data.py", 35, "warnings.warn(f\"Error while parsing extra data: {e!r}\")"⟩
  | .extraSignature => ⟨"extra_factory.py", 64, "warnings.warn(f\"Error while parsing extra's signature {e}\")"⟩
  | .extraBlock _ _ => ⟨"extra_data.py", 68, "warnings.warn(msg)"⟩

/-- `warnings.formatwarning`; `dir` is the directory of the package, with a slash. -/
def shown (dir : Str) (c : Call) : Str :=
  dir ++ c.place.file.toList ++ ':' :: decStr c.place.line ++ ": UserWarning: ".toList ++ c.text ++ "\n  ".toList ++
    c.place.source.toList ++ ['\n']

end Call

/-- The keys of the `__warningregistry__` of all modules. -/
abbrev Registry := List (Place × Str)

namespace Registry

/-- `warnings.warn`: a message already shown for the line is not shown again.  Models the action "default" of `warnings.warn_explicit`
(standard library). -/
def warn (dir : Str) (reg : Registry) (c : Call) : Registry × Str :=
  if (c.place, c.text) ∈ reg then (reg, []) else ((c.place, c.text) :: reg, c.shown dir)

/-- One call after the other. -/
def warns (dir : Str) : Registry → List Call → Registry × Str
  | reg, [] => (reg, [])
  | reg, c :: cs =>
    let r := reg.warn dir c
    let s := warns dir r.1 cs
    (s.1, r.2 ++ s.2)

end Registry

/-- What a process writes to standard error by these calls. -/
def stderr (dir : Str) (cs : List Call) : Str := (Registry.warns dir [] cs).2

end Verif
