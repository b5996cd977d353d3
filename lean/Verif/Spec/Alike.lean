import Verif.Spec.Values
import Verif.Spec.CodePage

/-
Specification layer: reports of one file under two code pages, and code pages of one byte per character.
-/

namespace Verif.Spec

/-! ### reports that differ in texts -/

/-- The texts in the code page that may stand in a dictionary, by its first key: in an item, a volume, a network link, the link info, the
strings, an extra block. -/
def textKeys (first : String) : List String :=
  if first = "class" then
    ["cpl_file_path", "name", "comments", "volume_name", "primary_name", "location", "description"]
  else if first = "volume_id_size" then ["volume_label"]
  else if first = "common_network_relative_link_size" then ["net_name", "device_name"]
  else if first = "link_info_size" then ["local_base_path", "common_path_suffix"]
  else if first ∈ stringKeys.map Prod.fst then stringKeys.map Prod.fst
  else if first = "size" then ["target_ansi", "machine_identifier", "darwin_data_ansi", "layer_name"]
  else []

def firstKey (d : Dict) : String := (d.head?.map Prod.fst).getD ""

/-- Two texts for the same bytes of the file `b`: what the one and what the other code page makes of them. -/
def Readings (b : List UInt8) (tp tp' : TextProc) (v w : PyVal) : Prop :=
  ∃ a s s', a <:+: b ∧ NarrowText tp a s ∧ NarrowText tp' a s' ∧ v = .str s ∧ w = .str s'

mutual

/-- The same values, but for texts: these are under the keys where a text in the code page may stand, and are readings of the same bytes
of the file. -/
inductive Alike (b : List UInt8) (tp tp' : TextProc) : PyVal → PyVal → Prop
  | same (v : PyVal) : Alike b tp tp' v v
  | dict {d d' : Dict} : AlikeDict b tp tp' (textKeys (firstKey d)) d d' → Alike b tp tp' (.dict d) (.dict d')
  | list {l l' : List PyVal} : AlikeList b tp tp' l l' → Alike b tp tp' (.list l) (.list l')

/-- The same keys in the same order. -/
inductive AlikeDict (b : List UInt8) (tp tp' : TextProc) : List String → Dict → Dict → Prop
  | nil (texts : List String) : AlikeDict b tp tp' texts [] []
  | value {texts : List String} {k : String} {v w : PyVal} {d d' : Dict} : Alike b tp tp' v w → AlikeDict b tp tp' texts d d' →
      AlikeDict b tp tp' texts ((k, v) :: d) ((k, w) :: d')
  | text {texts : List String} {k : String} {v w : PyVal} {d d' : Dict} : k ∈ texts → Readings b tp tp' v w →
      AlikeDict b tp tp' texts d d' → AlikeDict b tp tp' texts ((k, v) :: d) ((k, w) :: d')

inductive AlikeList (b : List UInt8) (tp tp' : TextProc) : List PyVal → List PyVal → Prop
  | nil : AlikeList b tp tp' [] []
  | cons {v w : PyVal} {l l' : List PyVal} : Alike b tp tp' v w → AlikeList b tp tp' l l' → AlikeList b tp tp' (v :: l) (w :: l')

end

/-- Some bytes are some text: nothing is read as the empty text but nothing. -/
def Audible (tp : TextProc) : Prop :=
  ∀ b : List UInt8, b ≠ [] → (decodeNamed tp.env tp.cp b).res ≠ .ok [] ∧ (decodeNamedReplace tp.env tp.cp b).res ≠ .ok []

/-! ### one byte per character -/

/-- What each byte stands for; some may stand for nothing. -/
abbrev ByteTable := UInt8 → Option Char

/-- The text of the bytes by a table. -/
inductive ByTable (t : ByteTable) : List UInt8 → List Char → Prop
  | nil : ByTable t [] []
  | char {x c b s} : t x = some c → ByTable t b s → ByTable t (x :: b) (c :: s)

/-- The same, with U+FFFD for what stands for nothing. -/
inductive ByTableLenient (t : ByteTable) : List UInt8 → List Char → Prop
  | nil : ByTableLenient t [] []
  | char {x c b s} : t x = some c → ByTableLenient t b s → ByTableLenient t (x :: b) (c :: s)
  | bad {x b s} : t x = none → ByTableLenient t b s → ByTableLenient t (x :: b) ('�' :: s)

/-- The codec decodes by the table: strictly, `UnicodeDecodeError` if a byte stands for nothing; otherwise with replacements. -/
structure IsTable (c : Codec) (t : ByteTable) : Prop where
  strict : ∀ b s, ByTable t b s → c.strict b = .ok s
  undefined : ∀ b, (∃ x ∈ b, t x = none) → c.strict b = .error .unicodeDecode
  replace : ∀ b s, ByTableLenient t b s → c.replace b = .ok s

/-- Latin-1: every byte is the character with its number. -/
def latin1 : ByteTable := fun x => some (Char.ofNat x.toNat)

/-- A codec for each table. -/
def tableCodec (t : ByteTable) : Codec where
  strict b := if b.all fun x => (t x).isSome then .ok (b.map fun x => (t x).getD '�') else .error .unicodeDecode
  replace b := .ok (b.map fun x => (t x).getD '�')

end Verif.Spec
