import Verif.Spec.Printed

/-
Specification layer: what the reduced report (`get_json(False)`, the default) tells about a link.  Compared with the full
report it leaves out reserved header fields, sizes and offsets, and the date of file entries.
-/

namespace Verif.Spec

/-- The same file entry but for the date. -/
structure BriefEntry (e e' : FileEntry) : Prop where
  kind : SameKind e.typ e'.typ
  fileSize : e.fileSize = e'.fileSize
  attributes : e.attributes = e'.attributes
  name : SameText e.name e'.name

/-- The same item; the date of a file entry is left out, but not that of the file entry within a users files item. -/
inductive BriefItem : Item → Item → Prop
  | file {e e'} : BriefEntry e e' → BriefItem (.file e) (.file e')
  | same {it it'} : SameItem it it' → BriefItem it it'

/-- No name is shown: names in code page form that are empty, Unicode names that are missing. -/
def NetLink.Nameless (n : NetLink) : Prop := ∀ x ∈ n.netName.toList ++ n.deviceName.toList, x.text = [] ∧ n.wide = none

/-- The same location, wherever its parts stand. -/
inductive BriefLocation : Location → Location → Prop
  | volume {v v' : Volume} : v.driveType = v'.driveType → v.serial = v'.serial → v.wideLabelOffset = v'.wideLabelOffset →
      SameText v.label v'.label → BriefLocation (.volume v) (.volume v')
  | network {n n' : NetLink} : n.flags = n'.flags → n.provider = n'.provider → n.wide = n'.wide →
      SameOptText n.netName n'.netName → SameOptText n.deviceName n'.deviceName → BriefLocation (.network n) (.network n')
  | nameless {n n' : NetLink} : n.flags = n'.flags → n.provider = n'.provider → n.Nameless → n'.Nameless →
      BriefLocation (.network n) (.network n')

/-- The same LinkInfo; the offsets of Unicode texts are seen, missing ones are not told from zero. -/
structure BriefInfo (i i' : Info) : Prop where
  flags : i.header.flags = i'.header.flags
  wide : i.header.wide.getD (0, 0) = i'.header.wide.getD (0, 0)
  base : SameOptText i.texts.base i'.texts.base
  suffix : SameOptText i.texts.suffix i'.texts.suffix
  wideBase : SameOptText i.texts.wideBase i'.texts.wideBase
  wideSuffix4 : SameOptText i.texts.wideSuffix4 i'.texts.wideSuffix4
  location : BriefLocation i.location i'.location

/-- The fields of a header that are shown as they are, the others set to 0. -/
def Header.shown (h : Header) : Header :=
  { h with
    headerSize := 0
    creationTime := 0
    accessTime := 0
    writeTime := 0
    showCommand := 0
    reserved1 := 0
    reserved2 := 0
    reserved3 := 0 }

/-- The same header but for its size and reserved fields; `time` tells when two times are the same. -/
structure BriefHeader (time : Int64 → Int64 → Prop) (h h' : Header) : Prop where
  exact : h.shown = h'.shown
  creation : time h.creationTime h'.creationTime
  access : time h.accessTime h'.accessTime
  write : time h.writeTime h'.writeTime
  showCommand : h.showCommand = h'.showCommand ∨ (h.showCommand ∉ [3, 7] ∧ h'.showCommand ∉ [3, 7])

/-- The same link, as far as the reduced report tells. -/
structure BriefLink (hash : List UInt8 → List Char) (time : Int64 → Int64 → Prop) (s s' : ShellLink) : Prop where
  header : BriefHeader time s.header s'.header
  items : Option.Rel (List.Forall₂ BriefItem) s.items s'.items
  info : Option.Rel BriefInfo s.info s'.info
  strings : s.strings.texts = s'.strings.texts
  blocks : ∀ name, name ≠ "UNKNOWN_BLOCK" → Option.Rel (SameBlock hash) (s.lastBlock name) (s'.lastBlock name)
  unknown : List.Forall₂ (SameBlock hash) s.unknownBlocks s'.unknownBlocks

end Verif.Spec
