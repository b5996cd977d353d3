import Verif.Spec.File
import Verif.Spec.Double

/-
Specification layer: when two links have the same contents as far as a reader can tell.  What is left out: unused and
unknown bytes, what follows a terminator, the form (code page or UTF-16) of a text, times below the precision of the report.
-/

namespace Verif.Spec

/-- The same texts, whatever their bytes. -/
def SameText (t t' : Text) : Prop := t.text = t'.text

def SameOptText (t t' : Option Text) : Prop := t.map (·.text) = t'.map (·.text)

/-- The same kind of file entry or network location: the low three bits of the type byte, except that directories and shares
with Unicode names are not told apart. -/
def SameKind (a b : UInt8) : Prop :=
  a.toNat % 8 = b.toNat % 8 ∨ (a.toNat % 8 ∈ [5, 7] ∧ b.toNat % 8 ∈ [5, 7])

/-- The same file entry; date words that are no date are not told apart. -/
structure SameEntry (e e' : FileEntry) : Prop where
  kind : SameKind e.typ e'.typ
  fileSize : e.fileSize = e'.fileSize
  modified : (e.date = e'.date ∧ e.time = e'.time) ∨
    (¬ ValidDateTime (dosDateTime e.date.toNat e.time.toNat) ∧ ¬ ValidDateTime (dosDateTime e'.date.toNat e'.time.toNat))
  attributes : e.attributes = e'.attributes
  name : SameText e.name e'.name

/-- Signature, path, name and comments of a control panel item. -/
def Item.cplParts : Item → Option (UInt32 × List Char × List Char × List Char)
  | .cpl _ sig path name comments _ => some (sig, path.text, name.text, (comments.map (·.text)).getD [])
  | .cplWide _ sig _ path name comments _ => some (sig, path.text, name.text, (comments.map (·.text)).getD [])
  | _ => none

/-- The same item. -/
inductive SameItem : Item → Item → Prop
  | cpl {it it' : Item} {p} : it.cplParts = some p → it'.cplParts = some p → SameItem it it'
  | category {u u' sig sig' id tr tr'} : SameItem (.category u sig id tr) (.category u' sig' id tr')
  | root {typ typ' si g tr tr'} : SameItem (.root typ si g tr) (.root typ' si g tr')
  | volume {typ typ' : UInt8} {n n' p p' tr tr'} : typ.toNat % 128 = typ'.toNat % 128 → SameText n n' →
      SameItem (.volume typ n p tr) (.volume typ' n' p' tr')
  | volumeGuid {typ typ' : UInt8} {u u' g tr tr'} : typ.toNat % 128 = typ'.toNat % 128 →
      SameItem (.volumeGuid typ u g tr) (.volumeGuid typ' u' g tr')
  | file {e e'} : SameEntry e e' → SameItem (.file e) (.file e')
  | network {typ typ' u u' cf l l' d d' c c' tr tr'} : SameKind typ typ' → SameText l l' → SameOptText d d' →
      SameOptText c c' → SameItem (.network typ u cf l d c tr) (.network typ' u' cf l' d' c' tr')
  | classOnly {typ b b'} : SameItem (.classOnly typ b) (.classOnly typ b')
  | controlPanel {typ typ' u u' g tr tr'} : SameItem (.controlPanel typ u g tr) (.controlPanel typ' u' g tr')
  | usersFiles {u u' sig e e' c f tr tr'} : SameEntry e e' →
      SameItem (.usersFiles u sig e c f tr) (.usersFiles u' sig e' c f tr')
  | other {typ typ'} {b b' : List UInt8} : b.length = b'.length → SameItem (.other typ b) (.other typ' b')

/-- The same location. -/
inductive SameLocation : Location → Location → Prop
  | volume {v v' : Volume} : v.size = v'.size → v.driveType = v'.driveType → v.serial = v'.serial →
      v.labelOffset = v'.labelOffset → v.wideLabelOffset = v'.wideLabelOffset → SameText v.label v'.label →
      SameLocation (.volume v) (.volume v')
  | network {n n' : NetLink} : n.size = n'.size → n.flags = n'.flags → n.netNameOffset = n'.netNameOffset →
      n.deviceNameOffset = n'.deviceNameOffset → n.provider = n'.provider → n.wide = n'.wide →
      SameOptText n.netName n'.netName → SameOptText n.deviceName n'.deviceName →
      SameLocation (.network n) (.network n')

/-- The same LinkInfo. -/
structure SameInfo (i i' : Info) : Prop where
  header : i.header = i'.header
  base : SameOptText i.texts.base i'.texts.base
  suffix : SameOptText i.texts.suffix i'.texts.suffix
  wideBase : SameOptText i.texts.wideBase i'.texts.wideBase
  wideSuffix4 : SameOptText i.texts.wideSuffix4 i'.texts.wideSuffix4
  location : SameLocation i.location i'.location

/-- The same typed value: type, and the text of a Unicode string. -/
inductive SameValue : TypedValue → TypedValue → Prop
  | str {f f' m m'} : SameText f.text f'.text → SameValue (.str f m) (.str f' m')
  | other {t p p' d d'} : SameValue (.other t p d) (.other t p' d')

/-- The same property, of the same size. -/
inductive SameProperty : Property → Property → Prop
  | int {id r r' v v'} : SameValue v v' → v.encode.length = v'.encode.length →
      SameProperty (.int id r v) (.int id r' v')
  | str {n n' : Field} {r r' v v'} : SameText n.text n'.text → (n.encode true).length = (n'.encode true).length →
      SameValue v v' → v.encode.length = v'.encode.length → SameProperty (.str n r v) (.str n' r' v')

structure SameStorage (s s' : Storage) : Prop where
  version : s.version = s'.version
  format : s.format = s'.format
  properties : List.Forall₂ SameProperty s.properties s'.properties

/-- The same contents of a block; of unknown blocks a digest of everything after the size is compared. -/
inductive SameContents (hash : List UInt8 → List Char) : Block × List UInt8 → Block × List UInt8 → Prop
  | environment {a a' w w' : Field} {m m'} : SameText a.text a'.text → SameText w.text w'.text →
      SameContents hash (.environment a w, m) (.environment a' w', m')
  | console {c c' : ConsoleBlock} {m m'} : SameText c.faceName.text c'.faceName.text →
      { c with unused1 := 0, unused2 := 0, faceName := c'.faceName } = { c' with unused1 := 0, unused2 := 0 } →
      SameContents hash (.console c, m) (.console c', m')
  | tracker {t t' : TrackerBlock} {m m'} : SameText t.machine.text t'.machine.text →
      { t with machine := t'.machine } = t' → SameContents hash (.tracker t, m) (.tracker t', m')
  | codePage {cp m m'} : SameContents hash (.codePage cp, m) (.codePage cp, m')
  | specialFolder {i o m m'} : SameContents hash (.specialFolder i o, m) (.specialFolder i o, m')
  | darwin {a a' : Field} {d j j' m m'} : SameText a.text a'.text →
      SameContents hash (.darwin a d j, m) (.darwin a' d j', m')
  | icon {a a' w w' : Field} {m m'} : SameText a.text a'.text → SameText w.text w'.text →
      SameContents hash (.icon a w, m) (.icon a' w', m')
  | shimLayer {t t' m m'} : SameText t t' → SameContents hash (.shimLayer t, m) (.shimLayer t', m')
  | metadata {l l' m m'} : List.Forall₂ SameStorage l l' → SameContents hash (.metadata l, m) (.metadata l', m')
  | knownFolder {i o m m'} : SameContents hash (.knownFolder i o, m) (.knownFolder i o, m')
  | shellItem {l l' m m'} : List.Forall₂ SameItem l l' → SameContents hash (.shellItem l, m) (.shellItem l', m')
  | other {s s' : UInt32} {d d' m m'} : hash (le 4 s.toNat ++ (d ++ m)) = hash (le 4 s'.toNat ++ (d' ++ m')) →
      SameContents hash (.other s d, m) (.other s' d', m')

/-- The same block: size and contents. -/
structure SameBlock (hash : List UInt8 → List Char) (b b' : Block × List UInt8) : Prop where
  size : (b.1.payload ++ b.2).length = (b'.1.payload ++ b'.2).length
  contents : SameContents hash b b'

/-- Two FILETIME values that cannot be told apart: both without a date, or the same instant in the precision of the report. -/
def SameTime (v v' : Int64) : Prop :=
  (¬ NoDate v ∧ ¬ NoDate v' ∧ |v.toInt - v'.toInt| ≤ 320 ∧ ∃ n, Stamp v.toInt n ∧ Stamp v'.toInt n) ∨ (NoDate v ∧ NoDate v')
where
  /-- zero, or not in the years 1 to 9999 -/
  NoDate (v : Int64) : Prop := v = 0 ∨ OutOfCalendar v.toInt

/-- The same header: everything but the times and the show command is equal. -/
structure SameHeader (h h' : Header) : Prop where
  exact : { h with creationTime := 0, accessTime := 0, writeTime := 0, showCommand := 0 } =
    { h' with creationTime := 0, accessTime := 0, writeTime := 0, showCommand := 0 }
  creation : SameTime h.creationTime h'.creationTime
  access : SameTime h.accessTime h'.accessTime
  write : SameTime h.writeTime h'.writeTime
  showCommand : h.showCommand = h'.showCommand ∨ (h.showCommand ∉ [3, 7] ∧ h'.showCommand ∉ [3, 7])

/-- The texts of the strings. -/
def Strings.texts (s : Strings) : List (Option (List Char)) := s.fields.map fun f => f.content.map (·.2)

/-- The last block with a name. -/
def ShellLink.lastBlock (s : ShellLink) (name : String) : Option (Block × List UInt8) :=
  (s.blocks.filter fun b => blockName b.1.signature.toNat = name).getLast?

/-- The blocks with an unknown signature. -/
def ShellLink.unknownBlocks (s : ShellLink) : List (Block × List UInt8) :=
  s.blocks.filter fun b => blockName b.1.signature.toNat = "UNKNOWN_BLOCK"

/-- The same link.  Of several blocks with the same name only the last one is seen, but all unknown ones are. -/
structure SameLink (hash : List UInt8 → List Char) (s s' : ShellLink) : Prop where
  header : SameHeader s.header s'.header
  items : Option.Rel (List.Forall₂ SameItem) s.items s'.items
  info : Option.Rel SameInfo s.info s'.info
  strings : s.strings.texts = s'.strings.texts
  blockNames : firstOccurrences (s.blocks.map fun b => blockName b.1.signature.toNat) =
    firstOccurrences (s'.blocks.map fun b => blockName b.1.signature.toNat)
  blocks : ∀ name, name ≠ "UNKNOWN_BLOCK" → Option.Rel (SameBlock hash) (s.lastBlock name) (s'.lastBlock name)
  unknown : List.Forall₂ (SameBlock hash) s.unknownBlocks s'.unknownBlocks

/-- What is seen of the data after a link. -/
def appended (allow : Bool) (trailer : List UInt8) : Option (List UInt8) :=
  if allow = true ∧ trailer ≠ [] then some trailer else none

/-- The same length and digest, or both not seen. -/
def SameAppended (hash : List UInt8 → List Char) (t t' : Option (List UInt8)) : Prop :=
  t.map (fun b => (b.length, hash b)) = t'.map fun b => (b.length, hash b)

end Verif.Spec
