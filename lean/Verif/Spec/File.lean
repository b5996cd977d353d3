import Verif.Spec.Header
import Verif.Spec.StringData
import Verif.Spec.Info
import Verif.Spec.Extra

/-
Specification layer: whole shell links ([MS-SHLLINK] 2), built from the sections.
-/

namespace Verif.Spec

/-- What LinkInfo locates the target by. -/
inductive Location
  | volume (v : Volume)
  | network (n : NetLink)

/-- A LinkInfo: its bytes and what they contain. -/
structure Info where
  raw : List UInt8
  header : InfoHeader
  texts : InfoTexts
  location : Location

/-- The bytes contain the parts, are as many as declared, and the flags tell the kind. -/
structure Info.Valid (tp : TextProc) (i : Info) : Prop where
  parts : InfoIn tp i.raw i.header i.texts
  size : i.header.size.toNat = i.raw.length
  location : match i.location with
    | .volume v => i.header.flags.toNat.testBit 0 = true ∧ VolumeIn tp i.raw i.header.volumeIdOffset.toNat v
    | .network n => i.header.flags.toNat.testBit 0 = false ∧ i.header.flags.toNat.testBit 1 = true ∧
        NetLinkIn tp i.raw i.header.networkOffset.toNat n

def Info.report (i : Info) : Dict :=
  match i.location with
  | .volume v => infoReport i.header i.texts "Local" v.report
  | .network n => infoReport i.header i.texts "Network" n.report

/-- A shell link.  Each extra block comes with unused bytes at its end. -/
structure ShellLink where
  header : Header
  items : Option (List Item)
  info : Option Info
  strings : Strings
  blocks : List (Block × List UInt8)

namespace ShellLink

def flags (s : ShellLink) : Nat := s.header.linkFlags.toNat

def encodeTarget (s : ShellLink) : List UInt8 :=
  match s.items with
  | none => []
  | some l => encodeIdList l

def encodeInfo (s : ShellLink) : List UInt8 :=
  match s.info with
  | none => []
  | some i => i.raw

def encodeBlocks (s : ShellLink) : List UInt8 := s.blocks.flatMap fun b => b.1.encode b.2

/-- The sections one after another; the extra data ends with a terminal block. -/
def encode (s : ShellLink) : List UInt8 :=
  s.header.encode ++ s.encodeTarget ++ s.encodeInfo ++ s.strings.encode (s.flags.testBit 7) ++ s.encodeBlocks ++ le 4 0

/-- Well-formed links: the flags announce exactly the sections that are there, and each section is valid. -/
structure Valid (tp : TextProc) (s : ShellLink) : Prop where
  headerSize : s.header.headerSize.toNat = 76
  hasItems : s.items.isSome = s.flags.testBit 0
  items : ∀ l, s.items = some l → (∀ it ∈ l, it.Valid tp) ∧ (encodeItems l).length + 2 < 65536
  hasInfo : s.info.isSome = (s.flags.testBit 1 && !s.flags.testBit 8)
  info : ∀ i, s.info = some i → i.Valid tp
  announced : Announced s.flags s.strings.fields
  strings : ∀ f ∈ s.strings.fields, f.Valid tp (s.flags.testBit 7)
  blocks : ∀ b ∈ s.blocks, b.1.Valid tp ∧ 8 + (b.1.payload ++ b.2).length < 2 ^ 32

/-- Name and contents of what is reported about the extra blocks, in file order. -/
def blockReports (hash : List UInt8 → List Char) (s : ShellLink) : List (String × Dict) :=
  s.blocks.map fun b => (blockName b.1.signature.toNat, b.1.report hash b.2)

end ShellLink

/-- The elements without repetitions, in order of first occurrence. -/
def firstOccurrences : List String → List String
  | [] => []
  | a :: l => a :: (firstOccurrences l).filter (· ≠ a)

/-- The contents under a name. -/
def named (l : List (String × Dict)) (name : String) : List Dict := (l.filter fun x => x.1 = name).map (·.2)

/-- The object for the extra data: under each name the last contents, but all contents of unknown blocks. -/
def extraObject (l : List (String × Dict)) : Dict :=
  (firstOccurrences (l.map (·.1))).map fun name =>
    (name, if name = "UNKNOWN_BLOCK" then .list ((named l name).map .dict) else .dict ((named l name).getLast?.getD []))

/-- The object for the strings. -/
def stringsObject (s : Strings) : Dict := s.fields.filterMap fun f => f.content.map fun c => (f.key, .str c.2)

/-- The object for the ID list that starts at `pos`. -/
def targetObject (items : List Item) (pos : Nat) : Dict :=
  [ ("size", .int ((encodeItems items).length + 2 : Nat)), ("items", .list (items.map fun it => .dict it.report)),
    ("index", .int pos) ]

end Verif.Spec
