import Verif.Spec.Text
import Verif.Spec.Calendar
import Verif.Py.Dict

/-
Specification layer: ID lists ([MS-SHLLINK] 2.2) and the shell items the parser knows, as described by the
layout comments under LnkParse3/target/ and the Windows Shell Item format document they link to.
-/

namespace Verif.Spec

/-- A stored text: its bytes and the characters they stand for. -/
structure Text where
  raw : List UInt8
  text : List Char

/-- The bytes are the text, in UTF-16LE or in the code page, and the text contains no NUL. -/
def Text.Valid (tp : TextProc) (unicode : Bool) (t : Text) : Prop :=
  if unicode then t.raw = utf16 t.text ∧ '\x00' ∉ t.text else CodePageText tp t.raw t.text

/-- The text with its terminator. -/
def Text.encodeZ (unicode : Bool) (t : Text) : List UInt8 := t.raw ++ if unicode then [0, 0] else [0]

/-- The number of character units of a text with its terminator. -/
def Text.unitsZ (unicode : Bool) (t : Text) : Nat := (if unicode then t.raw.length / 2 else t.raw.length) + 1

/-- An ASCII text, one byte per character. -/
def asciiText (s : String) : Text := ⟨s.toList.map fun c => UInt8.ofNat c.toNat, s.toList⟩

/-! ### file entries -/

/-- A file entry shell item. -/
structure FileEntry where
  typ : UInt8
  unknown : UInt8
  fileSize : UInt32
  date : UInt16
  time : UInt16
  attributes : UInt16
  name : Text
  trailing : List UInt8

/-- Bit 2 of the type byte: the name is Unicode. -/
def FileEntry.unicode (e : FileEntry) : Bool := e.typ.toNat.testBit 2

def FileEntry.payload (e : FileEntry) : List UInt8 :=
  [e.typ] ++ [e.unknown] ++ le 4 e.fileSize.toNat ++ (le 2 e.date.toNat ++ le 2 e.time.toNat) ++
    le 2 e.attributes.toNat ++ e.name.encodeZ e.unicode ++ e.trailing

def FileEntry.Valid (tp : TextProc) (e : FileEntry) : Prop := e.typ.toNat / 16 % 8 = 3 ∧ e.name.Valid tp e.unicode

/-- How the low four bits of the type byte of a file entry or network location are named. -/
def fsKind (low : Nat) : Option String :=
  match low % 8 with
  | 1 => some "Is directory"
  | 2 => some "Is file"
  | 3 => some "Is share"
  | 4 => some "Has Unicode strings"
  | 5 => some "Is Unicode directory"
  | 6 => some "Is Unicode file"
  | 7 => some "Is Unicode directory"
  | _ => none

/-- The name to report for the low bits, and the warning that goes with an unnamed combination. -/
def fsKindText (typ : UInt8) : String := (fsKind (typ.toNat % 16)).getD "Unknown"
def fsKindWarns (typ : UInt8) : List Warn :=
  if fsKind (typ.toNat % 16) = none then [.itemFlags (typ.toNat % 16)] else []

/-- The date-time a DOS date word and time word denote, if they do. -/
def dosDateTime (date time : Nat) : DateTime :=
  ⟨1980 + date / 512, date / 32 % 16, date % 32, time / 2048, time / 32 % 64, time % 32 * 2, 0⟩

def FileEntry.modified (e : FileEntry) : Option DateTime :=
  if e.date.toNat = 0 ∧ e.time.toNat = 0 then none
  else if ValidDateTime (dosDateTime e.date.toNat e.time.toNat) then some (dosDateTime e.date.toNat e.time.toNat)
  else none

def FileEntry.report (e : FileEntry) : Dict :=
  [ ("class", .str "File entry".toList), ("flags", .str (fsKindText e.typ).toList),
    ("file_size", .int e.fileSize.toNat),
    ("modification_time", PyVal.opt .dt e.modified),
    ("file_attribute_flags", .int e.attributes.toNat), ("primary_name", .str e.name.text) ]

/-- Warnings: an unnamed kind; date words that are neither zero nor a date. -/
def FileEntry.warns (e : FileEntry) : List Warn :=
  fsKindWarns e.typ ++
    if (e.date.toNat = 0 ∧ e.time.toNat = 0) ∨ ValidDateTime (dosDateTime e.date.toNat e.time.toNat) then []
    else [.invalidDostime (le 2 e.date.toNat ++ le 2 e.time.toNat)]

/-! ### items -/

/-- The shell items, by kind. -/
inductive Item
  /-- control panel CPL file, code page form -/
  | cpl (unknown : UInt8) (signature : UInt32) (path name : Text) (comments : Option Text)
      (trailing : List UInt8)
  /-- control panel CPL file, Unicode form; 12 unknown bytes -/
  | cplWide (unknown : UInt8) (signature : UInt32) (unknown12 : List UInt8) (path name : Text)
      (comments : Option Text) (trailing : List UInt8)
  | category (unknown : UInt8) (signature : UInt32) (id : UInt32) (trailing : List UInt8)
  | root (typ sortIndex : UInt8) (guid : Guid) (trailing : List UInt8)
  /-- volume with a name field of 20 bytes: the name, then nothing or a NUL and padding -/
  | volume (typ : UInt8) (name : Text) (padding trailing : List UInt8)
  | volumeGuid (typ unknown : UInt8) (guid : Guid) (trailing : List UInt8)
  | file (e : FileEntry)
  | network (typ unknown contentFlags : UInt8) (location : Text) (description comments : Option Text)
      (trailing : List UInt8)
  /-- kinds of which only the class is reported -/
  | classOnly (typ : UInt8) (body : List UInt8)
  | controlPanel (typ : UInt8) (unknown13 : List UInt8) (guid : Guid) (trailing : List UInt8)
  | usersFiles (unknown : UInt8) (signature : List UInt8) (e : FileEntry) (classId folderId : Guid)
      (trailing : List UInt8)
  /-- every other type byte -/
  | other (typ : UInt8) (body : List UInt8)

/-- An item in a list: its size, including the size field, and its contents. -/
def itemBytes (payload : List UInt8) : List UInt8 := le 2 (payload.length + 2) ++ payload

/-- An optional terminated string. -/
def encodeOptZ (unicode : Bool) : Option Text → List UInt8
  | none => []
  | some t => t.encodeZ unicode

/-- The contents of an item. -/
def Item.payload : Item → List UInt8
  | .cpl u sig path name comments tr =>
    [0x00] ++ [u] ++ le 4 sig.toNat ++ le 2 (path.unitsZ false) ++
      le 2 (if comments.isSome then path.unitsZ false + name.unitsZ false else 0) ++
      path.encodeZ false ++ name.encodeZ false ++ encodeOptZ false comments ++ tr
  | .cplWide u sig u12 path name comments tr =>
    [0x00] ++ [u] ++ le 4 sig.toNat ++ u12 ++ le 2 (path.unitsZ true) ++
      le 2 (if comments.isSome then path.unitsZ true + name.unitsZ true else 0) ++
      path.encodeZ true ++ name.encodeZ true ++ encodeOptZ true comments ++ tr
  | .category u sig id tr => [0x01] ++ [u] ++ le 4 sig.toNat ++ le 4 id.toNat ++ tr
  | .root typ si g tr => [typ] ++ [si] ++ g.encode ++ tr
  | .volume typ name pad tr => [typ] ++ (name.raw ++ pad) ++ tr
  | .volumeGuid typ u g tr => [typ] ++ [u] ++ g.encode ++ tr
  | .file e => e.payload
  | .network typ u cf loc desc comm tr =>
    [typ] ++ [u] ++ [cf] ++ loc.encodeZ false ++ encodeOptZ false desc ++ encodeOptZ false comm ++ tr
  | .classOnly typ body => [typ] ++ body
  | .controlPanel typ u13 g tr => [typ] ++ u13 ++ g.encode ++ tr
  | .usersFiles u sig e c f tr =>
    [0x74] ++ [u] ++ le 2 (sig.length + (itemBytes e.payload).length) ++ sig ++ itemBytes e.payload ++ c.encode ++
      f.encode ++ tr
  | .other typ body => [typ] ++ body

/-- The class name that is reported for a type byte, if there is one.  The volume, file entry and network families
occupy sixteen values each, and bit 7 does not matter for them. -/
def itemClass (t : Nat) : Option String :=
  if t / 16 % 8 = 2 then some "Volume Item"
  else if t / 16 % 8 = 3 then some "File entry"
  else if t / 16 % 8 = 4 then some "Network location"
  else if t = 0x00 then some "Control panel CPL file"
  else if t = 0x01 then some "Control panel category"
  else if t = 0x1E ∨ t = 0x1F then some "Root Folder"
  else if t = 0x52 then some "Compressed folder"
  else if t = 0x61 then some "Internet"
  else if t = 0x70 ∨ t = 0x71 then some "Control panel"
  else if t = 0x72 then some "Printers"
  else if t = 0x73 then some "Common places folder"
  else if t = 0x74 then some "Users files folder"
  else none

/-- Control panel categories. -/
def categoryName (id : Nat) : Option String :=
  [ "All Control Panel Items", "Appearance and Personalization", "Hardware and Sound", "Network and Internet",
    "Sounds, Speech, and Audio Devices", "System and Security", "Clock, Language, and Region", "Ease of Access",
    "Programs", "User Accounts", "Security Center", "Mobile PC" ][id]?

/-- Root folder sort index. -/
def sortIndexName (v : Nat) : Option String :=
  if v = 0x00 ∨ v = 0x68 then some "Internet Explorer"
  else if v = 0x42 then some "Libraries"
  else if v = 0x44 then some "Users"
  else if v = 0x48 then some "My Documents"
  else if v = 0x4C then some "Public Folder"
  else if v = 0x50 then some "My Computer"
  else if v = 0x54 then some "UsersLibraries"
  else if v = 0x58 then some "My Networs Places/Network"
  else if v = 0x60 ∨ v = 0x78 then some "Recycle Bin"
  else if v = 0x80 then some "My Games"
  else none

/-- The text of an optional string: `None` if absent. -/
def optText (t : Option Text) : PyVal := PyVal.opt .str (t.map (·.text))

/-- `0x` and lower-case hexadecimal digits. -/
def hex0x (n : Nat) : List Char := '0' :: 'x' :: Nat.toDigits 16 n

/-- What must be reported for an item. -/
def Item.report : Item → Dict
  | .cpl _ sig path name comments _ =>
    [ ("class", .str "Control panel CPL file".toList), ("signature", .str ("0x".toList ++ hexFixed 8 sig.toNat)),
      ("cpl_file_path", .str path.text), ("name", .str name.text),
      ("comments", .str ((comments.map (·.text)).getD [])) ]
  | .cplWide _ sig _ path name comments _ =>
    [ ("class", .str "Control panel CPL file".toList), ("signature", .str ("0x".toList ++ hexFixed 8 sig.toNat)),
      ("cpl_file_path", .str path.text), ("name", .str name.text),
      ("comments", .str ((comments.map (·.text)).getD [])) ]
  | .category _ _ id _ =>
    [ ("class", .str "Control panel category".toList), ("category_id", .int id.toNat),
      ("category", .str ((categoryName id.toNat).getD "Unknown").toList) ]
  | .root _ si g _ =>
    [ ("class", .str "Root Folder".toList), ("sort_index", .str ((sortIndexName si.toNat).getD "Unknown").toList),
      ("sort_index_value", .int si.toNat), ("guid", .str g.text) ]
  | .volume typ name _ _ =>
    [ ("class", .str "Volume Item".toList), ("flags", .str (hex0x (typ.toNat % 16))),
      ("volume_name", .str name.text) ]
  | .volumeGuid typ _ g _ =>
    [ ("class", .str "Volume Item".toList), ("flags", .str (hex0x (typ.toNat % 16))),
      ("volume_identifier", .str g.text) ]
  | .file e => e.report
  | .network typ _ cf loc desc comm _ =>
    [ ("class", .str "Network location".toList), ("flags", .str (fsKindText typ).toList),
      ("content_flags", .int cf.toNat), ("location", .str loc.text), ("description", optText desc),
      ("comments", optText comm) ]
  | .classOnly typ _ => [("class", .str ((itemClass typ.toNat).getD "").toList)]
  | .controlPanel _ _ g _ => [("class", .str "Control panel".toList), ("item_identifier", .str g.text)]
  | .usersFiles _ sig e c f _ =>
    [ ("class", .str "Users files folder".toList), ("signature", .str (sig.map fun b => Char.ofNat b.toNat)),
      ("file_entry", .dict e.report), ("delegate_class_id", .str c.text), ("delegate_folder_id", .str f.text) ]
  | .other _ body => [("class", .str "Unknown".toList), ("size", .int ((body.length + 5 : Nat) : Int))]

/-- Warnings that accompany an item. -/
def Item.warns : Item → List Warn
  | .category _ _ id _ => if categoryName id.toNat = none then [.category id.toNat] else []
  | .root _ si _ _ => if sortIndexName si.toNat = none then [.sortIndex si.toNat] else []
  | .file e => e.warns
  | .network typ _ _ _ _ _ _ => fsKindWarns typ
  | .usersFiles _ _ e _ _ _ => e.warns
  | .other typ _ => [.itemType typ.toNat]
  | _ => []

/-- An optional text is valid. -/
def OptValid (tp : TextProc) (unicode : Bool) (t : Option Text) : Prop := ∀ x, t = some x → x.Valid tp unicode

/-- Well-formed items. -/
def Item.Valid (tp : TextProc) : Item → Prop
  | .cpl _ _ path name comments _ =>
    path.Valid tp false ∧ path.raw ≠ [] ∧ name.Valid tp false ∧ OptValid tp false comments
  | .cplWide _ _ u12 path name comments _ =>
    u12.length = 12 ∧ u12[4]? = some 0 ∧ path.Valid tp true ∧ name.Valid tp true ∧ OptValid tp true comments
  | .category _ _ _ _ => True
  | .root typ _ _ _ => typ = 0x1E ∨ typ = 0x1F
  | .volume typ name pad _ =>
    typ.toNat / 16 % 8 = 2 ∧ typ.toNat.testBit 0 = true ∧ name.Valid tp false ∧
      name.raw.length + pad.length = 20 ∧ (pad = [] ∨ pad.head? = some 0)
  | .volumeGuid typ _ _ _ => typ.toNat / 16 % 8 = 2 ∧ typ.toNat.testBit 0 = false
  | .file e => e.Valid tp
  | .network typ _ cf loc desc comm _ =>
    typ.toNat / 16 % 8 = 4 ∧ loc.Valid tp false ∧ OptValid tp false desc ∧ OptValid tp false comm ∧
      desc.isSome = cf.toNat.testBit 7 ∧ comm.isSome = cf.toNat.testBit 6
  | .classOnly typ _ => typ = 0x52 ∨ typ = 0x61 ∨ typ = 0x72 ∨ typ = 0x73
  | .controlPanel typ u13 _ _ => (typ = 0x70 ∨ typ = 0x71) ∧ u13.length = 13
  | .usersFiles _ sig e _ _ _ => sig.length = 4 ∧ (∀ b ∈ sig, b.toNat < 128) ∧ e.Valid tp
  | .other typ _ => itemClass typ.toNat = none

/-- An item as it stands in the list. -/
def Item.encode (it : Item) : List UInt8 := itemBytes it.payload

/-- The items of a list, without terminator. -/
def encodeItems (items : List Item) : List UInt8 := items.flatMap Item.encode

/-- LinkTargetIDList: the size of the ID list, the items, the TerminalID. -/
def encodeIdList (items : List Item) : List UInt8 :=
  le 2 ((encodeItems items).length + 2) ++ encodeItems items ++ le 2 0

end Verif.Spec
