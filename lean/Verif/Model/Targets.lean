import Verif.Model.Utils
import Verif.Model.Text
import Verif.Py.Dict

/-
LnkParse3/target/*.py, LnkParse3/target_factory.py, LnkParse3/lnk_targets.py
-/

namespace Verif

/-- The shell item classes.  Models target_factory.py:4-16 and 21-36. -/
inductive TargetClass
  | controlPanelCPL | controlPanelCategory | rootFolder | myComputer | shellFSFolder | networkLocation
  | compressedFolder | internet | controlPanel | printers | commonPlacesFolder | usersFilesFolder
  | unknown
deriving DecidableEq, Repr

namespace TargetClass

/-- The `name` attribute every constructor sets.  Models control_panel_cpl.py:69, control_panel_category.py:42,
root_folder.py:54, my_computer.py:40, shell_fs_folder.py:34, network_location.py:32, compressed_folder.py:8,
internet.py:9, control_panel.py:23, printers.py:7, common_places_folder.py:7, users_files_folder.py:38,
unknown.py:7 (all under target/). -/
def name : TargetClass → String
  | controlPanelCPL => "Control panel CPL file"
  | controlPanelCategory => "Control panel category"
  | rootFolder => "Root Folder"
  | myComputer => "Volume Item"
  | shellFSFolder => "File entry"
  | networkLocation => "Network location"
  | compressedFolder => "Compressed folder"
  | internet => "Internet"
  | controlPanel => "Control panel"
  | printers => "Printers"
  | commonPlacesFolder => "Common places folder"
  | usersFilesFolder => "Users files folder"
  | unknown => "Unknown"

end TargetClass

namespace TargetFactory

/-- Models target_factory.py:21-36. -/
def SHELL_ITEM_CLASSES : List (Nat × TargetClass) :=
  [ (0x00, .controlPanelCPL), (0x01, .controlPanelCategory), (0x1E, .rootFolder), (0x1F, .rootFolder),
    (0x20, .myComputer), (0x30, .shellFSFolder), (0x40, .networkLocation), (0x52, .compressedFolder),
    (0x61, .internet), (0x70, .controlPanel), (0x71, .controlPanel), (0x72, .printers),
    (0x73, .commonPlacesFolder), (0x74, .usersFilesFolder) ]

/-- Table lookup with a warning and the class `Unknown` as fallback.  Models target_factory.py:38-48. -/
def getShellItemClasses (item_type : Nat) : Py TargetClass :=
  match SHELL_ITEM_CLASSES.lookup item_type with
  | some c => pure c
  | none => do
    Py.warn (.itemType item_type)
    pure .unknown

/-- ItemIDSize.  Models target_factory.py:54-61. -/
def itemSize (raw : Bytes) : Py Nat := unpackU 2 (slice raw 0 2)

/-- The class type indicator.  Models target_factory.py:65-71. -/
def itemType (raw : Bytes) : Py Nat := unpackU 1 (slice raw 2 3)

/-- The class of the item at the start of `raw`; `None` for the TerminalID.  Models target_factory.py:73-89. -/
def targetClass (raw : Bytes) : Py (Option TargetClass) := do
  let n ← itemSize raw
  if n = 0 then pure none
  else do
    let item_type ← itemType raw
    let masked := item_type &&& 0x70
    let c ← if masked = 0x20 ∨ masked = 0x30 ∨ masked = 0x40 then getShellItemClasses masked
      else getShellItemClasses item_type
    pure (some c)

end TargetFactory

/-- A shell item object: its class, its bytes from ItemIDSize to the end of the list (`_raw`), the window
`_raw_target`, and the strings a `NetworkLocation` reads in its constructor.
Models target/lnk_target_base.py:38-47, target/network_location.py:31-44. -/
structure Target where
  cls : TargetClass
  tp : TextProc
  raw : Bytes
  rawTarget : Bytes
  location : Str := []
  description : Option Str := none
  comments : Option Str := none

namespace Target

/-- Models target/lnk_target_base.py:24-34 (in the order of the Python dictionary). -/
def SHELL_ITEM_SHEL_FS_FOLDER : List (Nat × String) :=
  [ (0x05, "Is Unicode directory"), (0x06, "Is Unicode file"), (0x07, "Is Unicode share"),
    (0x03, "Is share"), (0x01, "Is directory"), (0x02, "Is file"), (0x04, "Has Unicode strings"),
    (0x80, "Has CLSID") ]

/-- `LnkTargetBase.size`: ItemIDSize.  Models target/lnk_target_base.py:67-74. -/
def sizeOf (raw : Bytes) : Py Nat := unpackU 2 (slice raw 0 2)

/-- `LnkTargetBase.__init__`: the window is `raw[2 : 2 + ItemIDSize]` (sic, two bytes more than the item has).
Models target/lnk_target_base.py:38-47. -/
def initBase (cls : TargetClass) (tp : TextProc) (indata : Bytes) : Py Target := do
  let size ← sizeOf indata
  pure { cls := cls, tp := tp, raw := indata, rawTarget := slice indata 2 (2 + size) }

/-- First flag combination of the table contained in `flags`.  Models target/lnk_target_base.py:49-60. -/
def getItemShellFsFolder (flags : Nat) : Py String :=
  match SHELL_ITEM_SHEL_FS_FOLDER.find? fun fn => flags &&& fn.1 == fn.1 with
  | some fn => pure fn.2
  | none => do
    Py.warn (.itemFlags flags)
    pure "Unknown"

/-- Models target/lnk_target_base.py:76-79. -/
def classTypeIndicator (t : Target) : Py Nat := unpackU 1 (slice t.rawTarget 0 1)

/-- Models target/lnk_target_base.py:81-84. -/
def hasUnicodeStrings (t : Target) : Py Bool := do
  let c ← t.classTypeIndicator
  pure (c &&& 0x04 != 0)

/-! #### ControlPanel -/

/-- Models target/control_panel.py:26-29. -/
def controlPanelItemIdentifier (t : Target) : Py Str := parseUuid (slice t.rawTarget 14 30)

/-! #### ControlPanelCategory -/

/-- Models target/control_panel_category.py:26-39. -/
def CATEGORIES : List (Nat × String) :=
  [ (0, "All Control Panel Items"), (1, "Appearance and Personalization"), (2, "Hardware and Sound"),
    (3, "Network and Internet"), (4, "Sounds, Speech, and Audio Devices"), (5, "System and Security"),
    (6, "Clock, Language, and Region"), (7, "Ease of Access"), (8, "Programs"), (9, "User Accounts"),
    (10, "Security Center"), (11, "Mobile PC") ]

/-- Models target/control_panel_category.py:49-51. -/
def categoryId (t : Target) : Py Nat := unpackU 4 (slice t.rawTarget 6 10)

/-- Models target/control_panel_category.py:53-63. -/
def category (t : Target) : Py String := do
  let cat_id ← t.categoryId
  match CATEGORIES.lookup cat_id with
  | some s => pure s
  | none => do
    Py.warn (.category cat_id)
    pure "Unknown"

/-! #### ControlPanelCPL -/

/-- `_is_unicode`.  Models target/control_panel_cpl.py:72-82. -/
def cplIsUnicode (t : Target) : Bool :=
  if t.rawTarget.length < 22 then false else t.rawTarget[10]? == some 0

/-- Models target/control_panel_cpl.py:84-86. -/
def cplSignature (t : Target) : Py Nat := unpackU 4 (slice t.rawTarget 2 6)

/-- Models target/control_panel_cpl.py:88-91. -/
def cplNameOffset (t : Target) : Py Nat :=
  if t.cplIsUnicode then unpackU 2 (slice t.rawTarget 18 20) else unpackU 2 (slice t.rawTarget 6 8)

/-- Models target/control_panel_cpl.py:93-96. -/
def cplCommentsOffset (t : Target) : Py Nat :=
  if t.cplIsUnicode then unpackU 2 (slice t.rawTarget 20 22) else unpackU 2 (slice t.rawTarget 8 10)

/-- Models target/control_panel_cpl.py:98-99. -/
def cplStringsStart (t : Target) : Nat := if t.cplIsUnicode then 22 else 10

/-- Models target/control_panel_cpl.py:101-105. -/
def cplFilePath (t : Target) : Py Str :=
  let start := t.cplStringsStart
  if t.cplIsUnicode then TextProc.readUnicodeString (t.rawTarget.drop start)
  else t.tp.readString (t.rawTarget.drop start)

/-- Models target/control_panel_cpl.py:107-114. -/
def cplNameString (t : Target) : Py Str := do
  let char_offset ← t.cplNameOffset
  let start := t.cplStringsStart
  if t.cplIsUnicode then TextProc.readUnicodeString (t.rawTarget.drop (start + char_offset * 2))
  else t.tp.readString (t.rawTarget.drop (start + char_offset))

/-- Models target/control_panel_cpl.py:116-125. -/
def cplComments (t : Target) : Py Str := do
  let char_offset ← t.cplCommentsOffset
  if char_offset = 0 then pure []
  else
    let start := t.cplStringsStart
    if t.cplIsUnicode then TextProc.readUnicodeString (t.rawTarget.drop (start + char_offset * 2))
    else t.tp.readString (t.rawTarget.drop (start + char_offset))

/-! #### MyComputer -/

/-- Models target/my_computer.py:43-44. -/
def volumeFlags (t : Target) : Py Nat := do
  let c ← t.classTypeIndicator
  pure (c &&& 0x0F)

/-- Models target/my_computer.py:46-47. -/
def volumeHasName (t : Target) : Py Bool := do
  let f ← t.volumeFlags
  pure (f &&& 0x01 != 0)

/-- Models target/my_computer.py:49-52. -/
def volumeName (t : Target) : Py (Option Str) := do
  let h ← t.volumeHasName
  if h then do
    let s ← t.tp.readString (slice t.rawTarget 1 21)
    pure (some s)
  else pure none

/-- `parse_uuid(None)` is a `TypeError`.  Models target/my_computer.py:54-58. -/
def volumeIdentifier (t : Target) : Py Str := do
  let h ← t.volumeHasName
  if h then Py.raise .typeError else parseUuid (slice t.rawTarget 2 18)

/-! #### NetworkLocation -/

/-- Models target/network_location.py:61-68. -/
def contentFlags (t : Target) : Py Nat := unpackU 1 (slice t.rawTarget 2 3)

/-- Models target/network_location.py:56-59. -/
def networkFlags (t : Target) : Py String := do
  let flags ← unpackU 1 (slice t.rawTarget 0 1)
  getItemShellFsFolder (flags &&& 0x0F)

/-- `NetworkLocation.__init__`: reads up to three NUL-terminated strings; `next` on the exhausted generator
raises `StopIteration`.  Models target/network_location.py:31-44. -/
def initNetwork (tp : TextProc) (indata : Bytes) : Py Target := do
  let t ← initBase .networkLocation tp indata
  let it := tp.readStrings (t.rawTarget.drop 3)
  let (location, it) ← TextProc.next it
  let cf ← t.contentFlags
  let (description, it) ←
    (if cf &&& 0x80 ≠ 0 then do
      let r ← TextProc.next it
      pure (some r.1, r.2)
    else pure (none, it) : Py (Option Str × List (Py Str)))
  let cf ← t.contentFlags
  let comments ←
    (if cf &&& 0x40 ≠ 0 then do
      let r ← TextProc.next it
      pure (some r.1)
    else pure none : Py (Option Str))
  pure { t with location := location, description := description, comments := comments }

/-! #### RootFolder -/

/-- Models target/root_folder.py:25-39. -/
def SORT_INDEX : List (Nat × String) :=
  [ (0x00, "Internet Explorer"), (0x42, "Libraries"), (0x44, "Users"), (0x4C, "Public Folder"),
    (0x48, "My Documents"), (0x50, "My Computer"), (0x54, "UsersLibraries"),
    (0x58, "My Networs Places/Network"), (0x60, "Recycle Bin"), (0x68, "Internet Explorer"),
    (0x78, "Recycle Bin"), (0x80, "My Games") ]

/-- Models target/root_folder.py:64-66. -/
def sortIndexValue (t : Target) : Py Nat := unpackU 1 (slice t.rawTarget 1 2)

/-- Models target/root_folder.py:41-51 and 68-69. -/
def sortIndex (t : Target) : Py String := do
  let v ← t.sortIndexValue
  match SORT_INDEX.lookup v with
  | some s => pure s
  | none => do
    Py.warn (.sortIndex v)
    pure "Unknown"

/-- Models target/root_folder.py:71-75. -/
def rootGuid (t : Target) : Py Str := parseUuid (slice t.rawTarget 2 18)

/-! #### ShellFSFolder -/

/-- Models target/shell_fs_folder.py:48-52. -/
def fsFlags (t : Target) : Py String := do
  let flags ← t.classTypeIndicator
  getItemShellFsFolder (flags &&& 0x0F)

/-- Models target/shell_fs_folder.py:54-57. -/
def fsFileSize (t : Target) : Py Nat := unpackU 4 (slice t.rawTarget 2 6)

/-- Models target/shell_fs_folder.py:59-62. -/
def fsModificationTime (t : Target) : Py (Option DateTime) := parseDostime (slice t.rawTarget 6 10)

/-- Models target/shell_fs_folder.py:64-67. -/
def fsFileAttributeFlags (t : Target) : Py Nat := unpackU 2 (slice t.rawTarget 10 12)

/-- Models target/shell_fs_folder.py:69-78. -/
def fsPrimaryName (t : Target) : Py Str := do
  let binary := t.rawTarget.drop 12
  let u ← t.hasUnicodeStrings
  if u then TextProc.readUnicodeString binary else t.tp.readString binary

/-- `ShellFSFolder.as_item`.  Models target/shell_fs_folder.py:37-44. -/
def fsAsItem (t : Target) : Py Dict := do
  let flags ← t.fsFlags
  let size ← t.fsFileSize
  let mtime ← t.fsModificationTime
  let attr ← t.fsFileAttributeFlags
  let name ← t.fsPrimaryName
  pure [("class", .lit t.cls.name), ("flags", .lit flags), ("file_size", .nat size),
    ("modification_time", PyVal.opt .dt mtime), ("file_attribute_flags", .nat attr),
    ("primary_name", .str name)]

/-! #### UsersFilesFolder -/

/-- Models target/users_files_folder.py:41-42. -/
def innerDataSize (t : Target) : Py Nat := unpackU 2 (slice t.rawTarget 2 4)

/-- Models target/users_files_folder.py:50-51. -/
def fileEntry (t : Target) : Py Target := initBase .shellFSFolder t.tp (t.rawTarget.drop 8)

/-- Models target/users_files_folder.py:53-59. -/
def delegateClassId (t : Target) : Py Str := do
  let n ← t.innerDataSize
  parseUuid (slice t.rawTarget (4 + n) (4 + n + 16))

/-- Models target/users_files_folder.py:61-64. -/
def delegateFolderId (t : Target) : Py Str := do
  let n ← t.innerDataSize
  parseUuid (slice t.rawTarget (4 + n + 16) (4 + n + 16 + 16))

/-! #### all classes -/

/-- `target_class(indata=rest, cp=cp)`.  Models the `__init__` methods under target/. -/
def init (cls : TargetClass) (tp : TextProc) (indata : Bytes) : Py Target :=
  match cls with
  | .networkLocation => initNetwork tp indata
  | _ => initBase cls tp indata

/-- `as_item()`.  Models target/lnk_target_base.py:62-65 and the overrides control_panel_cpl.py:127-133,
control_panel_category.py:65-69, root_folder.py:57-62, my_computer.py:60-67, network_location.py:46-53,
control_panel.py:31-34, unknown.py:10-13, users_files_folder.py:66-72, shell_fs_folder.py:37-44 (the remaining
classes only return the class name). -/
def asItem (t : Target) : Py Dict :=
  match t.cls with
  | .controlPanelCPL => do
    let sig ← t.cplSignature
    let path ← t.cplFilePath
    let name ← t.cplNameString
    let comments ← t.cplComments
    pure [("class", .lit t.cls.name), ("signature", .str ('0' :: 'x' :: fmtX 8 sig)),
      ("cpl_file_path", .str path), ("name", .str name), ("comments", .str comments)]
  | .controlPanelCategory => do
    let id ← t.categoryId
    let cat ← t.category
    pure [("class", .lit t.cls.name), ("category_id", .nat id), ("category", .lit cat)]
  | .rootFolder => do
    let si ← t.sortIndex
    let v ← t.sortIndexValue
    let g ← t.rootGuid
    pure [("class", .lit t.cls.name), ("sort_index", .lit si), ("sort_index_value", .nat v),
      ("guid", .str g)]
  | .myComputer => do
    let f ← t.volumeFlags
    let h ← t.volumeHasName
    if h then do
      let n ← t.volumeName
      pure [("class", .lit t.cls.name), ("flags", .str (pyHex f)), ("volume_name", PyVal.opt .str n)]
    else do
      let i ← t.volumeIdentifier
      pure [("class", .lit t.cls.name), ("flags", .str (pyHex f)), ("volume_identifier", .str i)]
  | .shellFSFolder => t.fsAsItem
  | .networkLocation => do
    let f ← t.networkFlags
    let cf ← t.contentFlags
    pure [("class", .lit t.cls.name), ("flags", .lit f), ("content_flags", .nat cf),
      ("location", .str t.location), ("description", PyVal.opt .str t.description),
      ("comments", PyVal.opt .str t.comments)]
  | .controlPanel => do
    let g ← t.controlPanelItemIdentifier
    pure [("class", .lit t.cls.name), ("item_identifier", .str g)]
  | .usersFilesFolder => do
    let fe ← t.fileEntry
    let item ← fe.fsAsItem
    let c ← t.delegateClassId
    let d ← t.delegateFolderId
    pure [("class", .lit t.cls.name), ("signature", .str (asciiReplace (slice t.rawTarget 4 8))),
      ("file_entry", .dict item), ("delegate_class_id", .str c), ("delegate_folder_id", .str d)]
  | .unknown => do
    let n ← sizeOf t.raw
    pure [("class", .lit t.cls.name), ("size", .nat (2 + n))]
  | _ => pure [("class", .lit t.cls.name)]

end Target

/-- A `LnkTargets` object.  Models lnk_targets.py:26-33. -/
structure LnkTargets where
  tp : TextProc
  raw : Bytes
  rawTargets : Bytes

namespace LnkTargets

/-- IDListSize.  Models lnk_targets.py:44-50. -/
def idListSizeOf (raw : Bytes) : Py Nat := unpackU 2 (slice raw 0 2)

/-- `LnkTargets(indata, cp)`.  Models lnk_targets.py:26-33. -/
def init (tp : TextProc) (indata : Bytes) : Py LnkTargets := do
  let n ← idListSizeOf indata
  pure ⟨tp, indata, slice indata 2 (n + 2)⟩

/-- `id_list_size()`.  Models lnk_targets.py:44-50. -/
def idListSize (l : LnkTargets) : Py Nat := idListSizeOf l.raw

/-- `size()`: including the IDListSize field.  Models lnk_targets.py:38-42. -/
def size (l : LnkTargets) : Py Nat := do
  let n ← l.idListSize
  pure (n + 2)

/-- An exception `StopIteration` leaving the body of a generator becomes a `RuntimeError` (PEP 479). -/
def genBody (x : Py α) : Py α :=
  Py.tryExcept x (fun e => e = .stopIteration) fun _ => Py.raise .runtimeError

/-- One round of the `while rest` loop of `_id_lists` for non-empty `rest`: `None` at the TerminalID, otherwise
the target and the new `rest`.  Models lnk_targets.py:72-83. -/
def step (tp : TextProc) (rest : Bytes) : Py (Option (Target × Bytes)) := do
  match ← TargetFactory.targetClass rest with
  | none => pure none
  | some cls => do
    let target ← Target.init cls tp rest
    let size ← TargetFactory.itemSize rest
    pure (some (target, rest.drop size))

/-- The generator `_id_lists()` as the list of its suspended steps; an exception ends a generator.
A step that does not shorten `rest` would repeat forever: `diverge`.  Models lnk_targets.py:70-83. -/
def idLists (tp : TextProc) (rest : Bytes) : List (Py Target) :=
  if rest = [] then []
  else
    let s := genBody (step tp rest)
    match s.res with
    | .error e => [⟨s.warns, .error e⟩]
    | .ok none => []
    | .ok (some (target, rest')) =>
      if rest'.length < rest.length then ⟨s.warns, .ok target⟩ :: idLists tp rest'
      else [⟨s.warns, .error .diverge⟩]
termination_by rest.length

/-- `__iter__`.  Models lnk_targets.py:35-36. -/
def iter (l : LnkTargets) : List (Py Target) := idLists l.tp l.rawTargets

/-- The loop body of `as_list`: `as_item()`, a `KeyError` being reported and the item skipped.
Models lnk_targets.py:88-93 (and extra/shell_item.py:60-65). -/
def itemOf (target : Target) : Py (Option PyVal) :=
  Py.tryExcept
    (do
      let d ← target.asItem
      pure (some (.dict d)))
    (fun e => e = .keyError)
    (fun _ => do
      Py.warn (.targetKey target.cls.name)
      pure none)

/-- The `for target in ...` loop of `as_list`.  Models lnk_targets.py:86-94. -/
def asListLoop : List (Py Target) → Py (List PyVal)
  | [] => pure []
  | x :: rest => do
    let target ← x
    let item ← itemOf target
    let items ← asListLoop rest
    pure (item.toList ++ items)

/-- `as_list()`.  Models lnk_targets.py:85-94. -/
def asList (l : LnkTargets) : Py (List PyVal) := asListLoop l.iter

end LnkTargets

end Verif
