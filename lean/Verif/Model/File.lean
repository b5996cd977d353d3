import Verif.Model.Header
import Verif.Model.Targets
import Verif.Model.Info
import Verif.Model.StringData
import Verif.Model.Extra
import Verif.Py.Json
import Verif.Py.CmdLine

/-
LnkParse3/lnk_file.py
-/

namespace Verif

/-- A constructed `LnkFile` object.  Models lnk_file.py:24-34 and 63-102. -/
structure LnkFile where
  indata : Bytes
  header : LnkHeader
  targetIndex : Nat
  targets : Option LnkTargets
  info : Option (InfoClass × LnkInfo)
  stringData : StringData
  extras : ExtraData
  size : Nat

/-- What the constructor gets its bytes from: a file object (`read()` gives its content) or `indata`. -/
inductive Source
  | fhandle (content : Bytes)
  | indata (b : Bytes)

namespace LnkFile

/-- The ID list part of `process`: the object and the new index.  Models lnk_file.py:73-77. -/
def processTargets (tp : TextProc) (data : Bytes) (h : LnkHeader) (index : Nat) :
    Py (Option LnkTargets × Nat) := do
  let b ← h.hasFlag "HasTargetIDList"
  if b then do
    let t ← LnkTargets.init tp (data.drop index)
    let n ← t.size
    pure (some t, index + n)
  else pure (none, index)

/-- The LinkInfo part of `process`.  Models lnk_file.py:79-86. -/
def processInfo (tp : TextProc) (data : Bytes) (h : LnkHeader) (index : Nat) :
    Py (Option (InfoClass × LnkInfo) × Nat) := do
  let a ← h.hasFlag "HasLinkInfo"
  let b ← (if a then do
      let f ← h.hasFlag "ForceNoLinkInfo"
      pure (!f)
    else pure false : Py Bool)
  if b then do
    let info : LnkInfo := ⟨tp, data.drop index⟩
    let cls ← info.infoClass
    match cls with
    | some c => do
      let n ← info.size
      pure (some (c, info), index + n)
    | none => pure (none, index)
  else pure (none, index)

/-- `process()`.  Models lnk_file.py:63-102. -/
def process (env : Env) (cp : Option String) (allow_terminal_blocks : Bool) (data : Bytes) : Py LnkFile := do
  let tp := TextProc.mk' env cp
  let header ← LnkHeader.init data
  let index ← header.size
  let target_index := index + 2
  let (targets, index) ← processTargets tp data header index
  let (info, index) ← processInfo tp data header index
  let string_data ← StringData.init header tp (data.drop index)
  let index := index + string_data.size
  let extras ← ExtraData.init tp allow_terminal_blocks (data.drop index)
  let n ← extras.size
  let index := index + n
  let index := index + min (data.drop index).length 4
  pure ⟨data, header, target_index, targets, info, string_data, extras, index⟩

/-- `LnkFile(fhandle=..)` or `LnkFile(indata=..)`.  Empty `indata` is falsy, so `self.indata` is never set and
`process` raises `AttributeError`; an empty file reaches `LnkHeader`, which raises `LnkParserError`.
Models lnk_file.py:25-34. -/
def init (env : Env) (cp : Option String) (allow_terminal_blocks : Bool) : Source → Py LnkFile
  | .fhandle content => process env cp allow_terminal_blocks content
  | .indata b => if b = [] then Py.raise .attributeError else process env cp allow_terminal_blocks b

/-- A list of strings as a Python value. -/
def strList (l : List String) : PyVal := .list (l.map .lit)

/-- The `header` dictionary of `get_json`.  Models lnk_file.py:202-220. -/
def jsonHeader (f : LnkFile) : Py Dict := do
  let guid ← f.header.linkClsId
  let rlf ← f.header.rLinkFlags
  let rff ← f.header.rFileFlags
  let ct ← f.header.creationTime
  let at_ ← f.header.accessTime
  let wt ← f.header.writeTime
  let fs ← f.header.fileSize
  let ii ← f.header.iconIndex
  let ws ← f.header.windowStyle
  let hk ← f.header.hotKey
  let rhk ← f.header.rawHotKey
  let lf ← f.header.linkFlags
  let ff ← f.header.fileFlags
  let hs ← f.header.size
  let r0 ← f.header.reserved0
  let r1 ← f.header.reserved1
  let r2 ← f.header.reserved2
  pure [("guid", .str guid), ("r_link_flags", .nat rlf), ("r_file_flags", .nat rff),
    ("creation_time", PyVal.opt .dt ct), ("accessed_time", PyVal.opt .dt at_),
    ("modified_time", PyVal.opt .dt wt), ("file_size", .nat fs), ("icon_index", .int ii),
    ("windowstyle", .lit ws), ("hotkey", .str hk), ("r_hotkey", .nat rhk), ("link_flags", strList lf),
    ("file_flags", strList ff), ("header_size", .nat hs), ("reserved0", .nat r0), ("reserved1", .nat r1),
    ("reserved2", .nat r2)]

/-- The `target` dictionary.  Models lnk_file.py:223-228. -/
def jsonTarget (f : LnkFile) : Py (Option Dict) :=
  match f.targets with
  | none => pure none
  | some t => do
    let n ← t.idListSize
    let items ← t.asList
    pure (some [("size", .nat n), ("items", .list items), ("index", .nat f.targetIndex)])

/-- `[(key, value)]` when a condition holds. -/
def entryIf (b : Bool) (x : Py Dict) : Py Dict := if b then x else pure []

/-- Truth value of an optional integer. -/
def truthyNat : Option Nat → Bool
  | none => false
  | some n => n != 0

/-- Truth value of an optional string. -/
def truthyStr : Option Str → Bool
  | none => false
  | some s => !s.isEmpty

/-- The `location_info` dictionary of a `Local`.  Models lnk_file.py:263-282 (`common_network_relative_link()`
always returns `None`). -/
def jsonLocal (i : LnkInfo) : Py Dict := do
  let vs ← i.volumeIdSize
  let rd ← i.rDriveType
  let vo ← i.volumeLabelOffset
  let sn ← i.driveSerialNumber
  let d ← i.driveType
  let vl ← i.volumeLabel
  let uo ← i.volumeLabelUnicodeOffset
  let extra ← entryIf (truthyNat uo) do
    let uo ← i.volumeLabelUnicodeOffset
    let ul ← i.volumeLabelUnicode
    pure [("volume_label_unicode_offset", PyVal.opt .nat uo), ("volume_label_unicode", PyVal.opt .str ul)]
  pure ([("volume_id_size", .nat vs), ("r_drive_type", .nat rd), ("volume_label_offset", .nat vo),
    ("drive_serial_number", .str sn), ("drive_type", PyVal.opt .lit d),
    ("volume_label", PyVal.opt .str vl)] ++ extra)

/-- The `location_info` dictionary of a `Network`.  Models lnk_file.py:285-313. -/
def jsonNetwork (i : LnkInfo) : Py Dict := do
  let cs ← i.cnrlSize
  let cf ← i.cnrlFlags
  let no ← i.netNameOffset
  let dno ← i.deviceNameOffset
  let rp ← i.rNetworkProviderType
  let p ← i.networkProviderType
  let e1 ← entryIf p.isSome do
    let p ← i.networkProviderType
    pure [("network_provider_type", PyVal.opt .lit p)]
  let nu ← i.netNameOffsetUnicode
  let e2 ← entryIf (truthyNat nu) do
    let nu ← i.netNameOffsetUnicode
    let s ← i.netNameUnicode
    pure [("net_name_offset_unicode", PyVal.opt .nat nu), ("net_name_unicode", PyVal.opt .str s)]
  let du ← i.deviceNameOffsetUnicode
  let e3 ← entryIf (truthyNat du) do
    let du ← i.deviceNameOffsetUnicode
    let s ← i.deviceNameUnicode
    pure [("device_name_offset_unicode", PyVal.opt .nat du), ("device_name_unicode", PyVal.opt .str s)]
  let nn ← i.netName
  let e4 ← entryIf (truthyStr nn) do
    let nn ← i.netName
    pure [("net_name", PyVal.opt .str nn)]
  let dn ← i.deviceName
  let e5 ← entryIf (truthyStr dn) do
    let dn ← i.deviceName
    pure [("device_name", PyVal.opt .str dn)]
  pure ([("common_network_relative_link_size", .nat cs), ("common_network_relative_link_flags", .nat cf),
    ("net_name_offset", .nat no), ("device_name_offset", .nat dno),
    ("r_network_provider_type", .str rp)] ++ e1 ++ e2 ++ e3 ++ e4 ++ e5)

/-- `location()`.  Models info/local.py:37-38 and info/network.py:84-85. -/
def locationName : InfoClass → String
  | .local => "Local"
  | .network => "Network"

/-- The `link_info` dictionary (`location_info` is inserted before `location` and filled in afterwards).
Models lnk_file.py:230-313. -/
def jsonInfo (f : LnkFile) : Py Dict :=
  match f.info with
  | none => pure []
  | some (cls, i) => do
    let s ← i.size
    let hs ← i.headerSize
    let fl ← i.flags
    let vo ← i.volumeIdOffset
    let lo ← i.localBasePathOffset
    let co ← i.cnrlOffset
    let po ← i.commonPathSuffixOffset
    let e1 ← entryIf (lo != 0) do
      let x ← i.localBasePath
      pure [("local_base_path", PyVal.opt .str x)]
    let e2 ← entryIf (po != 0) do
      let x ← i.commonPathSuffix
      pure [("common_path_suffix", PyVal.opt .str x)]
    let lu ← i.localBasePathOffsetUnicode
    let e3 ← entryIf (truthyNat lu) do
      let lu ← i.localBasePathOffsetUnicode
      let x ← i.localBasePathUnicode
      pure [("local_base_path_offset_unicode", PyVal.opt .nat lu), ("local_base_path_unicode", PyVal.opt .str x)]
    let cu ← i.commonPathSuffixOffsetUnicode
    let e4 ← entryIf (truthyNat cu) do
      let cu ← i.commonPathSuffixOffsetUnicode
      let x ← i.commonPathSuffixUnicode
      pure [("common_path_suffix_offset_unicode", PyVal.opt .nat cu),
        ("common_path_suffix_unicode", PyVal.opt .str x)]
    let li ← match cls with
      | .local => jsonLocal i
      | .network => jsonNetwork i
    pure ([("link_info_size", .nat s), ("link_info_header_size", .nat hs), ("link_info_flags", .nat fl),
      ("volume_id_offset", .nat vo), ("local_base_path_offset", .nat lo),
      ("common_network_relative_link_offset", .nat co), ("common_path_suffix_offset", .nat po)]
      ++ e1 ++ e2 ++ e3 ++ e4 ++ [("location_info", .dict li), ("location", .lit (locationName cls))])

/-- Several `d.pop(k, None)`. -/
def popAll (d : Dict) (ks : List String) : Dict := ks.foldl Dict.erase d

/-- `d[k]`, replaced by a function of itself, when `k` holds a dictionary. -/
def atKey (k : String) (g : Dict → Dict) (d : Dict) : Dict :=
  d.map fun kv => if kv.1 = k then
    match kv.2 with
    | .dict e => (kv.1, .dict (g e))
    | v => (kv.1, v)
    else kv

/-- The removals from `header`.  Models lnk_file.py:319-322. -/
def pruneHeader (d : Dict) : Dict := popAll d ["header_size", "reserved0", "reserved1", "reserved2"]

/-- The removals from `link_info`; the location string is "Local" or "Network", so containment is equality.
Models lnk_file.py:323-335. -/
def pruneInfo (d : Dict) : Dict :=
  let d := popAll d ["link_info_size", "link_info_header_size", "volume_id_offset", "local_base_path_offset",
    "common_network_relative_link_offset", "common_path_suffix_offset"]
  match d.get? "location" with
  | some (.str loc) =>
    if loc = "Local".toList then
      atKey "location_info" (fun e => popAll e ["volume_id_size", "volume_label_offset"]) d
    else if loc = "Network".toList then
      atKey "location_info"
        (fun e => popAll e ["common_network_relative_link_size", "net_name_offset", "device_name_offset"]) d
    else d
  | _ => d

/-- `item.pop("modification_time", None)`. -/
def pruneItem : PyVal → PyVal
  | .dict e => .dict (Dict.erase e "modification_time")
  | v => v

/-- The removals from `target`.  Models lnk_file.py:337-343. -/
def pruneTarget (d : Dict) : Dict :=
  (popAll d ["index", "size"]).map fun kv => if kv.1 = "items" then
    match kv.2 with
    | .list l => (kv.1, .list (l.map pruneItem))
    | v => (kv.1, v)
    else kv

/-- `get_json(get_all)`.  Models lnk_file.py:199-345 (the removals are applied to the parts before they are put
together, which gives the same dictionary). -/
def getJson (f : LnkFile) (get_all : Bool) : Py Dict := do
  let header ← f.jsonHeader
  let target ← f.jsonTarget
  let info ← f.jsonInfo
  let extra ← f.extras.asDict
  let prH := if get_all then header else pruneHeader header
  let prI := if get_all then info else pruneInfo info
  let prT := target.map fun t => if get_all then t else pruneTarget t
  pure ([("size", .nat f.size), ("header", .dict prH)]
    ++ (prT.toList.map fun t => ("target", .dict t))
    ++ [("link_info", .dict prI), ("data", .dict f.stringData.asDict), ("extra", .dict extra)])

/-- `print_json(print_all)`: the text written, without the final line break.  Models lnk_file.py:181-197. -/
def printJson (f : LnkFile) (print_all : Bool) : Py Str := do
  let res ← f.getJson print_all
  pure (Json.dumps (.dict res))

/-- `" | ".join(flags)`. -/
def joinBar : List String → Str
  | [] => []
  | [s] => s.toList
  | s :: l => s.toList ++ " | ".toList ++ joinBar l

/-- The common part of `format_linkFlags` and `format_fileFlags`.  Models lnk_file.py:149-157. -/
def formatFlags (raw : Nat) (names : List String) : Str :=
  joinBar names ++ (if raw ≠ 0 then " - (".toList ++ decStr raw ++ [')'] else '(' :: (decStr raw ++ [')']))

/-- Models lnk_file.py:149-152. -/
def formatLinkFlags (f : LnkFile) : Py Str := do
  let raw ← f.header.rLinkFlags
  let names ← f.header.linkFlags
  pure (formatFlags raw names)

/-- Models lnk_file.py:154-157. -/
def formatFileFlags (f : LnkFile) : Py Str := do
  let raw ← f.header.rFileFlags
  let names ← f.header.fileFlags
  pure (formatFlags raw names)

/-- The property `lnk_command`; a missing string is `None`, which `list2cmdline` and `join` reject with
`TypeError`.  Models lnk_file.py:160-171. -/
def lnkCommand (f : LnkFile) : Py Str := do
  let r ← f.header.hasFlag "HasRelativePath"
  let a ← (if r then
      match f.stringData.get? "relative_path" with
      | some s => pure [CmdLine.list2cmdline s]
      | none => Py.raise .typeError
    else pure [] : Py (List Str))
  let r ← f.header.hasFlag "HasArguments"
  let b ← (if r then
      match f.stringData.get? "command_line_arguments" with
      | some s => pure [s]
      | none => Py.raise .typeError
    else pure [] : Py (List Str))
  pure (List.intercalate [' '] (a ++ b))

/-- `print_shortcut_target(pjson)`: the text written, without the final line break.  Models lnk_file.py:173-179. -/
def printShortcutTarget (f : LnkFile) (pjson : Bool) : Py Str := do
  let out ← f.lnkCommand
  pure (if pjson then Json.dumpsTarget out else out)

/-! #### the dictionary `print_lnk_file` hands to YAML -/

/-- `s.upper()` for the ASCII identifiers that occur. -/
def upper (s : Str) : Str := s.map Char.toUpper

/-- `s.capitalize()` for the ASCII identifiers that occur. -/
def capitalize : Str → Str
  | [] => []
  | c :: cs => c.toUpper :: cs.map Char.toLower

/-- `s.replace("_", " ")`. -/
def unUnderscore (s : Str) : Str := s.map fun c => if c = '_' then ' ' else c

/-- `re.sub("^r_", "", s, count=1)`. -/
def stripR : Str → Str
  | 'r' :: '_' :: cs => cs
  | s => s

/-- `nice_id(identifier, uppercase)`.  Models lnk_file.py:107-111. -/
def niceId (identifier : String) (uppercase : Bool) : String :=
  let s := stripR identifier.toList
  if uppercase || decide (upper s = s) then String.ofList (unUnderscore (upper s))
  else String.ofList (unUnderscore (capitalize s))

/-- `result[nice_id(key)] = value` over the entries other than the popped key (`skip`, "" for none).
Models lnk_file.py:118-122. -/
def niceDictGo : List (String × PyVal) → String → Dict → Dict
  | [], _, res => res
  | (k, v) :: d, skip, res =>
    if k = skip then niceDictGo d skip res else niceDictGo d skip (Dict.set res (niceId k false) v)

mutual
/-- `make_keys_nice(input)` with the default `uppercase=False`; a dictionary with a key `class` becomes a
one-entry dictionary keyed by that class.  Models lnk_file.py:113-124. -/
def niceVal : PyVal → PyVal
  | .list l => .list (niceList l)
  | .dict d =>
    match Dict.get? d "class" with
    | some (.str c) => .dict [(String.ofList c, .dict (niceDictGo (niceEntries d) "class" []))]
    | _ => .dict (niceDictGo (niceEntries d) "" [])
  | .none => .none
  | .int i => .int i
  | .str s => .str s
  | .dt d => .dt d
/-- Elements of a list. -/
def niceList : List PyVal → List PyVal
  | [] => []
  | v :: l => niceVal v :: niceList l
/-- The entries with their values converted (keys unchanged). -/
def niceEntries : List (String × PyVal) → List (String × PyVal)
  | [] => []
  | (k, v) :: d => (k, niceVal v) :: niceEntries d
end

/-- `make_keys_nice(res, uppercase=True)` at the top level (no key `class` there). -/
def niceTop : Dict → Dict → Dict
  | [], res => res
  | (k, v) :: d, res => niceTop d (Dict.set res (niceId k true) (niceVal v))

/-- `{"EMPTY_LINE_PLACEHOLDER" + k: v for k, v in res_json.items()}`.  Models lnk_file.py:134. -/
def placeholder (d : Dict) : Dict := d.map fun kv => ("EMPTY_LINE_PLACEHOLDER" ++ kv.1, kv.2)

/-- The dictionary dumped as YAML by `print_lnk_file`.  Models lnk_file.py:104-139; the YAML text itself is not
modelled. -/
def niceJson (f : LnkFile) (print_all : Bool) : Py Dict := do
  let res ← f.getJson print_all
  let lf ← f.formatLinkFlags
  let ff ← f.formatFileFlags
  let res := atKey "header"
    (fun h => Dict.set (Dict.set (Dict.erase h "r_hotkey") "link_flags" (.str lf)) "file_flags" (.str ff)) res
  let res_json := placeholder (niceTop res [])
  let header := match Dict.get? res_json "EMPTY_LINE_PLACEHOLDERHEADER" with
    | some (.dict h) => h
    | _ => []
  pure (Dict.update header (Dict.erase res_json "EMPTY_LINE_PLACEHOLDERHEADER"))

end LnkFile

end Verif
