import Verif.Spec.Values

/-
Specification layer: a schema for the report - which entries are there or may be there, in which order, and what kind of value each
has - for programs that read the report.  Nothing in it depends on the file, but for the greatest possible value of two sizes.
-/

namespace Verif.Spec.Schema

/-- A kind of value. -/
abbrev Ty := PyVal → Prop

/-! ### simple values -/

/-- Any text. -/
def text : Ty := fun v => ∃ s, v = .str s

/-- One of these texts. -/
def oneOf (l : List String) : Ty := fun v => ∃ s ∈ l, v = .str s.toList

/-- An unsigned number of `n` bits. -/
def word (n : Nat) : Ty := fun v => ∃ k : Nat, k < 2 ^ n ∧ v = .int k

/-- A signed number of `n` bits. -/
def signed (n : Nat) : Ty := fun v => ∃ i : Int, -2 ^ (n - 1) ≤ i ∧ i < 2 ^ (n - 1) ∧ v = .int i

/-- A number from `a` to `b`. -/
def range (a b : Nat) : Ty := fun v => ∃ k : Nat, a ≤ k ∧ k ≤ b ∧ v = .int k

/-- An unsigned number of `n` bits as `0x` and hexadecimal digits without leading zeros. -/
def hex (n : Nat) : Ty := fun v => ∃ k, k < 2 ^ n ∧ v = .str (hex0x k)

/-- `0x` and eight upper-case hexadecimal digits. -/
def hex8 : Ty := fun v => ∃ k, k < 2 ^ 32 ∧ v = .str ("0x".toList ++ hexFixed 8 k)

/-- 8-4-4-4-12 upper-case hexadecimal digits. -/
def guid : Ty := fun v => ∃ s : List Char, v = .str s ∧ s.length = 36 ∧
  ∀ i c, s[i]? = some c → if i = 8 ∨ i = 13 ∨ i = 18 ∨ i = 23 then c = '-' else c ∈ "0123456789ABCDEF".toList

/-- A date of the years 1 to 9999. -/
def date : Ty := fun v => ∃ d, v = .dt d ∧ ValidDateTime d

/-- A date of the years 1980 to 2107, to two seconds. -/
def dosDate : Ty := fun v =>
  ∃ d, v = .dt d ∧ ValidDateTime d ∧ 1980 ≤ d.year ∧ d.year ≤ 2107 ∧ d.second % 2 = 0 ∧ d.microsecond = 0

/-- Null, or something. -/
def orNull (t : Ty) : Ty := fun v => v = .none ∨ t v

/-- Some of these texts, in this order. -/
def someOf (names : List String) : Ty := fun v => ∃ l : List String, l.Sublist names ∧ v = .list (l.map fun s => .str s.toList)

/-- How a hot key is shown. -/
def hotKey : Ty := fun v => ∃ low high, v = .str (hotKeyText low high)

/-! ### lists and dictionaries -/

def listOf (t : Ty) : Ty := fun v => ∃ l, v = .list l ∧ ∀ x ∈ l, t x

/-- Some entries, and whether they must be there (or may be missing, all together). -/
abbrev Group := Bool × Entries

abbrev need (es : Entries) : Group := (true, es)
abbrev may (es : Entries) : Group := (false, es)

/-- The dictionary has the entries of these groups, in this order, and no others. -/
def Obj : List Group → Dict → Prop
  | [], d => d = []
  | (must, es) :: gs, d => (∃ d1 d2, d = d1 ++ d2 ∧ Fits d1 es ∧ Obj gs d2) ∨ (must = false ∧ Obj gs d)

/-- A dictionary with exactly these entries. -/
def record (es : Entries) : Ty := fun v => ∃ d, v = .dict d ∧ Fits d es

/-- A dictionary with the entries of these groups. -/
def obj (gs : List Group) : Ty := fun v => ∃ d, v = .dict d ∧ Obj gs d

/-- Each key at most once, with the kind of value that belongs to it, in any order. -/
def table (ts : List (String × Ty)) : Ty := fun v =>
  ∃ d : Dict, v = .dict d ∧ (d.map Prod.fst).Nodup ∧ ∀ kv ∈ d, ∃ t, (kv.1, t) ∈ ts ∧ t kv.2

/-- A value of one of these kinds. -/
def anyOf (ts : List Ty) : Ty := fun v => ∃ t ∈ ts, t v

/-! ### header -/

def header (all : Bool) : Entries :=
  [ ("guid", guid), ("r_link_flags", word 32), ("r_file_flags", word 32), ("creation_time", orNull date),
    ("accessed_time", orNull date), ("modified_time", orNull date), ("file_size", word 32), ("icon_index", signed 32),
    ("windowstyle", oneOf ["SW_SHOWNORMAL", "SW_SHOWMAXIMIZED", "SW_SHOWMINNOACTIVE"]), ("hotkey", hotKey),
    ("r_hotkey", word 16), ("link_flags", someOf linkFlagNames), ("file_flags", someOf fileFlagNames) ] ++
  if all then
    [("header_size", word 32), ("reserved0", word 16), ("reserved1", word 32), ("reserved2", word 32)]
  else []

/-! ### items -/

/-- How the kind of a file entry or network location is named. -/
def kinds : List String :=
  [ "Is directory", "Is file", "Is share", "Has Unicode strings", "Is Unicode directory", "Is Unicode file", "Unknown" ]

def fileEntry (dated : Bool) : Entries :=
  [("class", oneOf ["File entry"]), ("flags", oneOf kinds), ("file_size", word 32)] ++
  (if dated then [("modification_time", orNull dosDate)] else []) ++
  [("file_attribute_flags", word 16), ("primary_name", text)]

/-- The forms of an item. -/
def items (dated : Bool) : List Ty :=
  [ record
      [ ("class", oneOf ["Control panel CPL file"]), ("signature", hex8), ("cpl_file_path", text), ("name", text),
        ("comments", text) ],
    record
      [ ("class", oneOf ["Control panel category"]), ("category_id", word 32),
        ("category", oneOf [ "All Control Panel Items", "Appearance and Personalization", "Hardware and Sound",
          "Network and Internet", "Sounds, Speech, and Audio Devices", "System and Security", "Clock, Language, and Region",
          "Ease of Access", "Programs", "User Accounts", "Security Center", "Mobile PC", "Unknown" ]) ],
    record
      [ ("class", oneOf ["Root Folder"]),
        ("sort_index", oneOf [ "Internet Explorer", "Libraries", "Users", "My Documents", "Public Folder", "My Computer",
          "UsersLibraries", "My Networs Places/Network", "Recycle Bin", "My Games", "Unknown" ]),
        ("sort_index_value", word 8), ("guid", guid) ],
    record [("class", oneOf ["Volume Item"]), ("flags", hex 4), ("volume_name", text)],
    record [("class", oneOf ["Volume Item"]), ("flags", hex 4), ("volume_identifier", guid)],
    record (fileEntry dated),
    record
      [ ("class", oneOf ["Network location"]), ("flags", oneOf kinds), ("content_flags", word 8), ("location", text),
        ("description", orNull text), ("comments", orNull text) ],
    record [("class", oneOf ["Control panel"]), ("item_identifier", guid)],
    record
      [ ("class", oneOf ["Users files folder"]), ("signature", text), ("file_entry", record (fileEntry true)),
        ("delegate_class_id", guid), ("delegate_folder_id", guid) ],
    record [("class", oneOf ["Compressed folder", "Internet", "Printers", "Common places folder"])],
    record [("class", oneOf ["Unknown"]), ("size", range 3 65537)] ]

def target (all : Bool) : Entries :=
  (if all then [("size", word 16)] else []) ++ [("items", listOf (anyOf (items all)))] ++
  if all then [("index", range 26 (2 ^ 32 + 1))] else []

/-! ### link info -/

def volume (all : Bool) : List Group :=
  [ need
      ((if all then [("volume_id_size", word 32)] else []) ++ [("r_drive_type", word 32)] ++
        (if all then [("volume_label_offset", word 32)] else []) ++
        [ ("drive_serial_number", hex 32),
          ("drive_type", orNull (oneOf [ "DRIVE_UNKNOWN", "DRIVE_NO_ROOT_DIR", "DRIVE_REMOVABLE", "DRIVE_FIXED", "DRIVE_REMOTE",
            "DRIVE_CDROM", "DRIVE_RAMDISK" ])),
          ("volume_label", orNull text) ]),
    may [("volume_label_unicode_offset", word 32), ("volume_label_unicode", text)] ]

/-- The providers whose code has no hexadecimal letter. -/
def providers : List String :=
  [ "WNNC_NET_DECORB", "WNNC_NET_PROTSTOR", "WNNC_NET_FJ_REDIR", "WNNC_NET_DISTINCT", "WNNC_NET_TWINS", "WNNC_NET_RDR2SAMPLE",
    "WNNC_NET_CSC", "WNNC_NET_3IN1", "WNNC_NET_EXTENDNET", "WNNC_NET_OBJECT_DIRE", "WNNC_NET_MASFAX", "WNNC_NET_HOB_NFS",
    "WNNC_NET_SHIVA", "WNNC_NET_IBMAL", "WNNC_NET_LOCK", "WNNC_NET_TERMSRV", "WNNC_NET_SRT", "WNNC_NET_QUINCY",
    "WNNC_NET_OPENAFS", "WNNC_NET_RSFX", "WNNC_NET_MFILES", "WNNC_NET_MS_NFS", "WNNC_NET_GOOGLE" ]

/-- A network link with these names. -/
def networkOf (all : Bool) (names : List Group) : List Group :=
  [ need
      ((if all then [("common_network_relative_link_size", word 32)] else []) ++
        [("common_network_relative_link_flags", word 32)] ++
        (if all then [("net_name_offset", word 32), ("device_name_offset", word 32)] else []) ++
        [("r_network_provider_type", hex 32)]),
    may [("network_provider_type", oneOf providers)] ] ++ names

/-- The two forms of a network link: names in Unicode, or in the code page. -/
def network (all : Bool) : List Ty :=
  [ obj (networkOf all
      [ may [("net_name_offset_unicode", word 32), ("net_name_unicode", text)],
        may [("device_name_offset_unicode", word 32), ("device_name_unicode", text)] ]),
    obj (networkOf all [may [("net_name", text)], may [("device_name", text)]]) ]

/-- A link info with a location of this kind and name. -/
def infoOf (all : Bool) (loc : Ty) (kind : String) : List Group :=
  [ need
      ((if all then [("link_info_size", word 32), ("link_info_header_size", word 32)] else []) ++
        [("link_info_flags", word 32)] ++
        if all then
          [ ("volume_id_offset", word 32), ("local_base_path_offset", word 32),
            ("common_network_relative_link_offset", word 32), ("common_path_suffix_offset", word 32) ]
        else []),
    may [("local_base_path", text)],
    may [("common_path_suffix", text)],
    may [("local_base_path_offset_unicode", word 32), ("local_base_path_unicode", text)],
    may [("common_path_suffix_offset_unicode", word 32), ("common_path_suffix_unicode", text)],
    need [("location_info", loc), ("location", oneOf [kind])] ]

/-- The forms of the link info: nothing, or one of the two kinds. -/
def info (all : Bool) : List Ty :=
  [record [], obj (infoOf all (obj (volume all)) "Local"), obj (infoOf all (anyOf (network all)) "Network")]

/-! ### strings -/

def strings : List Group :=
  [ may [("description", text)], may [("relative_path", text)], may [("working_directory", text)],
    may [("command_line_arguments", text)], may [("icon_location", text)] ]

/-! ### extra blocks -/

/-- The name of a type of properties. -/
def typeLabel : Ty := fun v => ∃ t name, typeName t = some name ∧ v = .str name.toList

/-- A property: its value is a text or null. -/
def property : List Ty :=
  [ record [("value_size", word 32), ("id", word 32), ("value", orNull text), ("value_type", typeLabel)],
    record
      [ ("value_size", word 32), ("name_size", word 32), ("name", text), ("value", orNull text), ("value_type", typeLabel) ] ]

def storage : Ty :=
  record
    [ ("storage_size", word 32), ("version", hex 32), ("format_id", guid),
      ("serialized_property_values", listOf (anyOf property)) ]

def block (fields : Entries) : Ty := record (("size", word 32) :: fields)

/-- The blocks; sizes are at most `most`. -/
def blocks (most : Nat) : List (String × Ty) :=
  [ ("ENVIRONMENTAL_VARIABLES_LOCATION_BLOCK", block [("target_ansi", text), ("target_unicode", text)]),
    ("CONSOLE_PROPERTIES_BLOCK", block
      [ ("fill_attributes", word 16), ("popup_fill_attributes", word 16), ("screen_buffer_size_x", signed 16),
        ("screen_buffer_size_y", signed 16), ("window_size_x", signed 16), ("window_size_y", signed 16),
        ("window_origin_x", signed 16), ("window_origin_y", signed 16), ("font_size", word 32), ("font_family", word 32),
        ("font_weight", word 32), ("face_name", text), ("cursor_size", word 32), ("full_screen", word 32),
        ("quick_edit", word 32), ("insert_mode", word 32), ("auto_position", word 32),
        ("history_buffer_size", word 32), ("number_of_history_buffers", word 32), ("history_no_dup", word 32),
        ("color_table", word 32) ]),
    ("DISTRIBUTED_LINK_TRACKER_BLOCK", block
      [ ("length", word 32), ("version", word 32), ("machine_identifier", text), ("droid_volume_identifier", guid),
        ("droid_file_identifier", guid), ("birth_droid_volume_identifier", guid), ("birth_droid_file_identifier", guid) ]),
    ("CONSOLE_CODEPAGE_BLOCK", block [("code_page", word 32)]),
    ("SPECIAL_FOLDER_LOCATION_BLOCK", block [("special_folder_id", word 32), ("offset", word 32)]),
    ("DARWIN_BLOCK", block
      [ ("darwin_data_ansi", text), ("darwin_data_unicode", text), ("product_code_id", text), ("feature_name", orNull text),
        ("component_id", orNull text) ]),
    ("ICON_LOCATION_BLOCK", block [("target_ansi", text), ("target_unicode", text)]),
    ("SHIM_LAYER_BLOCK", block [("layer_name", text)]),
    ("METADATA_PROPERTIES_BLOCK", block [("property_store", listOf storage)]),
    ("KNOWN_FOLDER_LOCATION_BLOCK", block [("known_folder_id", guid), ("offset", word 32)]),
    ("SHELL_ITEM_IDENTIFIER_BLOCK", block [("id_list", listOf (anyOf (items true)))]),
    ("UNKNOWN_BLOCK", listOf (block [("extra_data_sha256", text)])),
    ("TERMINAL_BLOCK", record [("size", range 0 most), ("appended_data_sha256", text)]) ]

/-! ### the report -/

/-- The report, in full or reduced; the size of the file and of what follows the blocks are at most `most`. -/
def report (most : Nat) (all : Bool) : List Group :=
  [ need [("size", range 0 most), ("header", record (header all))],
    may [("target", record (target all))],
    need [("link_info", anyOf (info all)), ("data", obj strings), ("extra", table (blocks most))] ]

/-- `Inside x v`: the value `x` is `v`, or is somewhere in `v`. -/
inductive Inside (x : PyVal) : PyVal → Prop
  | here : Inside x x
  | element {y : PyVal} {l : List PyVal} : y ∈ l → Inside x y → Inside x (.list l)
  | entry {kv : String × PyVal} {d : Dict} : kv ∈ d → Inside x kv.2 → Inside x (.dict d)

end Verif.Spec.Schema
