import Verif.Spec.Targets
import Verif.Spec.Info

/-
Specification layer: ExtraData ([MS-SHLLINK] 2.5), the property store ([MS-PROPSTORE] 2.2) and packed GUIDs.
-/

namespace Verif.Spec

/-! ### packed GUIDs (Windows Installer) -/

/-- The 85 digits. -/
def digits85 : List Char :=
  "!$%&'()*+,-.0123456789=?@ABCDEFGHIJKLMNOPQRSTUVWXYZ[]^_`abcdefghijklmnopqrstuvwxyz{}~".toList

/-- `n` digits to the base 85, least significant first. -/
def b85 : Nat → Nat → List Char
  | 0, _ => []
  | n + 1, v => digits85.getD (v % 85) '?' :: b85 n (v / 85)

/-- The four 32-bit words a GUID consists of in memory. -/
def Guid.words (g : Guid) : List Nat :=
  [ g.data1.toNat, g.data2.toNat + 2 ^ 16 * g.data3.toNat,
    g.b0.toNat + 2 ^ 8 * g.b1.toNat + 2 ^ 16 * g.b2.toNat + 2 ^ 24 * g.b3.toNat,
    g.b4.toNat + 2 ^ 8 * g.b5.toNat + 2 ^ 16 * g.b6.toNat + 2 ^ 24 * g.b7.toNat ]

/-- 20 characters for a GUID. -/
def Guid.packed (g : Guid) : List Char := g.words.flatMap (b85 5)

/-- A Darwin descriptor: product code, feature name (empty: none) and component code. -/
structure Descriptor where
  product : Guid
  feature : List Char
  component : Option Guid

def Descriptor.text (d : Descriptor) : List Char :=
  d.product.packed ++ d.feature ++ match d.component with
    | none => ['<']
    | some g => '>' :: g.packed

/-- The feature name contains no separator (and no NUL, as it is part of a text). -/
def Descriptor.Valid (d : Descriptor) : Prop := '<' ∉ d.feature ∧ '>' ∉ d.feature ∧ '\x00' ∉ d.feature

/-! ### texts in fields of fixed width -/

/-- A text with a terminator and what is left of the field. -/
structure Field where
  text : Text
  junk : List UInt8

def Field.encode (u : Bool) (f : Field) : List UInt8 := f.text.encodeZ u ++ f.junk

/-- The text is valid and the field has the given width. -/
def Field.Valid (tp : TextProc) (u : Bool) (width : Nat) (f : Field) : Prop :=
  f.text.Valid tp u ∧ (f.encode u).length = width

/-! ### property store -/

/-- Names of the simple property types ([MS-OLEPS] 2.15). -/
def baseTypes : List (Nat × String) :=
  [ (0x00, "EMPTY"), (0x01, "NULL"), (0x02, "I2"), (0x03, "I4"), (0x04, "R4"), (0x05, "R8"), (0x06, "CY"),
    (0x07, "DATE"), (0x08, "BSTR"), (0x0A, "ERROR"), (0x0B, "BOOL"), (0x0C, "VARIANT"), (0x0E, "DECIMAL"),
    (0x10, "I1"), (0x11, "UI1"), (0x12, "UI2"), (0x13, "UI4"), (0x14, "I8"), (0x15, "UI8"), (0x16, "INT"),
    (0x17, "UINT"), (0x1E, "LPSTR"), (0x1F, "LPWSTR"), (0x40, "FILETIME"), (0x41, "BLOB"), (0x42, "STREAM"),
    (0x43, "STORAGE"), (0x44, "STREAMED_Object"), (0x45, "STORED_Object"), (0x46, "BLOB_Object"), (0x47, "CF"),
    (0x48, "CLSID"), (0x49, "VERSIONED_STREAM") ]

/-- Types of the elements of a vector and of an array. -/
def vectorTypes : List Nat :=
  [0x02, 0x03, 0x04, 0x05, 0x06, 0x07, 0x08, 0x0A, 0x0B, 0x0C, 0x10, 0x11, 0x12, 0x13, 0x14, 0x15, 0x1E, 0x1F, 0x40,
    0x47, 0x48]

def arrayTypes : List Nat :=
  [0x02, 0x03, 0x04, 0x05, 0x06, 0x07, 0x08, 0x0A, 0x0B, 0x0C, 0x0E, 0x10, 0x11, 0x12, 0x13, 0x16, 0x17]

/-- The name of a property type; VARIANT exists only as an element. -/
def typeName (t : Nat) : Option String :=
  if t < 0x1000 then if t = 0x0C then none else (baseTypes.lookup t).map ("VT_" ++ ·)
  else if t - 0x1000 ∈ vectorTypes then (baseTypes.lookup (t - 0x1000)).map ("VT_VECTOR_" ++ ·)
  else if 0x2000 ≤ t ∧ t - 0x2000 ∈ arrayTypes then (baseTypes.lookup (t - 0x2000)).map ("VT_ARRAY_" ++ ·)
  else none

/-- A typed value: a Unicode string (VT_LPWSTR), or anything else, whose value is not reported. -/
inductive TypedValue
  | str (f : Field) (more : List UInt8)
  | other (typ padding : UInt16) (data : List UInt8)

namespace TypedValue

def encode : TypedValue → List UInt8
  | str f more => le 2 0x1F ++ le 2 0 ++ le 4 ((f.encode true).length / 2) ++ f.encode true ++ more
  | other t p data => le 2 t.toNat ++ le 2 p.toNat ++ data

/-- The type has a name, and it is not VT_I2 or VT_LPWSTR (unless the padding is wrong). -/
def Valid (tp : TextProc) : TypedValue → Prop
  | str f _ => f.text.Valid tp true ∧ (f.encode true).length % 2 = 0 ∧ (f.encode true).length < 2 ^ 33
  | other t p _ => (typeName t.toNat).isSome ∧ (p = 0 → t ≠ 2 ∧ t ≠ 0x1F)

def value : TypedValue → PyVal
  | str f _ => .str f.text.text
  | other .. => .none

def typ : TypedValue → Nat
  | str .. => 0x1F
  | other t .. => t.toNat

/-- The entries for the value. -/
def report (v : TypedValue) : Dict :=
  [("value", v.value), ("value_type", .str ((typeName v.typ).getD "").toList)]

/-- What is raised for a value that cannot be reported: VT_I2 is unpacked with the wrong width, a type without a
name is refused. -/
def unreportable : TypedValue → Option PyErr
  | str .. => none
  | other t p _ =>
    if t = 2 ∧ p = 0 then some .structError else if typeName t.toNat = none then some .valueError else none

end TypedValue

/-- A property: its name is an integer or a string. -/
inductive Property
  | int (id : UInt32) (reserved : UInt8) (v : TypedValue)
  | str (name : Field) (reserved : UInt8) (v : TypedValue)

namespace Property

def body : Property → List UInt8
  | int id r v => le 4 id.toNat ++ [r] ++ v.encode
  | str n r v => le 4 (n.encode true).length ++ [r] ++ n.encode true ++ v.encode

def encode (p : Property) : List UInt8 := le 4 (4 + p.body.length) ++ p.body

def Valid (tp : TextProc) (stringNamed : Bool) : Property → Prop
  | int _ _ v => stringNamed = false ∧ v.Valid tp
  | str n _ v => stringNamed = true ∧ n.text.Valid tp true ∧ v.Valid tp

def report (p : Property) : Dict :=
  match p with
  | int id _ v => [("value_size", .int (4 + p.body.length : Nat)), ("id", .int id.toNat)] ++ v.report
  | str n _ v =>
    [ ("value_size", .int (4 + p.body.length : Nat)), ("name_size", .int (n.encode true).length),
      ("name", .str n.text.text) ] ++ v.report

/-- The typed value of a property. -/
def value : Property → TypedValue
  | int _ _ v => v
  | str _ _ v => v

end Property

/-- The format of storages with string names: D5CDD505-2E9C-101B-9397-08002B2CF9AE. -/
def stringNamedFormat : Guid := ⟨0xD5CDD505, 0x2E9C, 0x101B, 0x93, 0x97, 0x08, 0x00, 0x2B, 0x2C, 0xF9, 0xAE⟩

/-- The kind of name is the one the format asks for. -/
def Property.NameValid (tp : TextProc) (g : Guid) : Property → Prop
  | .int .. => g ≠ stringNamedFormat
  | .str n _ _ => g = stringNamedFormat ∧ n.text.Valid tp true

/-- A serialized property storage. -/
structure Storage where
  version : UInt32
  format : Guid
  properties : List Property

namespace Storage

def body (s : Storage) : List UInt8 :=
  le 4 s.version.toNat ++ s.format.encode ++ s.properties.flatMap Property.encode ++ le 4 0

def encode (s : Storage) : List UInt8 := le 4 (4 + s.body.length) ++ s.body

def Valid (tp : TextProc) (s : Storage) : Prop :=
  ∀ p ∈ s.properties, p.Valid tp (decide (s.format = stringNamedFormat))

def report (s : Storage) : Dict :=
  [ ("storage_size", .int (4 + s.body.length : Nat)), ("version", .str (hex0x s.version.toNat)),
    ("format_id", .str s.format.text),
    ("serialized_property_values", .list (s.properties.map fun p => .dict p.report)) ]

end Storage

def encodeStore (l : List Storage) : List UInt8 := l.flatMap Storage.encode ++ le 4 0

/-! ### blocks -/

/-- A block with any contents. -/
structure RawBlock where
  signature : UInt32
  payload : List UInt8

def RawBlock.encode (b : RawBlock) : List UInt8 := le 4 (8 + b.payload.length) ++ le 4 b.signature.toNat ++ b.payload

/-- The size can be written down. -/
def RawBlock.Fits (b : RawBlock) : Prop := 8 + b.payload.length < 2 ^ 32

/-- Signatures and names of the blocks. -/
def blockNames : List (Nat × String) :=
  [ (0xA0000001, "ENVIRONMENTAL_VARIABLES_LOCATION_BLOCK"), (0xA0000002, "CONSOLE_PROPERTIES_BLOCK"),
    (0xA0000003, "DISTRIBUTED_LINK_TRACKER_BLOCK"), (0xA0000004, "CONSOLE_CODEPAGE_BLOCK"),
    (0xA0000005, "SPECIAL_FOLDER_LOCATION_BLOCK"), (0xA0000006, "DARWIN_BLOCK"), (0xA0000007, "ICON_LOCATION_BLOCK"),
    (0xA0000008, "SHIM_LAYER_BLOCK"), (0xA0000009, "METADATA_PROPERTIES_BLOCK"),
    (0xA000000B, "KNOWN_FOLDER_LOCATION_BLOCK"), (0xA000000C, "SHELL_ITEM_IDENTIFIER_BLOCK") ]

/-- The name of the block with a signature. -/
def blockName (signature : Nat) : String := (blockNames.lookup signature).getD "UNKNOWN_BLOCK"

/-- ConsoleDataBlock. -/
structure ConsoleBlock where
  fillAttributes : UInt16
  popupFillAttributes : UInt16
  screenBufferSizeX : Int16
  screenBufferSizeY : Int16
  windowSizeX : Int16
  windowSizeY : Int16
  windowOriginX : Int16
  windowOriginY : Int16
  unused1 : UInt32
  unused2 : UInt32
  fontSize : UInt32
  fontFamily : UInt32
  fontWeight : UInt32
  faceName : Field
  cursorSize : UInt32
  fullScreen : UInt32
  quickEdit : UInt32
  insertMode : UInt32
  autoPosition : UInt32
  historyBufferSize : UInt32
  numberOfHistoryBuffers : UInt32
  historyNoDup : UInt32
  /-- first entry of the color table; the others are in `more` and are not reported -/
  color0 : UInt32

def ConsoleBlock.encode (c : ConsoleBlock) : List UInt8 :=
  le 2 c.fillAttributes.toNat ++ le 2 c.popupFillAttributes.toNat ++ leI 2 c.screenBufferSizeX.toInt ++
    leI 2 c.screenBufferSizeY.toInt ++ leI 2 c.windowSizeX.toInt ++ leI 2 c.windowSizeY.toInt ++
    leI 2 c.windowOriginX.toInt ++ leI 2 c.windowOriginY.toInt ++ le 4 c.unused1.toNat ++ le 4 c.unused2.toNat ++
    le 4 c.fontSize.toNat ++ le 4 c.fontFamily.toNat ++ le 4 c.fontWeight.toNat ++ c.faceName.encode true ++
    le 4 c.cursorSize.toNat ++ le 4 c.fullScreen.toNat ++ le 4 c.quickEdit.toNat ++ le 4 c.insertMode.toNat ++
    le 4 c.autoPosition.toNat ++ le 4 c.historyBufferSize.toNat ++ le 4 c.numberOfHistoryBuffers.toNat ++
    le 4 c.historyNoDup.toNat ++ le 4 c.color0.toNat

def ConsoleBlock.report (c : ConsoleBlock) : Dict :=
  [ ("fill_attributes", .int c.fillAttributes.toNat), ("popup_fill_attributes", .int c.popupFillAttributes.toNat),
    ("screen_buffer_size_x", .int c.screenBufferSizeX.toInt), ("screen_buffer_size_y", .int c.screenBufferSizeY.toInt),
    ("window_size_x", .int c.windowSizeX.toInt), ("window_size_y", .int c.windowSizeY.toInt),
    ("window_origin_x", .int c.windowOriginX.toInt), ("window_origin_y", .int c.windowOriginY.toInt),
    ("font_size", .int c.fontSize.toNat), ("font_family", .int c.fontFamily.toNat),
    ("font_weight", .int c.fontWeight.toNat), ("face_name", .str c.faceName.text.text),
    ("cursor_size", .int c.cursorSize.toNat), ("full_screen", .int c.fullScreen.toNat),
    ("quick_edit", .int c.quickEdit.toNat), ("insert_mode", .int c.insertMode.toNat),
    ("auto_position", .int c.autoPosition.toNat), ("history_buffer_size", .int c.historyBufferSize.toNat),
    ("number_of_history_buffers", .int c.numberOfHistoryBuffers.toNat), ("history_no_dup", .int c.historyNoDup.toNat),
    ("color_table", .int c.color0.toNat) ]

/-- TrackerDataBlock. -/
structure TrackerBlock where
  length : UInt32
  version : UInt32
  machine : Field
  droidVolume : Guid
  droidFile : Guid
  birthVolume : Guid
  birthFile : Guid

def TrackerBlock.encode (t : TrackerBlock) : List UInt8 :=
  le 4 t.length.toNat ++ le 4 t.version.toNat ++ t.machine.encode false ++ t.droidVolume.encode ++ t.droidFile.encode ++
    t.birthVolume.encode ++ t.birthFile.encode

def TrackerBlock.report (t : TrackerBlock) : Dict :=
  [ ("length", .int t.length.toNat), ("version", .int t.version.toNat), ("machine_identifier", .str t.machine.text.text),
    ("droid_volume_identifier", .str t.droidVolume.text), ("droid_file_identifier", .str t.droidFile.text),
    ("birth_droid_volume_identifier", .str t.birthVolume.text), ("birth_droid_file_identifier", .str t.birthFile.text) ]

/-- The blocks with contents the parser understands.  `more` is what follows the described part. -/
inductive Block
  | environment (ansi wide : Field)
  | console (c : ConsoleBlock)
  | tracker (t : TrackerBlock)
  | codePage (cp : UInt32)
  | specialFolder (id offset : UInt32)
  | darwin (ansi : Field) (d : Descriptor) (junk : List UInt8)
  | icon (ansi wide : Field)
  | shimLayer (name : Text)
  | metadata (l : List Storage)
  | knownFolder (id : Guid) (offset : UInt32)
  | shellItem (items : List Item)
  | other (signature : UInt32) (data : List UInt8)

namespace Block

def signature : Block → UInt32
  | environment .. => 0xA0000001
  | console .. => 0xA0000002
  | tracker .. => 0xA0000003
  | codePage .. => 0xA0000004
  | specialFolder .. => 0xA0000005
  | darwin .. => 0xA0000006
  | icon .. => 0xA0000007
  | shimLayer .. => 0xA0000008
  | metadata .. => 0xA0000009
  | knownFolder .. => 0xA000000B
  | shellItem .. => 0xA000000C
  | other s _ => s

/-- The field with the descriptor of a Darwin block. -/
def descriptorField (d : Descriptor) (junk : List UInt8) : Field := ⟨⟨utf16 d.text, d.text⟩, junk⟩

def payload : Block → List UInt8
  | environment a w => a.encode false ++ w.encode true
  | console c => c.encode
  | tracker t => t.encode
  | codePage cp => le 4 cp.toNat
  | specialFolder i o => le 4 i.toNat ++ le 4 o.toNat
  | darwin a d junk => a.encode false ++ (descriptorField d junk).encode true
  | icon a w => a.encode false ++ w.encode true
  | shimLayer t => t.encodeZ false
  | metadata l => encodeStore l
  | knownFolder i o => i.encode ++ le 4 o.toNat
  | shellItem items => encodeItems items ++ le 2 0
  | other _ data => data

/-- Texts are valid and fill their fields. -/
def Valid (tp : TextProc) : Block → Prop
  | environment a w => a.Valid tp false 260 ∧ w.Valid tp true 520
  | console c => c.faceName.Valid tp true 64
  | tracker t => t.machine.Valid tp false 16
  | darwin a d junk => a.Valid tp false 260 ∧ d.Valid ∧ ((descriptorField d junk).encode true).length = 520
  | icon a w => a.Valid tp false 260 ∧ w.Valid tp true 520
  | shimLayer t => t.Valid tp false
  | metadata l => ∀ s ∈ l, s.Valid tp
  | shellItem items => ∀ it ∈ items, it.Valid tp ∧ it.payload.length + 2 < 65536
  | other s _ => blockName s.toNat = "UNKNOWN_BLOCK"
  | _ => True

/-- `more` is anything after the payload that still belongs to the block. -/
def encode (b : Block) (more : List UInt8) : List UInt8 := RawBlock.encode ⟨b.signature, b.payload ++ more⟩

/-- The entries besides the size.  `hash` is SHA-256 as lower-case hexadecimal digits; it covers the block from the
signature on. -/
def fields (hash : List UInt8 → List Char) (more : List UInt8) : Block → Dict
  | environment a w => [("target_ansi", .str a.text.text), ("target_unicode", .str w.text.text)]
  | console c => c.report
  | tracker t => t.report
  | codePage cp => [("code_page", .int cp.toNat)]
  | specialFolder i o => [("special_folder_id", .int i.toNat), ("offset", .int o.toNat)]
  | darwin a d _ =>
    [ ("darwin_data_ansi", .str a.text.text), ("darwin_data_unicode", .str d.text),
      ("product_code_id", .str d.product.text),
      ("feature_name", if d.feature = [] then .none else .str d.feature),
      ("component_id", PyVal.opt .str (d.component.map Guid.text)) ]
  | icon a w => [("target_ansi", .str a.text.text), ("target_unicode", .str w.text.text)]
  | shimLayer t => [("layer_name", .str t.text)]
  | metadata l => [("property_store", .list (l.map fun s => .dict s.report))]
  | knownFolder i o => [("known_folder_id", .str i.text), ("offset", .int o.toNat)]
  | shellItem items => [("id_list", .list (items.map fun it => .dict it.report))]
  | other s data => [("extra_data_sha256", .str (hash (le 4 s.toNat ++ (data ++ more))))]

/-- The warnings the contents call for: a tracker block announces a length of 0x58 and version 0; items of an ID list
have their own. -/
def warns : Block → List Warn
  | tracker t =>
    (if t.length.toNat = 0x58 then [] else [.mustBe "length" (.int 0x58) (.int t.length.toNat)]) ++
      if t.version.toNat = 0 then [] else [.mustBe "version" (.int 0) (.int t.version.toNat)]
  | shellItem items => items.flatMap Item.warns
  | _ => []

/-- What must be reported about the block. -/
def report (hash : List UInt8 → List Char) (b : Block) (more : List UInt8) : Dict :=
  ("size", .int (8 + (b.payload ++ more).length : Nat)) :: b.fields hash more

end Block

/-! ### cutting arbitrary extra data into blocks -/

/-- A piece of the extra data: the size it declares, its bytes (fewer than declared when the data ends early) and
the signature found four bytes after its start (`none` when the data ends before that). -/
structure Piece where
  declared : Nat
  bytes : List UInt8
  signature : Option Nat

/-- `Cut b l last`: reading block after block from `b` gives the pieces `l`; `last` is what is left when a size of
zero, or fewer than four bytes, are met. -/
inductive Cut : List UInt8 → List Piece → List UInt8 → Prop
  | stop {b : List UInt8} (h : uAt 4 b 0 = none ∨ uAt 4 b 0 = some 0) : Cut b [] b
  | block {b : List UInt8} {n : Nat} {l : List Piece} {last : List UInt8} (h : uAt 4 b 0 = some n) (hn : n ≠ 0)
      (hl : Cut (b.drop n) l last) : Cut b (⟨n, b.take n, uAt 4 b 4⟩ :: l) last

/-- What the blocks to be reported are called, with their bytes: pieces without a signature are left out. -/
def reportedPieces (l : List Piece) : List (String × List UInt8) :=
  l.filterMap fun p => p.signature.map fun s => (blockName s, p.bytes)

end Verif.Spec
