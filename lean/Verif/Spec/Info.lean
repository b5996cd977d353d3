import Verif.Spec.Targets

/-
Specification layer: LinkInfo ([MS-SHLLINK] 2.3).  The parts of the structure may be placed anywhere, so the
contents are described by what stands at which offset; `encode` gives one particular arrangement.
-/

namespace Verif.Spec

/-- The bytes `part` stand in `raw` at offset `off`. -/
def HasAt (raw : List UInt8) (off : Nat) (part : List UInt8) : Prop :=
  ∃ pre post, raw = pre ++ part ++ post ∧ pre.length = off

/-- The fixed part of LinkInfo. -/
structure InfoHeader where
  size : UInt32
  headerSize : UInt32
  flags : UInt32
  volumeIdOffset : UInt32
  localBasePathOffset : UInt32
  networkOffset : UInt32
  suffixOffset : UInt32
  /-- LocalBasePathOffsetUnicode, CommonPathSuffixOffsetUnicode -/
  wide : Option (UInt32 × UInt32)

def InfoHeader.encode (h : InfoHeader) : List UInt8 :=
  le 4 h.size.toNat ++ le 4 h.headerSize.toNat ++ le 4 h.flags.toNat ++ le 4 h.volumeIdOffset.toNat ++
    le 4 h.localBasePathOffset.toNat ++ le 4 h.networkOffset.toNat ++ le 4 h.suffixOffset.toNat ++
    match h.wide with
    | none => []
    | some w => le 4 w.1.toNat ++ le 4 w.2.toNat

/-- The optional offsets are there iff the header size is at least 0x24. -/
def InfoHeader.Valid (h : InfoHeader) : Prop := h.wide.isSome = decide (0x24 ≤ h.headerSize.toNat)

/-- A text at an offset, where offset 0 stands for no text; `shift` is added to the offset. -/
def TextAt (tp : TextProc) (raw : List UInt8) (unicode : Bool) (off shift : Nat) (t : Option Text) : Prop :=
  if off = 0 then t = none
  else ∃ x, t = some x ∧ x.Valid tp unicode ∧ HasAt raw (off + shift) (x.encodeZ unicode)

/-- The texts of LinkInfo outside VolumeID and CommonNetworkRelativeLink.  `wideSuffix4` is the text that starts
four bytes after CommonPathSuffixOffsetUnicode: this is the one the parser reads. -/
structure InfoTexts where
  base : Option Text
  suffix : Option Text
  wideBase : Option Text
  wideSuffix4 : Option Text

/-- Header and texts are present in `raw`. -/
structure InfoIn (tp : TextProc) (raw : List UInt8) (h : InfoHeader) (t : InfoTexts) : Prop where
  valid : h.Valid
  header : HasAt raw 0 h.encode
  base : TextAt tp raw false h.localBasePathOffset.toNat 0 t.base
  suffix : TextAt tp raw false h.suffixOffset.toNat 0 t.suffix
  wideBase : TextAt tp raw true ((h.wide.map (·.1.toNat)).getD 0) 0 t.wideBase
  wideSuffix : TextAt tp raw true ((h.wide.map (·.2.toNat)).getD 0) 4 t.wideSuffix4

/-- A dictionary entry for an optional text. -/
def textEntry (key : String) (t : Option Text) : Dict := t.toList.map fun x => (key, .str x.text)

/-- The same, preceded by its offset. -/
def wideEntry (offKey key : String) (off : Nat) (t : Option Text) : Dict :=
  t.toList.flatMap fun x => [(offKey, .int off), (key, .str x.text)]

/-- What must be reported about LinkInfo. -/
def infoReport (h : InfoHeader) (t : InfoTexts) (location : String) (info : Dict) : Dict :=
  [ ("link_info_size", .int h.size.toNat), ("link_info_header_size", .int h.headerSize.toNat),
    ("link_info_flags", .int h.flags.toNat), ("volume_id_offset", .int h.volumeIdOffset.toNat),
    ("local_base_path_offset", .int h.localBasePathOffset.toNat),
    ("common_network_relative_link_offset", .int h.networkOffset.toNat),
    ("common_path_suffix_offset", .int h.suffixOffset.toNat) ] ++
    textEntry "local_base_path" t.base ++ textEntry "common_path_suffix" t.suffix ++
    wideEntry "local_base_path_offset_unicode" "local_base_path_unicode" ((h.wide.map (·.1.toNat)).getD 0) t.wideBase ++
    wideEntry "common_path_suffix_offset_unicode" "common_path_suffix_unicode" ((h.wide.map (·.2.toNat)).getD 0)
      t.wideSuffix4 ++
    [("location_info", .dict info), ("location", .str location.toList)]

/-! ### VolumeID -/

structure Volume where
  size : UInt32
  driveType : UInt32
  serial : UInt32
  labelOffset : UInt32
  /-- VolumeLabelOffsetUnicode -/
  wideLabelOffset : Option UInt32
  label : Text

def Volume.encode (v : Volume) : List UInt8 :=
  le 4 v.size.toNat ++ le 4 v.driveType.toNat ++ le 4 v.serial.toNat ++ le 4 v.labelOffset.toNat ++
    match v.wideLabelOffset with
    | none => []
    | some o => le 4 o.toNat

/-- The volume id and its label are present in `raw`: VolumeLabelOffset 0x14 means that the label is Unicode. -/
structure VolumeIn (tp : TextProc) (raw : List UInt8) (off : Nat) (v : Volume) : Prop where
  wide : v.wideLabelOffset.isSome = decide (v.labelOffset.toNat = 0x14)
  ne : v.wideLabelOffset ≠ some 0
  here : HasAt raw off v.encode
  valid : v.label.Valid tp v.wideLabelOffset.isSome
  label : HasAt raw (off + (v.wideLabelOffset.getD v.labelOffset).toNat) (v.label.encodeZ v.wideLabelOffset.isSome)

/-- Names of the drive types 0 to 6. -/
def driveTypeName (n : Nat) : Option String :=
  match n with
  | 0 => some "DRIVE_UNKNOWN"
  | 1 => some "DRIVE_NO_ROOT_DIR"
  | 2 => some "DRIVE_REMOVABLE"
  | 3 => some "DRIVE_FIXED"
  | 4 => some "DRIVE_REMOTE"
  | 5 => some "DRIVE_CDROM"
  | 6 => some "DRIVE_RAMDISK"
  | _ => none

/-- `None` or a literal. -/
def optName (o : Option String) : PyVal := PyVal.opt .str (o.map (·.toList))

def Volume.report (v : Volume) : Dict :=
  [ ("volume_id_size", .int v.size.toNat), ("r_drive_type", .int v.driveType.toNat),
    ("volume_label_offset", .int v.labelOffset.toNat), ("drive_serial_number", .str (hex0x v.serial.toNat)),
    ("drive_type", optName (driveTypeName v.driveType.toNat)),
    ("volume_label", if v.wideLabelOffset.isSome then .none else .str v.label.text) ] ++
    match v.wideLabelOffset with
    | none => []
    | some o => [("volume_label_unicode_offset", .int o.toNat), ("volume_label_unicode", .str v.label.text)]

/-! ### CommonNetworkRelativeLink -/

structure NetLink where
  size : UInt32
  flags : UInt32
  netNameOffset : UInt32
  deviceNameOffset : UInt32
  provider : UInt32
  /-- NetNameOffsetUnicode, DeviceNameOffsetUnicode -/
  wide : Option (UInt32 × UInt32)
  netName : Option Text
  deviceName : Option Text

def NetLink.encode (n : NetLink) : List UInt8 :=
  le 4 n.size.toNat ++ le 4 n.flags.toNat ++ le 4 n.netNameOffset.toNat ++ le 4 n.deviceNameOffset.toNat ++
    le 4 n.provider.toNat ++
    match n.wide with
    | none => []
    | some w => le 4 w.1.toNat ++ le 4 w.2.toNat

/-- A text at an offset. -/
def NameAt (tp : TextProc) (raw : List UInt8) (off : Nat) (t : Option Text) : Prop :=
  ∃ x, t = some x ∧ x.Valid tp false ∧ HasAt raw off (x.encodeZ false)

/-- A Unicode text at an offset relative to `base`; offset 0 stands for no text. -/
def WideNameAt (tp : TextProc) (raw : List UInt8) (base off : Nat) (t : Option Text) : Prop :=
  if off = 0 then t = none
  else ∃ x, t = some x ∧ x.Valid tp true ∧ HasAt raw (base + off) (x.encodeZ true)

/-- The network link and its names are present in `raw`: NetNameOffset above 0x14 means Unicode names. -/
structure NetLinkIn (tp : TextProc) (raw : List UInt8) (off : Nat) (n : NetLink) : Prop where
  wide : n.wide.isSome = decide (0x14 < n.netNameOffset.toNat)
  here : HasAt raw off n.encode
  names : match n.wide with
    | none => NameAt tp raw (off + n.netNameOffset.toNat) n.netName ∧
        NameAt tp raw (off + n.deviceNameOffset.toNat) n.deviceName
    | some w => WideNameAt tp raw off w.1.toNat n.netName ∧ WideNameAt tp raw off w.2.toNat n.deviceName

/-- Network provider codes ([MS-SHLLINK] 2.3.2). -/
def providerTable : List (Nat × String) :=
  [ (0x1A000, "WNNC_NET_AVID"), (0x1B000, "WNNC_NET_DOCUSPACE"), (0x1C000, "WNNC_NET_MANGOSOFT"),
    (0x1D000, "WNNC_NET_SERNET"), (0x1E000, "WNNC_NET_RIVERFRONT1"), (0x1F000, "WNNC_NET_RIVERFRONT2"),
    (0x20000, "WNNC_NET_DECORB"), (0x21000, "WNNC_NET_PROTSTOR"), (0x22000, "WNNC_NET_FJ_REDIR"),
    (0x23000, "WNNC_NET_DISTINCT"), (0x24000, "WNNC_NET_TWINS"), (0x25000, "WNNC_NET_RDR2SAMPLE"),
    (0x26000, "WNNC_NET_CSC"), (0x27000, "WNNC_NET_3IN1"), (0x29000, "WNNC_NET_EXTENDNET"),
    (0x2A000, "WNNC_NET_STAC"), (0x2B000, "WNNC_NET_FOXBAT"), (0x2C000, "WNNC_NET_YAHOO"),
    (0x2D000, "WNNC_NET_EXIFS"), (0x2E000, "WNNC_NET_DAV"), (0x2F000, "WNNC_NET_KNOWARE"),
    (0x30000, "WNNC_NET_OBJECT_DIRE"), (0x31000, "WNNC_NET_MASFAX"), (0x32000, "WNNC_NET_HOB_NFS"),
    (0x33000, "WNNC_NET_SHIVA"), (0x34000, "WNNC_NET_IBMAL"), (0x35000, "WNNC_NET_LOCK"),
    (0x36000, "WNNC_NET_TERMSRV"), (0x37000, "WNNC_NET_SRT"), (0x38000, "WNNC_NET_QUINCY"),
    (0x39000, "WNNC_NET_OPENAFS"), (0x3A000, "WNNC_NET_AVID1"), (0x3B000, "WNNC_NET_DFS"),
    (0x3C000, "WNNC_NET_KWNP"), (0x3D000, "WNNC_NET_ZENWORKS"), (0x3E000, "WNNC_NET_DRIVEONWEB"),
    (0x3F000, "WNNC_NET_VMWARE"), (0x40000, "WNNC_NET_RSFX"), (0x41000, "WNNC_NET_MFILES"),
    (0x42000, "WNNC_NET_MS_NFS"), (0x43000, "WNNC_NET_GOOGLE") ]

/-- The provider name that is actually reported: only for codes without a hexadecimal letter (the specification
asks for `providerTable.lookup code`). -/
def reportedProvider (code : Nat) : Option String :=
  if (Nat.toDigits 16 code).all Char.isDigit then providerTable.lookup code else none

/-- Bit 1 of the flags: the provider type is valid. -/
def NetLink.providerName (n : NetLink) : Option String :=
  if n.flags.toNat.testBit 1 then reportedProvider n.provider.toNat else none

/-- A dictionary entry for a name that is not empty. -/
def nameEntry (key : String) (t : Option Text) : Dict :=
  t.toList.flatMap fun x => if x.text = [] then [] else [(key, .str x.text)]

def NetLink.report (n : NetLink) : Dict :=
  [ ("common_network_relative_link_size", .int n.size.toNat),
    ("common_network_relative_link_flags", .int n.flags.toNat), ("net_name_offset", .int n.netNameOffset.toNat),
    ("device_name_offset", .int n.deviceNameOffset.toNat),
    ("r_network_provider_type", .str (hex0x n.provider.toNat)) ] ++
    (n.providerName.toList.map fun s => ("network_provider_type", .str s.toList)) ++
    match n.wide with
    | none => nameEntry "net_name" n.netName ++ nameEntry "device_name" n.deviceName
    | some w =>
      wideEntry "net_name_offset_unicode" "net_name_unicode" w.1.toNat n.netName ++
        wideEntry "device_name_offset_unicode" "device_name_unicode" w.2.toNat n.deviceName

/-! ### the usual arrangement -/

/-- Contents of a LinkInfo with volume id and local base path in code page form. -/
structure LocalInfo where
  driveType : UInt32
  serial : UInt32
  label : Text
  base : Text
  suffix : Text

namespace LocalInfo

/-- Offset of the local base path. -/
def baseAt (l : LocalInfo) : Nat := 0x1C + 0x10 + (l.label.encodeZ false).length

/-- Offset of the common path suffix. -/
def suffixAt (l : LocalInfo) : Nat := l.baseAt + (l.base.encodeZ false).length

def total (l : LocalInfo) : Nat := l.suffixAt + (l.suffix.encodeZ false).length

def header (l : LocalInfo) : InfoHeader :=
  ⟨UInt32.ofNat l.total, 0x1C, 1, 0x1C, UInt32.ofNat l.baseAt, 0, UInt32.ofNat l.suffixAt, none⟩

def volume (l : LocalInfo) : Volume :=
  ⟨UInt32.ofNat (0x10 + (l.label.encodeZ false).length), l.driveType, l.serial, 0x10, none, l.label⟩

def texts (l : LocalInfo) : InfoTexts := ⟨some l.base, some l.suffix, none, none⟩

def encode (l : LocalInfo) : List UInt8 :=
  l.header.encode ++ l.volume.encode ++ l.label.encodeZ false ++ l.base.encodeZ false ++ l.suffix.encodeZ false

/-- The texts are valid and everything fits. -/
structure Valid (tp : TextProc) (l : LocalInfo) : Prop where
  label : l.label.Valid tp false
  base : l.base.Valid tp false
  suffix : l.suffix.Valid tp false
  fits : l.total < 2 ^ 32

end LocalInfo

/-- Contents of a LinkInfo with a network link in code page form. -/
structure NetworkInfo where
  flags : UInt32
  provider : UInt32
  netName : Text
  deviceName : Text
  suffix : Text

namespace NetworkInfo

/-- Offset of the device name within the network link. -/
def deviceAt (l : NetworkInfo) : Nat := 0x14 + (l.netName.encodeZ false).length

/-- Size of the network link. -/
def linkSize (l : NetworkInfo) : Nat := l.deviceAt + (l.deviceName.encodeZ false).length

/-- Offset of the common path suffix. -/
def suffixAt (l : NetworkInfo) : Nat := 0x1C + l.linkSize

def total (l : NetworkInfo) : Nat := l.suffixAt + (l.suffix.encodeZ false).length

def header (l : NetworkInfo) : InfoHeader :=
  ⟨UInt32.ofNat l.total, 0x1C, 2, 0, 0, 0x1C, UInt32.ofNat l.suffixAt, none⟩

def link (l : NetworkInfo) : NetLink :=
  ⟨UInt32.ofNat l.linkSize, l.flags, 0x14, UInt32.ofNat l.deviceAt, l.provider, none, some l.netName,
    some l.deviceName⟩

def texts (l : NetworkInfo) : InfoTexts := ⟨none, some l.suffix, none, none⟩

def encode (l : NetworkInfo) : List UInt8 :=
  l.header.encode ++ l.link.encode ++ l.netName.encodeZ false ++ l.deviceName.encodeZ false ++
    l.suffix.encodeZ false

/-- The texts are valid and everything fits. -/
structure Valid (tp : TextProc) (l : NetworkInfo) : Prop where
  netName : l.netName.Valid tp false
  deviceName : l.deviceName.Valid tp false
  suffix : l.suffix.Valid tp false
  fits : l.total < 2 ^ 32

end NetworkInfo

end Verif.Spec
