import Verif.Model.Utils
import Verif.Model.Text

/-
LnkParse3/lnk_info.py, LnkParse3/info_factory.py, LnkParse3/info/local.py, LnkParse3/info/network.py
-/

namespace Verif

/-- The two kinds of LinkInfo objects.  Models info_factory.py:4-5. -/
inductive InfoClass
  | local
  | network
deriving DecidableEq, Repr

/-- A `LnkInfo` object (of class `Local`, `Network` or the base class): all bytes from the start of the LinkInfo
structure to the end of the file.  Models lnk_info.py:55-58. -/
structure LnkInfo where
  tp : TextProc
  raw : Bytes

namespace LnkInfo

/-- A little-endian u32 at an offset. -/
def u32 (i : LnkInfo) (off : Nat) : Py Nat := unpackU 4 (slice i.raw off (off + 4))

/-- LinkInfoSize.  Models lnk_info.py:60-68. -/
def size (i : LnkInfo) : Py Nat := i.u32 0

/-- LinkInfoHeaderSize.  Models lnk_info.py:70-86. -/
def headerSize (i : LnkInfo) : Py Nat := i.u32 4

/-- LinkInfoFlags.  Models lnk_info.py:88-95. -/
def flags (i : LnkInfo) : Py Nat := i.u32 8

/-- VolumeIDOffset.  Models lnk_info.py:97-105. -/
def volumeIdOffset (i : LnkInfo) : Py Nat := i.u32 12

/-- LocalBasePathOffset.  Models lnk_info.py:107-115. -/
def localBasePathOffset (i : LnkInfo) : Py Nat := i.u32 16

/-- CommonNetworkRelativeLinkOffset.  Models lnk_info.py:117-126. -/
def cnrlOffset (i : LnkInfo) : Py Nat := i.u32 20

/-- CommonPathSuffixOffset.  Models lnk_info.py:128-135. -/
def commonPathSuffixOffset (i : LnkInfo) : Py Nat := i.u32 24

/-- Models lnk_info.py:137-141. -/
def hasOptFields (i : LnkInfo) : Py Bool := do
  let n ← i.headerSize
  pure (decide (n ≥ 0x24))

/-- Models lnk_info.py:143-156. -/
def commonPathSuffix (i : LnkInfo) : Py (Option Str) := do
  let start ← i.commonPathSuffixOffset
  if start = 0 then pure none
  else do
    let text ← i.tp.readString (i.raw.drop start)
    pure (some text)

/-- LocalBasePathOffsetUnicode.  Models lnk_info.py:158-171. -/
def localBasePathOffsetUnicode (i : LnkInfo) : Py (Option Nat) := do
  let h ← i.hasOptFields
  if h then do
    let n ← i.u32 28
    pure (some n)
  else pure none

/-- CommonPathSuffixOffsetUnicode.  Models lnk_info.py:173-185. -/
def commonPathSuffixOffsetUnicode (i : LnkInfo) : Py (Option Nat) := do
  let h ← i.hasOptFields
  if h then do
    let n ← i.u32 32
    pure (some n)
  else pure none

/-- Models lnk_info.py:187-201. -/
def localBasePath (i : LnkInfo) : Py (Option Str) := do
  let start ← i.localBasePathOffset
  if start = 0 then pure none
  else do
    let text ← i.tp.readString (i.raw.drop start)
    pure (some text)

/-- Models lnk_info.py:212-227 (an offset `None` or 0 gives `None`). -/
def localBasePathUnicode (i : LnkInfo) : Py (Option Str) := do
  let start ← i.localBasePathOffsetUnicode
  match start with
  | none => pure none
  | some 0 => pure none
  | some start => do
    let text ← TextProc.readUnicodeString (i.raw.drop start)
    pure (some text)

/-- Reads at the stated offset plus 4 (sic).  Models lnk_info.py:229-245. -/
def commonPathSuffixUnicode (i : LnkInfo) : Py (Option Str) := do
  let start ← i.commonPathSuffixOffsetUnicode
  match start with
  | none => pure none
  | some 0 => pure none
  | some start => do
    let text ← TextProc.readUnicodeString (i.raw.drop (start + 4))
    pure (some text)

/-- `InfoFactory(info).info_class()`: which class to use; `struct.error` is reported and means none.
Models info_factory.py:12-47. -/
def infoClass (i : LnkInfo) : Py (Option InfoClass) :=
  Py.tryExcept
    (do
      let f ← i.flags
      if f &&& 0x0001 ≠ 0 then pure (some .local)
      else do
        let f ← i.flags
        if f &&& 0x0002 ≠ 0 then pure (some .network) else pure none)
    (fun e => e = .structError)
    (fun _ => do
      Py.warn .infoClass
      pure none)

/-! #### Local -/

/-- Models info/local.py:27-35. -/
def DRIVE_TYPES : List String :=
  ["DRIVE_UNKNOWN", "DRIVE_NO_ROOT_DIR", "DRIVE_REMOVABLE", "DRIVE_FIXED", "DRIVE_REMOTE", "DRIVE_CDROM",
    "DRIVE_RAMDISK"]

/-- Models info/local.py:40-43. -/
def volumeIdSize (i : LnkInfo) : Py Nat := do
  let start ← i.volumeIdOffset
  i.u32 start

/-- Models info/local.py:45-48. -/
def rDriveType (i : LnkInfo) : Py Nat := do
  let start ← i.volumeIdOffset
  i.u32 (start + 4)

/-- Models info/local.py:50-54. -/
def driveSerialNumber (i : LnkInfo) : Py Str := do
  let start ← i.volumeIdOffset
  let number ← i.u32 (start + 8)
  pure (pyHex number)

/-- Models info/local.py:56-59. -/
def volumeLabelOffset (i : LnkInfo) : Py Nat := do
  let start ← i.volumeIdOffset
  i.u32 (start + 12)

/-- Models info/local.py:61-64. -/
def driveType (i : LnkInfo) : Py (Option String) := do
  let n ← i.rDriveType
  pure DRIVE_TYPES[n]?

/-- Models info/local.py:66-67. -/
def hasVolumeLabelOffsetUnicode (i : LnkInfo) : Py Bool := do
  let n ← i.volumeLabelOffset
  pure (decide (n = 0x14))

/-- Models info/local.py:69-77. -/
def volumeLabel (i : LnkInfo) : Py (Option Str) := do
  let h ← i.hasVolumeLabelOffsetUnicode
  if h then pure none
  else do
    let a ← i.volumeIdOffset
    let b ← i.volumeLabelOffset
    let text ← i.tp.readString (i.raw.drop (a + b))
    pure (some text)

/-- Models info/local.py:79-85. -/
def volumeLabelUnicodeOffset (i : LnkInfo) : Py (Option Nat) := do
  let h ← i.hasVolumeLabelOffsetUnicode
  if h then do
    let start ← i.volumeIdOffset
    let n ← i.u32 (start + 16)
    pure (some n)
  else pure none

/-- Models info/local.py:87-95. -/
def volumeLabelUnicode (i : LnkInfo) : Py (Option Str) := do
  let o ← i.volumeLabelUnicodeOffset
  match o with
  | none => pure none
  | some 0 => pure none
  | some o => do
    let a ← i.volumeIdOffset
    let text ← TextProc.readUnicodeString (i.raw.drop (a + o))
    pure (some text)

/-! #### Network -/

/-- Models info/network.py:40-82. -/
def NETWORK_PROVIDER_TYPES : List (String × String) :=
  [ ("0x1A000", "WNNC_NET_AVID"),
    ("0x1B000", "WNNC_NET_DOCUSPACE"),
    ("0x1C000", "WNNC_NET_MANGOSOFT"),
    ("0x1D000", "WNNC_NET_SERNET"),
    ("0X1E000", "WNNC_NET_RIVERFRONT1"),
    ("0x1F000", "WNNC_NET_RIVERFRONT2"),
    ("0x20000", "WNNC_NET_DECORB"),
    ("0x21000", "WNNC_NET_PROTSTOR"),
    ("0x22000", "WNNC_NET_FJ_REDIR"),
    ("0x23000", "WNNC_NET_DISTINCT"),
    ("0x24000", "WNNC_NET_TWINS"),
    ("0x25000", "WNNC_NET_RDR2SAMPLE"),
    ("0x26000", "WNNC_NET_CSC"),
    ("0x27000", "WNNC_NET_3IN1"),
    ("0x29000", "WNNC_NET_EXTENDNET"),
    ("0x2A000", "WNNC_NET_STAC"),
    ("0x2B000", "WNNC_NET_FOXBAT"),
    ("0x2C000", "WNNC_NET_YAHOO"),
    ("0x2D000", "WNNC_NET_EXIFS"),
    ("0x2E000", "WNNC_NET_DAV"),
    ("0x2F000", "WNNC_NET_KNOWARE"),
    ("0x30000", "WNNC_NET_OBJECT_DIRE"),
    ("0x31000", "WNNC_NET_MASFAX"),
    ("0x32000", "WNNC_NET_HOB_NFS"),
    ("0x33000", "WNNC_NET_SHIVA"),
    ("0x34000", "WNNC_NET_IBMAL"),
    ("0x35000", "WNNC_NET_LOCK"),
    ("0x36000", "WNNC_NET_TERMSRV"),
    ("0x37000", "WNNC_NET_SRT"),
    ("0x38000", "WNNC_NET_QUINCY"),
    ("0x39000", "WNNC_NET_OPENAFS"),
    ("0X3A000", "WNNC_NET_AVID1"),
    ("0x3B000", "WNNC_NET_DFS"),
    ("0x3C000", "WNNC_NET_KWNP"),
    ("0x3D000", "WNNC_NET_ZENWORKS"),
    ("0x3E000", "WNNC_NET_DRIVEONWEB"),
    ("0x3F000", "WNNC_NET_VMWARE"),
    ("0x40000", "WNNC_NET_RSFX"),
    ("0x41000", "WNNC_NET_MFILES"),
    ("0x42000", "WNNC_NET_MS_NFS"),
    ("0x43000", "WNNC_NET_GOOGLE") ]

/-- Models info/network.py:87-90. -/
def cnrlSize (i : LnkInfo) : Py Nat := do
  let start ← i.cnrlOffset
  i.u32 start

/-- Models info/network.py:92-95. -/
def cnrlFlags (i : LnkInfo) : Py Nat := do
  let start ← i.cnrlOffset
  i.u32 (start + 4)

/-- Models info/network.py:97-100. -/
def netNameOffset (i : LnkInfo) : Py Nat := do
  let start ← i.cnrlOffset
  i.u32 (start + 8)

/-- Models info/network.py:102-105. -/
def deviceNameOffset (i : LnkInfo) : Py Nat := do
  let start ← i.cnrlOffset
  i.u32 (start + 12)

/-- Models info/network.py:107-111. -/
def rNetworkProviderType (i : LnkInfo) : Py Str := do
  let start ← i.cnrlOffset
  let provider_type ← i.u32 (start + 16)
  pure (pyHex provider_type)

/-- Models info/network.py:113-119. -/
def networkProviderType (i : LnkInfo) : Py (Option String) := do
  let f ← i.cnrlFlags
  if f &&& 0x0002 = 0 then pure none
  else do
    let key ← i.rNetworkProviderType
    pure ((NETWORK_PROVIDER_TYPES.find? fun kv => kv.1.toList = key).map Prod.snd)

/-- Models info/network.py:121-126. -/
def netNameOffsetUnicode (i : LnkInfo) : Py (Option Nat) := do
  let n ← i.netNameOffset
  if n ≤ 20 then pure none
  else do
    let start ← i.cnrlOffset
    let m ← i.u32 (start + 20)
    pure (some m)

/-- Models info/network.py:128-137. -/
def netNameUnicode (i : LnkInfo) : Py (Option Str) := do
  let n ← i.netNameOffset
  if n ≤ 20 then pure none
  else do
    let start ← i.cnrlOffset
    let o ← i.netNameOffsetUnicode
    match o with
    | none => Py.raise .typeError
    | some o => do
      let text ← TextProc.readUnicodeString (i.raw.drop (start + o))
      pure (some text)

/-- Models info/network.py:139-144. -/
def deviceNameOffsetUnicode (i : LnkInfo) : Py (Option Nat) := do
  let n ← i.netNameOffset
  if n ≤ 20 then pure none
  else do
    let start ← i.cnrlOffset
    let m ← i.u32 (start + 24)
    pure (some m)

/-- Models info/network.py:146-155. -/
def deviceNameUnicode (i : LnkInfo) : Py (Option Str) := do
  let n ← i.netNameOffset
  if n ≤ 20 then pure none
  else do
    let start ← i.cnrlOffset
    let o ← i.deviceNameOffsetUnicode
    match o with
    | none => Py.raise .typeError
    | some o => do
      let text ← TextProc.readUnicodeString (i.raw.drop (start + o))
      pure (some text)

/-- Models info/network.py:157-166. -/
def netName (i : LnkInfo) : Py (Option Str) := do
  let n ← i.netNameOffset
  if n > 20 then pure none
  else do
    let start ← i.cnrlOffset
    let text ← i.tp.readString (i.raw.drop (start + n))
    pure (some text)

/-- Models info/network.py:168-177. -/
def deviceName (i : LnkInfo) : Py (Option Str) := do
  let n ← i.netNameOffset
  if n > 20 then pure none
  else do
    let start ← i.cnrlOffset
    let o ← i.deviceNameOffset
    let text ← i.tp.readString (i.raw.drop (start + o))
    pure (some text)

end LnkInfo

end Verif
