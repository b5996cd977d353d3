import Verif.Spec.Bytes

/-
Specification layer: the ShellLinkHeader ([MS-SHLLINK] 2.1).  Uses nothing of the model.
-/

namespace Verif.Spec

/-- ShellLinkHeader ([MS-SHLLINK] 2.1), in field order. -/
structure Header where
  headerSize : UInt32
  linkCLSID : Guid
  linkFlags : UInt32
  fileAttributes : UInt32
  creationTime : Int64
  accessTime : Int64
  writeTime : Int64
  fileSize : UInt32
  iconIndex : Int32
  showCommand : Int32
  hotKeyLow : UInt8
  hotKeyHigh : UInt8
  reserved1 : UInt16
  reserved2 : UInt32
  reserved3 : UInt32
deriving DecidableEq

/-- Serialization: the fields one after another. -/
def Header.encode (h : Header) : List UInt8 :=
  le 4 h.headerSize.toNat ++ h.linkCLSID.encode ++ le 4 h.linkFlags.toNat ++ le 4 h.fileAttributes.toNat ++
    leI 8 h.creationTime.toInt ++ leI 8 h.accessTime.toInt ++ leI 8 h.writeTime.toInt ++
    le 4 h.fileSize.toNat ++ leI 4 h.iconIndex.toInt ++ leI 4 h.showCommand.toInt ++
    [h.hotKeyLow, h.hotKeyHigh] ++ le 2 h.reserved1.toNat ++ le 4 h.reserved2.toNat ++ le 4 h.reserved3.toNat

/-- The CLSID every shell link has: 00021401-0000-0000-C000-000000000046. -/
def shellLinkCLSID : Guid := ⟨0x00021401, 0, 0, 0xC0, 0, 0, 0, 0, 0, 0, 0x46⟩

/-- The names of the LinkFlags bits from bit 0 upwards ([MS-SHLLINK] 2.1.1). -/
def linkFlagNames : List String :=
  [ "HasTargetIDList", "HasLinkInfo", "HasName", "HasRelativePath", "HasWorkingDir", "HasArguments",
    "HasIconLocation", "IsUnicode", "ForceNoLinkInfo", "HasExpString", "RunInSeparateProcess", "Reserved0",
    "HasDarwinID", "RunAsUser", "HasExpIcon", "NoPidlAlias", "Reserved1", "RunWithShimLayer",
    "ForceNoLinkTrack", "EnableTargetMetadata", "DisableLinkPathTracking", "DisableKnownFolderTracking",
    "DisableKnownFolderAlias", "AllowLinkToLink", "UnaliasOnSave", "PreferEnvironmentPath",
    "KeepLocalIDListForUNCTarget" ]

/-- The names of the FileAttributes bits from bit 0 upwards ([MS-SHLLINK] 2.1.2). -/
def fileFlagNames : List String :=
  [ "FILE_ATTRIBUTE_READONLY", "FILE_ATTRIBUTE_HIDDEN", "FILE_ATTRIBUTE_SYSTEM",
    "Reserved, not used by the LNK format", "FILE_ATTRIBUTE_DIRECTORY", "FILE_ATTRIBUTE_ARCHIVE",
    "FILE_ATTRIBUTE_DEVICE", "FILE_ATTRIBUTE_NORMAL", "FILE_ATTRIBUTE_TEMPORARY",
    "FILE_ATTRIBUTE_SPARSE_FILE", "FILE_ATTRIBUTE_REPARSE_POINT", "FILE_ATTRIBUTE_COMPRESSED",
    "FILE_ATTRIBUTE_OFFLINE", "FILE_ATTRIBUTE_NOT_CONTENT_INDEXED", "FILE_ATTRIBUTE_ENCRYPTED",
    "FILE_ATTRIBUTE_INTEGRITY_STREAM", "FILE_ATTRIBUTE_VIRTUAL", "FILE_ATTRIBUTE_NO_SCRUB_DATA" ]

/-- The names of the set bits of `v`, lowest bit first. -/
def setBitNames (names : List String) (v : Nat) : List String :=
  (List.range names.length).filterMap fun i => if v.testBit i then names[i]? else none

/-- ShowCommand ([MS-SHLLINK] 2.1): 3 and 7 are special, everything else means normal. -/
def showCommandName (v : Int) : String :=
  if v = 3 then "SW_SHOWMAXIMIZED" else if v = 7 then "SW_SHOWMINNOACTIVE" else "SW_SHOWNORMAL"

/-- The name of a virtual key code ([MS-SHLLINK] 2.1.3, low byte; 0 means no key). -/
def keyName (c : Nat) : Option (List Char) :=
  if c = 0 then some "UNSET".toList
  else if 0x30 ≤ c ∧ c ≤ 0x39 then some [Char.ofNat c]
  else if 0x41 ≤ c ∧ c ≤ 0x5A then some [Char.ofNat c]
  else if 0x70 ≤ c ∧ c ≤ 0x87 then some ('F' :: Nat.toDigits 10 (c - 0x6F))
  else if c = 0x90 then some "NUM_LOCK".toList
  else if c = 0x91 then some "SCROLL_LOCK".toList
  else none

/-- The name of a single modifier ([MS-SHLLINK] 2.1.3, high byte; 0 means none). -/
def modifierName (c : Nat) : Option (List Char) :=
  if c = 0 then some "UNSET".toList
  else if c = 1 then some "SHIFT".toList
  else if c = 2 then some "CONTROL".toList
  else if c = 4 then some "ALT".toList
  else none

/-- The raw hot key: low byte then high byte in lower-case hexadecimal. -/
def hotKeyHex (low high : UInt8) : List Char := hexFixedLower 2 low.toNat ++ hexFixedLower 2 high.toNat

/-- How a hot key is shown: `MODIFIER - KEY {0xllhh}` if both bytes have a name, else `llhh`. -/
def hotKeyText (low high : UInt8) : List Char :=
  match modifierName high.toNat, keyName low.toNat with
  | some m, some k => m ++ " - ".toList ++ k ++ " {0x".toList ++ hotKeyHex low high ++ "}".toList
  | _, _ => hotKeyHex low high

/-- The flag names joined by `" | "`, then the decimal raw value in parentheses; the separator `" - "` is there
unless the value is zero. -/
def flagSummary (names : List String) (raw : Nat) : List Char :=
  List.intercalate " | ".toList (names.map String.toList) ++
    (if raw = 0 then [] else " - ".toList) ++ ['('] ++ Nat.toDigits 10 raw ++ [')']

end Verif.Spec
