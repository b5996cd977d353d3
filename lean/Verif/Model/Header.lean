import Verif.Model.Utils

/-
LnkParse3/lnk_header.py
-/

namespace Verif

/-- A `LnkHeader` object: the header bytes.  Models lnk_header.py:289-302. -/
structure LnkHeader where
  raw : Bytes
deriving DecidableEq

namespace LnkHeader

/-- Models lnk_header.py:53-57. -/
def WINDOW_STYLES : List (Int × String) :=
  [ (1, "SW_SHOWNORMAL"),
    (3, "SW_SHOWMAXIMIZED"),
    (7, "SW_SHOWMINNOACTIVE") ]

/-- Keys are the byte values of the one-byte strings.  Models lnk_header.py:59-64. -/
def HOTKEY_VALUES_HIGH : List (Nat × String) :=
  [ (0x00, "UNSET"),
    (0x01, "SHIFT"),
    (0x02, "CONTROL"),
    (0x04, "ALT") ]

/-- Keys are the byte values of the one-byte strings.  Models lnk_header.py:66-130. -/
def HOTKEY_VALUES_LOW : List (Nat × String) :=
  [ (0x00, "UNSET"),
    (0x30, "0"),
    (0x31, "1"),
    (0x32, "2"),
    (0x33, "3"),
    (0x34, "4"),
    (0x35, "5"),
    (0x36, "6"),
    (0x37, "7"),
    (0x38, "8"),
    (0x39, "9"),
    (0x41, "A"),
    (0x42, "B"),
    (0x43, "C"),
    (0x44, "D"),
    (0x45, "E"),
    (0x46, "F"),
    (0x47, "G"),
    (0x48, "H"),
    (0x49, "I"),
    (0x4a, "J"),
    (0x4b, "K"),
    (0x4c, "L"),
    (0x4d, "M"),
    (0x4e, "N"),
    (0x4f, "O"),
    (0x50, "P"),
    (0x51, "Q"),
    (0x52, "R"),
    (0x53, "S"),
    (0x54, "T"),
    (0x55, "U"),
    (0x56, "V"),
    (0x57, "W"),
    (0x58, "X"),
    (0x59, "Y"),
    (0x5a, "Z"),
    (0x70, "F1"),
    (0x71, "F2"),
    (0x72, "F3"),
    (0x73, "F4"),
    (0x74, "F5"),
    (0x75, "F6"),
    (0x76, "F7"),
    (0x77, "F8"),
    (0x78, "F9"),
    (0x79, "F10"),
    (0x7a, "F11"),
    (0x7b, "F12"),
    (0x7c, "F13"),
    (0x7d, "F14"),
    (0x7e, "F15"),
    (0x7f, "F16"),
    (0x80, "F17"),
    (0x81, "F18"),
    (0x82, "F19"),
    (0x83, "F20"),
    (0x84, "F21"),
    (0x85, "F22"),
    (0x86, "F23"),
    (0x87, "F24"),
    (0x90, "NUM_LOCK"),
    (0x91, "SCROLL_LOCK") ]

/-- Already in the ascending order `sorted(...)` produces.  Models lnk_header.py:132-233. -/
def LINK_FLAG_MASK : List (Nat × String) :=
  [ (0x00000001, "HasTargetIDList"),
    (0x00000002, "HasLinkInfo"),
    (0x00000004, "HasName"),
    (0x00000008, "HasRelativePath"),
    (0x00000010, "HasWorkingDir"),
    (0x00000020, "HasArguments"),
    (0x00000040, "HasIconLocation"),
    (0x00000080, "IsUnicode"),
    (0x00000100, "ForceNoLinkInfo"),
    (0x00000200, "HasExpString"),
    (0x00000400, "RunInSeparateProcess"),
    (0x00000800, "Reserved0"),
    (0x00001000, "HasDarwinID"),
    (0x00002000, "RunAsUser"),
    (0x00004000, "HasExpIcon"),
    (0x00008000, "NoPidlAlias"),
    (0x00010000, "Reserved1"),
    (0x00020000, "RunWithShimLayer"),
    (0x00040000, "ForceNoLinkTrack"),
    (0x00080000, "EnableTargetMetadata"),
    (0x00100000, "DisableLinkPathTracking"),
    (0x00200000, "DisableKnownFolderTracking"),
    (0x00400000, "DisableKnownFolderAlias"),
    (0x00800000, "AllowLinkToLink"),
    (0x01000000, "UnaliasOnSave"),
    (0x02000000, "PreferEnvironmentPath"),
    (0x04000000, "KeepLocalIDListForUNCTarget") ]

/-- Already in the ascending order `sorted(...)` produces.  Models lnk_header.py:235-287. -/
def FILE_FLAG_MASK : List (Nat × String) :=
  [ (0x00000001, "FILE_ATTRIBUTE_READONLY"),
    (0x00000002, "FILE_ATTRIBUTE_HIDDEN"),
    (0x00000004, "FILE_ATTRIBUTE_SYSTEM"),
    (0x00000008, "Reserved, not used by the LNK format"),
    (0x00000010, "FILE_ATTRIBUTE_DIRECTORY"),
    (0x00000020, "FILE_ATTRIBUTE_ARCHIVE"),
    (0x00000040, "FILE_ATTRIBUTE_DEVICE"),
    (0x00000080, "FILE_ATTRIBUTE_NORMAL"),
    (0x00000100, "FILE_ATTRIBUTE_TEMPORARY"),
    (0x00000200, "FILE_ATTRIBUTE_SPARSE_FILE"),
    (0x00000400, "FILE_ATTRIBUTE_REPARSE_POINT"),
    (0x00000800, "FILE_ATTRIBUTE_COMPRESSED"),
    (0x00001000, "FILE_ATTRIBUTE_OFFLINE"),
    (0x00002000, "FILE_ATTRIBUTE_NOT_CONTENT_INDEXED"),
    (0x00004000, "FILE_ATTRIBUTE_ENCRYPTED"),
    (0x00008000, "FILE_ATTRIBUTE_INTEGRITY_STREAM"),
    (0x00010000, "FILE_ATTRIBUTE_VIRTUAL"),
    (0x00020000, "FILE_ATTRIBUTE_NO_SCRUB_DATA") ]

/-- HeaderSize, `must_be(0x4C)`.  Models lnk_header.py:304-312. -/
def size (h : LnkHeader) : Py Nat :=
  mustBe "size" (.int 0x4C) .int (unpackU 4 (slice h.raw 0 4))

/-- `LnkHeader(indata=indata)`: `LnkParserError` for empty data, otherwise keep the first HeaderSize bytes.
Models lnk_header.py:289-302 (the `fhandle` argument is not used by `LnkFile`). -/
def init (indata : Bytes) : Py LnkHeader :=
  if indata = [] then Py.raise .lnkParserError
  else do
    let n ← size ⟨indata⟩
    pure ⟨indata.take n⟩

/-- LinkCLSID, `must_be` around `uuid`.  Models lnk_header.py:314-321. -/
def linkClsId (h : LnkHeader) : Py Str :=
  mustBe "link_cls_id" (.str "00021401-0000-0000-C000-000000000046".toList) .str
    (parseUuid (slice h.raw 4 20))

/-- LinkFlags.  Models lnk_header.py:326-333. -/
def rLinkFlags (h : LnkHeader) : Py Nat := unpackU 4 (slice h.raw 20 24)

/-- The names of the masks that intersect the flags, in table order. -/
def flagNames (table : List (Nat × String)) (flag : Nat) : List String :=
  (table.filter fun mk => flag &&& mk.1 != 0).map Prod.snd

/-- Names of the LinkFlags bits.  Models lnk_header.py:335-343. -/
def linkFlags (h : LnkHeader) : Py (List String) := do
  let flag ← h.rLinkFlags
  pure (flagNames LINK_FLAG_MASK flag)

/-- FileAttributes.  Models lnk_header.py:345-352. -/
def rFileFlags (h : LnkHeader) : Py Nat := unpackU 4 (slice h.raw 24 28)

/-- Names of the FileAttributes bits.  Models lnk_header.py:354-364. -/
def fileFlags (h : LnkHeader) : Py (List String) := do
  let flag ← h.rFileFlags
  pure (flagNames FILE_FLAG_MASK flag)

/-- CreationTime.  Models lnk_header.py:366-374. -/
def creationTime (h : LnkHeader) : Py (Option DateTime) := parseFiletime (slice h.raw 28 36)

/-- AccessTime.  Models lnk_header.py:376-384. -/
def accessTime (h : LnkHeader) : Py (Option DateTime) := parseFiletime (slice h.raw 36 44)

/-- WriteTime.  Models lnk_header.py:386-394. -/
def writeTime (h : LnkHeader) : Py (Option DateTime) := parseFiletime (slice h.raw 44 52)

/-- FileSize.  Models lnk_header.py:396-405. -/
def fileSize (h : LnkHeader) : Py Nat := unpackU 4 (slice h.raw 52 56)

/-- IconIndex (signed).  Models lnk_header.py:407-414. -/
def iconIndex (h : LnkHeader) : Py Int := unpackI 4 (slice h.raw 56 60)

/-- ShowCommand, every unknown value read as SW_SHOWNORMAL.  Models lnk_header.py:417-439. -/
def windowStyle (h : LnkHeader) : Py String := do
  let style ← unpackI 4 (slice h.raw 60 64)
  pure ((WINDOW_STYLES.lookup style).getD "SW_SHOWNORMAL")

/-- HotKey as text.  Models lnk_header.py:442-452. -/
def hotKey (h : LnkHeader) : Py Str :=
  let hot_key := slice h.raw 64 66
  match hot_key with
  | [b_low, b_high] =>
    match HOTKEY_VALUES_HIGH.lookup b_high.toNat, HOTKEY_VALUES_LOW.lookup b_low.toNat with
    | some high, some low =>
      pure (high.toList ++ " - ".toList ++ low.toList ++ " {0x".toList ++ bytesHex hot_key ++ "}".toList)
    | _, _ => pure (bytesHex hot_key)
  | _ => Py.raise .structError

/-- HotKey as a number.  Models lnk_header.py:454-463. -/
def rawHotKey (h : LnkHeader) : Py Nat := unpackU 2 (slice h.raw 64 66)

/-- Reserved1, `must_be(0)`.  Models lnk_header.py:466-473. -/
def reserved0 (h : LnkHeader) : Py Nat := mustBe "reserved0" (.int 0) .int (unpackU 2 (slice h.raw 66 68))

/-- Reserved2, `must_be(0)`.  Models lnk_header.py:476-484. -/
def reserved1 (h : LnkHeader) : Py Nat := mustBe "reserved1" (.int 0) .int (unpackU 4 (slice h.raw 68 72))

/-- Reserved3, `must_be(0)`.  Models lnk_header.py:487-495. -/
def reserved2 (h : LnkHeader) : Py Nat := mustBe "reserved2" (.int 0) .int (unpackU 4 (slice h.raw 72 76))

end LnkHeader

end Verif
