import Verif.Spec.Header
import Verif.Spec.Reported
import Verif.Spec.Double

/-
Specification layer: the entries of a report and what stands in them, for arbitrary bytes.  A dictionary is described by its keys, in
their order, each with a condition on the value; numbers, identifiers and texts are described by where they are in the file.
-/

namespace Verif.Spec

/-- The keys of a dictionary, in order, and what is required of their values. -/
abbrev Entries := List (String × (PyVal → Prop))

/-- The dictionary has these entries and no others, in this order. -/
def Fits : Dict → Entries → Prop
  | [], [] => True
  | kv :: d, e :: es => kv.1 = e.1 ∧ e.2 kv.2 ∧ Fits d es
  | _, _ => False

/-- The list consists of one dictionary for each of the bytes, with the entries these call for. -/
def FitsEach (f : List UInt8 → Entries) : List PyVal → List (List UInt8) → Prop
  | [], [] => True
  | v :: vs, b :: bs => (∃ d, v = .dict d ∧ Fits d (f b)) ∧ FitsEach f vs bs
  | _, _ => False

/-! ### values -/

/-- The value is a known text. -/
def Is (s : String) (v : PyVal) : Prop := v = .str s.toList

/-- The unsigned number of `n` bytes at an offset. -/
def NatAt (n : Nat) (b : List UInt8) (off : Nat) (v : PyVal) : Prop := ∃ k, uAt n b off = some k ∧ v = .int k

/-- The signed number (two's complement) of `n` bytes at an offset. -/
def sAt (n : Nat) (b : List UInt8) (off : Nat) : Option Int :=
  (uAt n b off).map fun k : Nat => if k < 2 ^ (8 * n - 1) then (k : Int) else (k : Int) - 2 ^ (8 * n)

def IntAt (n : Nat) (b : List UInt8) (off : Nat) (v : PyVal) : Prop := ∃ i, sAt n b off = some i ∧ v = .int i

/-- The number of four bytes at an offset, as hexadecimal text. -/
def HexAt (b : List UInt8) (off : Nat) (v : PyVal) : Prop := ∃ k, uAt 4 b off = some k ∧ v = .str (hex0x k)

/-- The identifier of 16 bytes at an offset. -/
def GuidAt (b : List UInt8) (off : Nat) (v : PyVal) : Prop := ∃ g : Guid, between b off (off + 16) = g.encode ∧ v = .str g.text

/-- A FILETIME at an offset: nothing for zero and outside the years 1 to 9999; else the date binary64 arithmetic gives: at most 16
microseconds off (one microsecond for the years around ours), and the very date for whole seconds. -/
def FiletimeAt (b : List UInt8) (off : Nat) (v : PyVal) : Prop :=
  ∃ t, sAt 8 b off = some t ∧ (∀ d, ValidDateTime d → d.microsecond = 0 → t ≠ 0 → t = filetime d → v = .dt d) ∧
    ((v = .none ∧ (t = 0 ∨ OutOfCalendar t)) ∨
      ∃ d, v = .dt d ∧ t ≠ 0 ∧ ¬ OutOfCalendar t ∧ ValidDateTime d ∧ Stamp t (instant d) ∧ |filetime d - t| ≤ 160 ∧
        (|t - filetime ⟨1970, 1, 1, 0, 0, 0, 0⟩| < 2 ^ 32 * 10000000 → |filetime d - t| ≤ 10))

/-- A DOS date word and time word at an offset. -/
def DostimeAt (b : List UInt8) (off : Nat) (v : PyVal) : Prop :=
  ∃ date time, uAt 2 b off = some date ∧ uAt 2 b (off + 2) = some time ∧
    v = if (date ≠ 0 ∨ time ≠ 0) ∧ ValidDateTime (dosDateTime date time) then .dt (dosDateTime date time) else .none

/-- The text of `b` up to the first zero byte: nothing; or what the code page makes of it; or, if that does not work, the text whose
UTF-8 it is; or, if there is none, what the code page makes of it with replacements. -/
def NarrowText (tp : TextProc) (b : List UInt8) (s : List Char) : Prop :=
  let a := b.takeWhile (· ≠ 0)
  (a = [] ∧ s = []) ∨
    a ≠ [] ∧ ∃ c, tp.env.resolve tp.cp = some c ∧ (c.strict a = .ok s ∨
      c.strict a = .error .unicodeDecode ∧ (a = utf8 s ∨ (∀ t, a ≠ utf8 t) ∧ c.replace a = .ok s))

/-- A text in the code page, in Unicode, in either. -/
def Narrow (tp : TextProc) (b : List UInt8) (v : PyVal) : Prop := ∃ s, NarrowText tp b s ∧ v = .str s
def Wide (b : List UInt8) (v : PyVal) : Prop := ∃ s, WideText b s ∧ v = .str s
def Either (tp : TextProc) (wide : Bool) (b : List UInt8) (v : PyVal) : Prop := if wide then Wide b v else Narrow tp b v

/-- The number at an offset where one of four bytes is expected, zero if there is none. -/
def u4 (b : List UInt8) (off : Nat) : Nat := (uAt 4 b off).getD 0

/-- The names of the bits of a number of four bytes. -/
def BitsAt (names : List String) (b : List UInt8) (off : Nat) (v : PyVal) : Prop :=
  ∃ k, uAt 4 b off = some k ∧ v = .list ((setBitNames names k).map fun s => .str s.toList)

/-! ### header -/

def headerEntries (b : List UInt8) : Entries :=
  [ ("guid", GuidAt b 4), ("r_link_flags", NatAt 4 b 20), ("r_file_flags", NatAt 4 b 24), ("creation_time", FiletimeAt b 28),
    ("accessed_time", FiletimeAt b 36), ("modified_time", FiletimeAt b 44), ("file_size", NatAt 4 b 52), ("icon_index", IntAt 4 b 56),
    ("windowstyle", fun v => ∃ i, sAt 4 b 60 = some i ∧ v = .str (showCommandName i).toList),
    ("hotkey", fun v => ∃ low high, b[64]? = some low ∧ b[65]? = some high ∧ v = .str (hotKeyText low high)),
    ("r_hotkey", NatAt 2 b 64), ("link_flags", BitsAt linkFlagNames b 20), ("file_flags", BitsAt fileFlagNames b 24),
    ("header_size", NatAt 4 b 0), ("reserved0", NatAt 2 b 66), ("reserved1", NatAt 4 b 68), ("reserved2", NatAt 4 b 72) ]

/-! ### items -/

/-- A file entry; `w` are its bytes from the type byte on. -/
def fileEntries (tp : TextProc) (w : List UInt8) : Entries :=
  [ ("class", Is "File entry"), ("flags", fun v => ∃ t, w[0]? = some t ∧ Is (fsKindText t) v), ("file_size", NatAt 4 w 2),
    ("modification_time", DostimeAt w 6), ("file_attribute_flags", NatAt 2 w 10),
    ("primary_name", fun v => ∃ t, w[0]? = some t ∧ Either tp (t.toNat.testBit 2) (w.drop 12) v) ]

/-- What stands before, between and behind the zero bytes. -/
def zeroPieces : List UInt8 → List (List UInt8)
  | [] => [[]]
  | x :: xs => if x = 0 then [] :: zeroPieces xs else (x :: (zeroPieces xs).headD []) :: (zeroPieces xs).tail

/-- The text of a piece, if it is asked for. -/
def PieceText (tp : TextProc) (asked : Bool) (p : Option (List UInt8)) (v : PyVal) : Prop :=
  if asked then ∃ b, p = some b ∧ Narrow tp b v else v = .none

/-- A control panel item is in Unicode if it is long enough for that form and the first byte of the path in the other one would be
zero. -/
def cplWide (w : List UInt8) : Bool := decide (22 ≤ w.length) && w[10]? == some 0

/-- The text of a control panel item `units` characters behind the start of its strings. -/
def CplText (tp : TextProc) (w : List UInt8) (units : Nat) (v : PyVal) : Prop :=
  if cplWide w then Wide (w.drop (22 + units * 2)) v else Narrow tp (w.drop (10 + units)) v

/-- The text at the distance stated at an offset. -/
def CplTextAt (tp : TextProc) (w : List UInt8) (wideOff off : Nat) (v : PyVal) : Prop :=
  ∃ n, uAt 2 w (if cplWide w then wideOff else off) = some n ∧ CplText tp w n v

/-- The entries of an item besides its class, by the class; `n` is the size the item states, `w` are its bytes from the type byte
`t` on, and two more. -/
def itemFields (tp : TextProc) (n : Nat) (t : UInt8) (w : List UInt8) (cls : String) : Entries :=
  if cls = "Control panel CPL file" then
    [ ("signature", fun v => ∃ k, uAt 4 w 2 = some k ∧ v = .str ("0x".toList ++ hexFixed 8 k)), ("cpl_file_path", CplText tp w 0),
      ("name", CplTextAt tp w 18 6),
      ("comments", fun v => if uAt 2 w (if cplWide w then 20 else 8) = some 0 then v = .str [] else CplTextAt tp w 20 8 v) ]
  else if cls = "Control panel category" then
    [ ("category_id", NatAt 4 w 6),
      ("category", fun v => ∃ k, uAt 4 w 6 = some k ∧ Is ((categoryName k).getD "Unknown") v) ]
  else if cls = "Root Folder" then
    [ ("sort_index", fun v => ∃ k, uAt 1 w 1 = some k ∧ Is ((sortIndexName k).getD "Unknown") v), ("sort_index_value", NatAt 1 w 1),
      ("guid", GuidAt w 2) ]
  else if cls = "Volume Item" then
    [ ("flags", fun v => v = .str (hex0x (t.toNat % 16))),
      if t.toNat.testBit 0 then ("volume_name", Narrow tp (between w 1 21)) else ("volume_identifier", GuidAt w 2) ]
  else if cls = "File entry" then (fileEntries tp w).tail
  else if cls = "Network location" then
    [ ("flags", Is (fsKindText t)), ("content_flags", NatAt 1 w 2), ("location", PieceText tp true (zeroPieces (w.drop 3))[0]?),
      ("description", fun v => ∃ cf, uAt 1 w 2 = some cf ∧ PieceText tp (cf.testBit 7) (zeroPieces (w.drop 3))[1]? v),
      ("comments", fun v => ∃ cf, uAt 1 w 2 = some cf ∧
        PieceText tp (cf.testBit 6) (zeroPieces (w.drop 3))[if cf.testBit 7 then 2 else 1]? v) ]
  else if cls = "Control panel" then [("item_identifier", GuidAt w 14)]
  else if cls = "Users files folder" then
    [ ("signature", fun v => v = .str ((between w 4 8).map fun x => if x.toNat < 128 then Char.ofNat x.toNat else '�')),
      ("file_entry", fun v => ∃ m d, uAt 2 w 8 = some m ∧ v = .dict d ∧ Fits d (fileEntries tp (between w 10 (10 + m)))),
      ("delegate_class_id", fun v => ∃ k, uAt 2 w 2 = some k ∧ GuidAt w (4 + k) v),
      ("delegate_folder_id", fun v => ∃ k, uAt 2 w 2 = some k ∧ GuidAt w (20 + k) v) ]
  else if cls = "Unknown" then [("size", fun v => v = .int ((n + 2 : Nat) : Int))]
  else []

/-- `ItemsAt tp b l`: the items of the list `b` are reported as `l`. -/
inductive ItemsAt (tp : TextProc) : List UInt8 → List PyVal → Prop
  | stop {b} : b = [] ∨ uAt 2 b 0 = some 0 → ItemsAt tp b []
  | item {b n t d l} : uAt 2 b 0 = some n → n ≠ 0 → b[2]? = some t →
      Fits d (("class", Is ((itemClass t.toNat).getD "Unknown")) ::
        itemFields tp n t ((b.drop 2).take n) ((itemClass t.toNat).getD "Unknown")) →
      ItemsAt tp (b.drop n) l → ItemsAt tp b (.dict d :: l)

/-- The ID list: its size, its items, its place. -/
def targetEntries (tp : TextProc) (b : List UInt8) (L : Layout) : Entries :=
  [ ("size", NatAt 2 b L.headerSize), ("items", fun v => ∃ l, v = .list l ∧ ItemsAt tp (between b (L.headerSize + 2) L.infoAt) l),
    ("index", fun v => v = .int ((L.headerSize + 2 : Nat) : Int)) ]

/-! ### link info -/

/-- A VolumeID that starts at offset `o` of the link info `i`. -/
def volumeEntries (tp : TextProc) (i : List UInt8) (o : Nat) : Entries :=
  [ ("volume_id_size", NatAt 4 i o), ("r_drive_type", NatAt 4 i (o + 4)), ("volume_label_offset", NatAt 4 i (o + 12)),
    ("drive_serial_number", HexAt i (o + 8)),
    ("drive_type", fun v => ∃ k, uAt 4 i (o + 4) = some k ∧ v = optName (driveTypeName k)),
    ("volume_label", fun v => ∃ k, uAt 4 i (o + 12) = some k ∧
      if k = 0x14 then v = .none else Narrow tp (i.drop (o + k)) v) ] ++
    if u4 i (o + 12) = 0x14 ∧ u4 i (o + 16) ≠ 0 then
      [("volume_label_unicode_offset", NatAt 4 i (o + 16)), ("volume_label_unicode", Wide (i.drop (o + u4 i (o + 16))))]
    else []

/-- The numbers of a CommonNetworkRelativeLink that starts at offset `o` of the link info `i`, and the provider. -/
def networkNumbers (i : List UInt8) (o : Nat) : Entries :=
  [ ("common_network_relative_link_size", NatAt 4 i o), ("common_network_relative_link_flags", NatAt 4 i (o + 4)),
    ("net_name_offset", NatAt 4 i (o + 8)), ("device_name_offset", NatAt 4 i (o + 12)),
    ("r_network_provider_type", HexAt i (o + 16)) ] ++
    match if (u4 i (o + 4)).testBit 1 then reportedProvider (u4 i (o + 16)) else none with
    | none => []
    | some name => [("network_provider_type", Is name)]

/-- The network link: two names in Unicode, each unless its offset is zero; or two in the code page, each unless it is empty. -/
def NetworkReport (tp : TextProc) (i : List UInt8) (o : Nat) (d : Dict) : Prop :=
  if 0x14 < u4 i (o + 8) then
    Fits d (networkNumbers i o ++
      (if u4 i (o + 20) = 0 then [] else
        [("net_name_offset_unicode", NatAt 4 i (o + 20)), ("net_name_unicode", Wide (i.drop (o + u4 i (o + 20))))]) ++
      if u4 i (o + 24) = 0 then [] else
        [("device_name_offset_unicode", NatAt 4 i (o + 24)), ("device_name_unicode", Wide (i.drop (o + u4 i (o + 24))))])
  else ∃ name device, NarrowText tp (i.drop (o + u4 i (o + 8))) name ∧ NarrowText tp (i.drop (o + u4 i (o + 12))) device ∧
    Fits d (networkNumbers i o ++ (if name = [] then [] else [("net_name", fun v => v = .str name)]) ++
      if device = [] then [] else [("device_name", fun v => v = .str device)])

/-- The link info `i`, of one of the two kinds. -/
def infoEntries (tp : TextProc) (i : List UInt8) (kind : String) : Entries :=
  [ ("link_info_size", NatAt 4 i 0), ("link_info_header_size", NatAt 4 i 4), ("link_info_flags", NatAt 4 i 8),
    ("volume_id_offset", NatAt 4 i 12), ("local_base_path_offset", NatAt 4 i 16),
    ("common_network_relative_link_offset", NatAt 4 i 20), ("common_path_suffix_offset", NatAt 4 i 24) ] ++
    (if u4 i 16 = 0 then [] else [("local_base_path", Narrow tp (i.drop (u4 i 16)))]) ++
    (if u4 i 24 = 0 then [] else [("common_path_suffix", Narrow tp (i.drop (u4 i 24)))]) ++
    (if u4 i 4 < 0x24 ∨ u4 i 28 = 0 then [] else
      [("local_base_path_offset_unicode", NatAt 4 i 28), ("local_base_path_unicode", Wide (i.drop (u4 i 28)))]) ++
    (if u4 i 4 < 0x24 ∨ u4 i 32 = 0 then [] else
      [ ("common_path_suffix_offset_unicode", NatAt 4 i 32),
        ("common_path_suffix_unicode", Wide (i.drop (u4 i 32 + 4))) ]) ++
    [ ("location_info", fun v => ∃ d, v = .dict d ∧
        if kind = "Local" then Fits d (volumeEntries tp i (u4 i 12)) else NetworkReport tp i (u4 i 20) d),
      ("location", Is kind) ]

/-! ### strings -/

/-- Key, LinkFlags bit and longest accepted length of the optional strings. -/
def stringKeys : List (String × Nat × Nat) :=
  [ ("description", 2, 260), ("relative_path", 3, 260), ("working_directory", 4, 260), ("command_line_arguments", 5, 65535),
    ("icon_location", 6, 65535) ]

/-- The strings that are announced, up to the first whose count is not there; of each, the text within the bytes it has. -/
def stringEntries (tp : TextProc) (flags : Nat) (b : List UInt8) : List (String × Nat × Nat) → Nat → Entries
  | [], _ => []
  | (key, bit, limit) :: fs, pos =>
    if flags.testBit bit then
      match uAt 2 b pos with
      | none => []
      | some n =>
        let stop := pos + 2 + min n limit * if flags.testBit 7 then 2 else 1
        (key, Either tp (flags.testBit 7) (between b (pos + 2) stop)) :: stringEntries tp flags b fs stop
    else stringEntries tp flags b fs pos

/-! ### extra blocks -/

/-- The typed value at the start of `v`. -/
def typedEntries (v : List UInt8) : Entries :=
  [ ("value", fun x => ∃ t p, uAt 2 v 0 = some t ∧ uAt 2 v 2 = some p ∧
      if p = 0 ∧ t = 0x1F then ∃ n, uAt 4 v 4 = some n ∧ Wide (between v 8 (8 + n * 2)) x else x = .none),
    ("value_type", fun x => ∃ t name, uAt 2 v 0 = some t ∧ typeName t = some name ∧ Is name x) ]

/-- The property at the start of `v`. -/
def propertyEntries (named : Bool) (v : List UInt8) : Entries :=
  if named then
    [ ("value_size", NatAt 4 v 0), ("name_size", NatAt 4 v 4), ("name", Wide (between v 9 (9 + u4 v 4))) ] ++
      typedEntries (v.drop (9 + u4 v 4))
  else [("value_size", NatAt 4 v 0), ("id", NatAt 4 v 4)] ++ typedEntries (v.drop 9)

/-- The storage at the start of `s`. -/
def storageEntries (s : List UInt8) : Entries :=
  [ ("storage_size", NatAt 4 s 0), ("version", HexAt s 4), ("format_id", GuidAt s 8),
    ("serialized_property_values", fun v => ∃ vs l, v = .list vs ∧ Records (s.drop 24) l ∧
      FitsEach (propertyEntries (decide (between s 8 24 = stringNamedFormat.encode))) vs l) ]

/-- The first place of a character. -/
def firstAt (c : Char) (s : List Char) : Option Nat := if c ∈ s then some (s.takeWhile (· ≠ c)).length else none

/-- The feature name of a descriptor: from the 21st character up to the first `>` or the first `<`, whichever is later (up to the last
character if there is neither); nothing if that is the 21st. -/
def featureName (s : List Char) : PyVal :=
  match firstAt '>' s, firstAt '<' s with
  | none, none => .str ((s.take (s.length - 1)).drop 20)
  | some i, none => if i = 20 then .none else .str ((s.take i).drop 20)
  | none, some j => if j = 20 then .none else .str ((s.take j).drop 20)
  | some i, some j => if max i j = 20 then .none else .str ((s.take (max i j)).drop 20)

/-- The value of a digit to the base 85; -1 for a character that is none. -/
def digit85 (c : Char) : Int := match firstAt c digits85 with
  | some i => i
  | none => -1

/-- The number with the digits `q`, the least significant first. -/
def word85 (q : List Char) : Int := q.foldr (fun c v => digit85 c + 85 * v) 0

/-- At least eight characters: hexadecimal digits, after a sign if the number is negative. -/
def hexWord (v : Int) : List Char :=
  let digits := (Nat.toDigits 16 v.natAbs).map Char.toUpper
  if v < 0 then '-' :: (List.replicate (7 - digits.length) '0' ++ digits) else List.replicate (8 - digits.length) '0' ++ digits

/-- The text made of the first 20 characters: four numbers, written one after the other, then taken apart.  For a packed GUID, that is
the GUID (`unpacked_packed`). -/
def unpacked (t : List Char) : List Char :=
  let h := hexWord (word85 (t.take 5)) ++ hexWord (word85 ((t.drop 5).take 5)) ++ hexWord (word85 ((t.drop 10).take 5)) ++
    hexWord (word85 ((t.drop 15).take 5))
  let part (i n : Nat) := (h.drop i).take n
  part 0 8 ++ ['-'] ++ part 12 4 ++ ['-'] ++ part 8 4 ++ ['-'] ++ part 22 2 ++ part 20 2 ++ ['-'] ++
    part 18 2 ++ part 16 2 ++ part 30 2 ++ part 28 2 ++ part 26 2 ++ part 24 2

/-- The descriptor `s` of a Darwin block. -/
def descriptorEntries (s : List Char) : Entries :=
  [ ("darwin_data_unicode", fun v => v = .str s), ("product_code_id", fun v => v = .str (unpacked s)),
    ("feature_name", fun v => v = featureName s),
    ("component_id", fun v => v = match firstAt '>' s with
      | none => .none
      | some i => .str (unpacked (s.drop (i + 1)))) ]

/-- The entries of a block with a signature, besides its size. -/
def blockFields (tp : TextProc) (signature : Nat) (b : List UInt8) (d : Dict) : Prop :=
  if signature = 0xA0000001 ∨ signature = 0xA0000007 then
    Fits d [("target_ansi", Narrow tp (between b 8 268)), ("target_unicode", Wide (between b 268 788))]
  else if signature = 0xA0000002 then
    Fits d
      [ ("fill_attributes", NatAt 2 b 8), ("popup_fill_attributes", NatAt 2 b 10), ("screen_buffer_size_x", IntAt 2 b 12),
        ("screen_buffer_size_y", IntAt 2 b 14), ("window_size_x", IntAt 2 b 16), ("window_size_y", IntAt 2 b 18),
        ("window_origin_x", IntAt 2 b 20), ("window_origin_y", IntAt 2 b 22), ("font_size", NatAt 4 b 32), ("font_family", NatAt 4 b 36),
        ("font_weight", NatAt 4 b 40), ("face_name", Wide (between b 44 108)), ("cursor_size", NatAt 4 b 108),
        ("full_screen", NatAt 4 b 112), ("quick_edit", NatAt 4 b 116), ("insert_mode", NatAt 4 b 120), ("auto_position", NatAt 4 b 124),
        ("history_buffer_size", NatAt 4 b 128), ("number_of_history_buffers", NatAt 4 b 132), ("history_no_dup", NatAt 4 b 136),
        ("color_table", NatAt 4 b 140) ]
  else if signature = 0xA0000003 then
    Fits d
      [ ("length", NatAt 4 b 8), ("version", NatAt 4 b 12), ("machine_identifier", Narrow tp (between b 16 32)),
        ("droid_volume_identifier", GuidAt b 32), ("droid_file_identifier", GuidAt b 48), ("birth_droid_volume_identifier", GuidAt b 64),
        ("birth_droid_file_identifier", GuidAt b 80) ]
  else if signature = 0xA0000004 then Fits d [("code_page", NatAt 4 b 8)]
  else if signature = 0xA0000005 then Fits d [("special_folder_id", NatAt 4 b 8), ("offset", NatAt 4 b 12)]
  else if signature = 0xA0000006 then
    ∃ s, WideText (between b 268 788) s ∧ Fits d (("darwin_data_ansi", Narrow tp (between b 8 268)) :: descriptorEntries s)
  else if signature = 0xA0000008 then Fits d [("layer_name", Narrow tp (b.drop 8))]
  else if signature = 0xA0000009 then
    Fits d [("property_store", fun v => ∃ vs l, v = .list vs ∧ Records (b.drop 8) l ∧ FitsEach storageEntries vs l)]
  else if signature = 0xA000000B then Fits d [("known_folder_id", GuidAt b 8), ("offset", NatAt 4 b 24)]
  else if signature = 0xA000000C then Fits d [("id_list", fun v => ∃ l, v = .list l ∧ ItemsAt tp (b.drop 8) l)]
  else Fits d [("extra_data_sha256", fun v => v = .str (tp.env.sha256hex (b.drop 4)))]

/-- What is reported of a piece with a signature: its size and its fields. -/
def BlockReport (tp : TextProc) (signature : Nat) (p : Piece) (d : Dict) : Prop :=
  ∃ rest, d = ("size", .int p.declared) :: rest ∧ blockFields tp signature p.bytes rest

/-- One report for each piece of unknown kind. -/
def UnknownReports (tp : TextProc) : List PyVal → List Piece → Prop
  | [], [] => True
  | v :: vs, p :: ps => (∃ s d, p.signature = some s ∧ v = .dict d ∧ BlockReport tp s p d) ∧ UnknownReports tp vs ps
  | _, _ => False

/-- Each name where it is met first. -/
def firsts : List String → List String
  | [] => []
  | a :: l => a :: (firsts l).filter (· ≠ a)

open Classical in
/-- The names of the pieces that can be reported. -/
noncomputable def readableNames (l : List Piece) : List String :=
  l.filterMap fun p => p.signature.bind fun s => if BlockReadable s p.bytes then some (blockName s) else none

/-- The extra data cut into the pieces `l` and the bytes `last`. -/
structure ExtraReport (tp : TextProc) (allow : Bool) (l : List Piece) (last : List UInt8) (E : Dict) : Prop where
  /-- the names, in the order in which they are met -/
  names : E.keys = firsts (readableNames l) ++ if allow = true ∧ 4 < last.length then ["TERMINAL_BLOCK"] else []
  /-- of the blocks with a name, the last one that can be reported -/
  named : ∀ name pre p post s, name ≠ "UNKNOWN_BLOCK" → l = pre ++ p :: post → ReportedAs name p → p.signature = some s →
    (∀ q ∈ post, ¬ ReportedAs name q) → ∃ d, Dict.get? E name = some (.dict d) ∧ BlockReport tp s p d
  /-- all blocks without a name -/
  unknown : ∀ v, Dict.get? E "UNKNOWN_BLOCK" = some v → ∃ vs, v = .list vs ∧
    UnknownReports tp vs (l.filter fun p => p.signature.map blockName == some "UNKNOWN_BLOCK")
  /-- what follows the blocks -/
  terminal : ∀ v, Dict.get? E "TERMINAL_BLOCK" = some v → ∃ d, v = .dict d ∧
    Fits d [("size", fun v => v = .int last.length), ("appended_data_sha256", fun v => v = .str (tp.env.sha256hex (last.drop 4)))]

/-! ### the whole report -/

/-- The size of the file as far as it was read. -/
def sizeRead (b : List UInt8) (L : Layout) (allow : Bool) (l : List Piece) (last : List UInt8) : Nat :=
  let n := L.extraAt + ((l.filter fun p => p.signature.isSome).map Piece.declared).sum + if allow = true ∧ 4 < last.length then last.length else 0
  n + min (b.length - n) 4

/-- The entries of the full report. -/
def reportEntries (tp : TextProc) (b : List UInt8) (L : Layout) (allow : Bool) (l : List Piece) (last : List UInt8) : Entries :=
  [ ("size", fun v => v = PyVal.int (sizeRead b L allow l last)), ("header", fun v => ∃ d, v = .dict d ∧ Fits d (headerEntries b)) ] ++
    (if L.flags.testBit 0 then [("target", fun v => ∃ d, v = PyVal.dict d ∧ Fits d (targetEntries tp b L))] else []) ++
    [ ("link_info", fun v => ∃ d, v = .dict d ∧ Fits d (match if infoAnnounced L.flags then infoLocation b L.infoAt else none with
        | none => []
        | some kind => infoEntries tp (b.drop L.infoAt) kind)),
      ("data", fun v => ∃ d, v = .dict d ∧ Fits d (stringEntries tp L.flags b stringKeys L.stringsAt)),
      ("extra", fun v => ∃ d, v = .dict d ∧ ExtraReport tp allow l last d) ]

end Verif.Spec
