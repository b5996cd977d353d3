import Verif.Spec.Notices
import Verif.Spec.Values

/-
Specification layer: everything that is said and raised, in order, for arbitrary bytes and with any text (readable or not) in its place.
-/

namespace Verif.Spec

/-- The warnings, in order, and the exception that ends the work, if any. -/
abbrev Log := List Warn → Option PyErr → Prop

namespace Log

/-! ### building blocks -/

/-- Nothing happens. -/
def quiet : Log := fun w e => w = [] ∧ e = none

/-- Something is said. -/
def say (W : List Warn) : Log := fun w e => w = W ∧ e = none

/-- An exception is raised. -/
def fail (x : PyErr) : Log := fun w e => w = [] ∧ e = some x

/-- An exception is raised unless the condition holds. -/
def need (c : Prop) (x : PyErr) : Log := fun w e => w = [] ∧ (c ∧ e = none ∨ ¬ c ∧ e = some x)

/-- `struct.error` unless there are `n` bytes. -/
def room (n : Nat) (b : List UInt8) : Log := need (n ≤ b.length) .structError

/-- One after the other; an exception ends it. -/
def andThen (l m : Log) : Log := fun w e => (l w e ∧ e ≠ none) ∨ ∃ u v, w = u ++ v ∧ l u none ∧ m v e

/-- One after the other. -/
def all : List Log → Log
  | [] => quiet
  | l :: ls => andThen l (all ls)

/-- Only under a condition. -/
def given (c : Prop) (l : Log) : Log := fun w e => (c → l w e) ∧ (¬ c → quiet w e)

/-- `struct.error` and `ValueError` are turned into a warning. -/
def caught (name : String) (l : Log) : Log := fun w e =>
  (∃ u x, (x = .structError ∨ x = .valueError ∨ x = .unicodeDecode) ∧ l u (some x) ∧ w = u ++ [.extraBlock name x] ∧ e = none) ∨
    l w e ∧ ∀ x, e = some x → x ≠ .structError ∧ x ≠ .valueError ∧ x ≠ .unicodeDecode

/-! ### texts -/

/-- Reading a text of one-byte units.  There is nothing to say if it is empty, in the code page, or UTF-8; otherwise the text with
replacements is announced. -/
def decoded (tp : TextProc) (a : List UInt8) : Log :=
  if a = [] then quiet
  else match tp.env.resolve tp.cp with
    | none => fail .lookupError
    | some c => match c.strict a with
      | .ok _ => quiet
      | .error x => fun w e =>
        (x ≠ .unicodeDecode ∧ fail x w e) ∨ x = .unicodeDecode ∧ (((∃ s, a = utf8 s) ∧ quiet w e) ∨ (∀ s, a ≠ utf8 s) ∧
          match c.replace a with
          | .ok s => say [.decode s] w e
          | .error y => fail y w e)

/-- Reading the text of `b` up to the first zero byte. -/
def narrow (tp : TextProc) (b : List UInt8) : Log := decoded tp (b.takeWhile (· ≠ 0))

/-- Reading `b` as UTF-16.  There is nothing to say if it is; otherwise the text with replacements is announced. -/
def utf16Read (b : List UInt8) : Log := fun w e =>
  ((∃ s, b = utf16 s) ∧ quiet w e) ∨ (∀ s, b ≠ utf16 s) ∧ ∃ s, Utf16Lenient b s ∧ say [.decode s] w e

/-- Reading the text of `b` up to the first zero unit at an even offset. -/
def wide (b : List UInt8) : Log := fun w e =>
  ∃ us : List UInt16, 0 ∉ us ∧ ((∃ tail, tail.length < 2 ∧ b = units us ++ tail ∧ utf16Read b w e) ∨
    ∃ rest, b = units us ++ le 2 0 ++ rest ∧ utf16Read (units us) w e)

def either (tp : TextProc) (isWide : Bool) (b : List UInt8) : Log := if isWide then wide b else narrow tp b

/-- A text that is read again unless it is empty. -/
def again (tp : TextProc) (b : List UInt8) : Log := all [narrow tp b, given (¬ NarrowText tp b []) (narrow tp b)]

/-- The number at an offset where one of two bytes is expected, zero if there is none. -/
def u2 (b : List UInt8) (off : Nat) : Nat := (uAt 2 b off).getD 0

/-! ### header -/

/-- A time at an offset. -/
def time (h : List UInt8) (off : Nat) : Log := fun w e => ∃ t, sAt 8 h off = some t ∧
  ((t ≠ 0 ∧ OutOfCalendar t ∧ say [.invalidFiletime (between h off (off + 8))] w e) ∨ ¬ (t ≠ 0 ∧ OutOfCalendar t) ∧ quiet w e)

/-- The class id. -/
def classId (h : List UInt8) : Log := fun w e => ∃ g : Guid, between h 4 20 = g.encode ∧
  say (unlessEqual "link_cls_id" (.str shellLinkCLSID.text) (.str g.text)) w e

/-- The header `h`. -/
def header (h : List UInt8) : Log := all
  [ room 20 h, classId h, room 36 h, time h 28, room 44 h, time h 36, room 52 h, time h 44, room 66 h,
    say (unlessEqual "size" (.int 76) (.int (u4 h 0))), room 68 h, say (unlessEqual "reserved0" (.int 0) (.int (u2 h 66))), room 72 h,
    say (unlessEqual "reserved1" (.int 0) (.int (u4 h 68))), room 76 h, say (unlessEqual "reserved2" (.int 0) (.int (u4 h 72))) ]

/-! ### items -/

/-- A file entry; `w` are its bytes from the type byte on. -/
def file (tp : TextProc) (w : List UInt8) : Log := all
  [ room 1 w, say (kindNotices w), room 10 w, say (timeNotices w), room 12 w, either tp ((w.headD 0).toNat.testBit 2) (w.drop 12) ]

/-- A control panel file. -/
def cpl (tp : TextProc) (w : List UInt8) : Log := all
  [ room 6 w,
    if cplWide w then all
      [ wide (w.drop 22), wide (w.drop (22 + u2 w 18 * 2)), given (u2 w 20 ≠ 0) (wide (w.drop (22 + u2 w 20 * 2))) ]
    else all
      [ narrow tp (w.drop 10), room 8 w, narrow tp (w.drop (10 + u2 w 6)), room 10 w,
        given (u2 w 8 ≠ 0) (narrow tp (w.drop (10 + u2 w 8))) ] ]

/-- One of the pieces between zero bytes; `missing` is raised if there are fewer. -/
def piece (tp : TextProc) (missing : PyErr) (ps : List (List UInt8)) (k : Nat) : Log :=
  all [need (k < ps.length) missing, narrow tp (ps.getD k [])]

/-- The strings of a network location: the location; the description (bit 7 of the flags), the comments (bit 6). -/
def networkStrings (tp : TextProc) (missing : PyErr) (w : List UInt8) : Log :=
  let ps := zeroPieces (w.drop 3)
  let flags := (w.getD 2 0).toNat
  all [ narrow tp (ps.getD 0 []), room 3 w, given (flags.testBit 7) (piece tp missing ps 1),
    given (flags.testBit 6) (piece tp missing ps (if flags.testBit 7 then 2 else 1)) ]

/-- An item of the named class; `w` are its bytes from the type byte on, and two more. -/
def item (tp : TextProc) (cls : String) (w : List UInt8) : Log :=
  if cls = "Control panel CPL file" then cpl tp w
  else if cls = "Control panel category" then all [room 10 w, say (itemNotices cls w)]
  else if cls = "Root Folder" then all [room 2 w, say (itemNotices cls w), room 18 w]
  else if cls = "Volume Item" then all
    [room 1 w, if (w.headD 0).toNat.testBit 0 then narrow tp (between w 1 21) else room 18 w]
  else if cls = "File entry" then file tp w
  else if cls = "Network location" then all [networkStrings tp .runtimeError w, say (kindNotices w)]
  else if cls = "Control panel" then room 30 w
  else if cls = "Users files folder" then all [room 10 w, file tp (between w 10 (10 + u2 w 8)), room (u2 w 2 + 36) w]
  else quiet

/-- A list of items. -/
def list (tp : TextProc) (b : List UInt8) : Log :=
  if b = [] then quiet
  else match uAt 2 b 0 with
    | none => fail .structError
    | some 0 => quiet
    | some (n + 1) => match b[2]? with
      | none => fail .structError
      | some t => all [say (typeNotices t.toNat), item tp ((itemClass t.toNat).getD "Unknown") ((b.drop 2).take (n + 1)),
          list tp (b.drop (n + 1))]
termination_by b.length
decreasing_by
  have : 0 < b.length := List.length_pos_iff.2 ‹_›
  simp
  omega

/-! ### link info -/

/-- A VolumeID at offset `o`. -/
def volume (tp : TextProc) (i : List UInt8) (o : Nat) : Log := all
  [ room (o + 16) i, given (u4 i (o + 12) ≠ 0x14) (narrow tp (i.drop (o + u4 i (o + 12)))),
    given (u4 i (o + 12) = 0x14) (all [room (o + 20) i, given (u4 i (o + 16) ≠ 0) (wide (i.drop (o + u4 i (o + 16))))]) ]

/-- A CommonNetworkRelativeLink at offset `o`. -/
def networkLink (tp : TextProc) (i : List UInt8) (o : Nat) : Log := all
  [ room (o + 20) i,
    if 0x14 < u4 i (o + 8) then all
      [ room (o + 24) i, given (u4 i (o + 20) ≠ 0) (wide (i.drop (o + u4 i (o + 20)))),
        room (o + 28) i, given (u4 i (o + 24) ≠ 0) (wide (i.drop (o + u4 i (o + 24)))) ]
    else all [again tp (i.drop (o + u4 i (o + 8))), again tp (i.drop (o + u4 i (o + 12)))] ]

/-- The link info `i`, of one of the two kinds. -/
def info (tp : TextProc) (i : List UInt8) (kind : String) : Log := all
  [ room 28 i, given (u4 i 16 ≠ 0) (narrow tp (i.drop (u4 i 16))), given (u4 i 24 ≠ 0) (narrow tp (i.drop (u4 i 24))),
    given (0x24 ≤ u4 i 4) (all [room 32 i, given (u4 i 28 ≠ 0) (wide (i.drop (u4 i 28)))]),
    given (0x24 ≤ u4 i 4) (all [room 36 i, given (u4 i 32 ≠ 0) (wide (i.drop (u4 i 32 + 4)))]),
    if kind = "Local" then volume tp i (u4 i 12) else networkLink tp i (u4 i 20) ]

/-! ### extra blocks -/

/-- A chain of records: first all of them are found, then each is read. -/
def records (f : List UInt8 → Log) (b : List UInt8) : Log := fun w e =>
  (∃ l, Records b l ∧ all (l.map f) w e) ∨ (∀ l, ¬ Records b l) ∧ fail .structError w e

/-- The typed value at the start of `v`. -/
def typed (v : List UInt8) : Log := all
  [ room 4 v,
    given (u2 v 2 = 0) (if u2 v 0 = 2 then fail .structError else
      given (u2 v 0 = 0x1F) (all [room 8 v, wide (between v 8 (8 + u4 v 4 * 2))])),
    need (typeName (u2 v 0) ≠ none) .valueError ]

/-- The property at the start of `v`. -/
def property (named : Bool) (v : List UInt8) : Log := all
  [ room 8 v, given (named = true) (wide (between v 9 (9 + u4 v 4))), typed (v.drop (9 + if named then u4 v 4 else 0)) ]

/-- The storage at the start of `s`. -/
def storage (s : List UInt8) : Log := all
  [room 24 s, records (property (decide (between s 8 24 = stringNamedFormat.encode))) (s.drop 24)]

/-- The descriptor of a Darwin block is read four times. -/
def descriptor (b : List UInt8) : Log := all
  [ wide b, wide b, need (∃ s, WideText b s ∧ 20 ≤ s.length) .indexError, wide b, wide b,
    need (∀ pre post, WideText b (pre ++ '>' :: post) → '>' ∉ pre → 20 ≤ post.length) .indexError ]

/-- The block `b` with a signature. -/
def block (tp : TextProc) (signature : Nat) (b : List UInt8) : Log :=
  if signature = 0xA0000001 ∨ signature = 0xA0000007 then all [narrow tp (between b 8 268), wide (between b 268 788)]
  else if signature = 0xA0000002 then all [room 44 b, wide (between b 44 108), room 144 b]
  else if signature = 0xA0000003 then all
    [ room 12 b, say (unlessEqual "length" (.int 0x58) (.int (u4 b 8))), room 16 b,
      say (unlessEqual "version" (.int 0) (.int (u4 b 12))), narrow tp (between b 16 32), room 96 b ]
  else if signature = 0xA0000004 then room 12 b
  else if signature = 0xA0000005 then room 16 b
  else if signature = 0xA0000006 then all [narrow tp (between b 8 268), descriptor (between b 268 788)]
  else if signature = 0xA0000008 then narrow tp (b.drop 8)
  else if signature = 0xA0000009 then records storage (b.drop 8)
  else if signature = 0xA000000B then room 28 b
  else if signature = 0xA000000C then list tp (b.drop 8)
  else quiet

/-- The piece of the extra data. -/
def extra (tp : TextProc) (p : Piece) : Log :=
  match p.signature with
  | none => quiet
  | some s => caught (blockName s) (block tp s p.bytes)

/-! ### the whole -/

/-- The report of an object with this layout and these pieces of extra data. -/
def report (tp : TextProc) (b : List UInt8) (L : Layout) (l : List Piece) : Log := all
  [ header (b.take L.headerSize), given (L.flags.testBit 0) (list tp (between b (L.headerSize + 2) L.infoAt)),
    given (infoAnnounced L.flags) (match infoLocation b L.infoAt with
      | none => quiet
      | some kind => info tp (b.drop L.infoAt) kind),
    all (l.map (extra tp)) ]

/-- The announced strings, up to the first whose count is not there. -/
def strings (tp : TextProc) (flags : Nat) (b : List UInt8) : List (Nat × Nat) → Nat → Log
  | [], _ => quiet
  | (bit, limit) :: fs, pos =>
    if flags.testBit bit then
      match uAt 2 b pos with
      | none => say [.stringData]
      | some n =>
        let stop := pos + 2 + min n limit * if flags.testBit 7 then 2 else 1
        all [either tp (flags.testBit 7) (between b (pos + 2) stop), strings tp flags b fs stop]
    else strings tp flags b fs pos

/-- Cutting the extra data into pieces `l` and a rest. -/
def pieces (l : List Piece) (last : List UInt8) : Log := all
  [ say ((l.filter fun p => p.signature.isNone).map fun _ => .extraSignature),
    say (if last ≠ [] ∧ last.length < 4 then [.extraSize] else []),
    need (∀ p ∈ l, p.signature.isSome → 4 ≤ p.declared) .structError ]

/-- Making the object.  The size of the header is looked at twice. -/
def construction (tp : TextProc) (b : List UInt8) : Log := all
  [ room 4 b, say (unlessEqual "size" (.int 76) (.int (u4 b 0))), room 4 (b.take (u4 b 0)),
    say (unlessEqual "size" (.int 76) (.int (u4 b 0))), need (layout b ≠ none) .structError,
    fun w e => ∃ L l last, layout b = some L ∧ Cut (b.drop L.extraAt) l last ∧ all
      [ say (if infoAnnounced L.flags = true ∧ uAt 4 b (L.infoAt + 8) = none then [.infoClass] else []),
        strings tp L.flags b stringLimits L.stringsAt, pieces l last ] w e ]

/-- The command of the link: the relative path (bit 3) and the arguments (bit 5), if announced, have to be there. -/
def command (b : List UInt8) (L : Layout) : Log :=
  need ((L.flags.testBit 3 = true → ¬ stringsCut L.flags b (stringLimits.take 2) L.stringsAt) ∧
    (L.flags.testBit 5 = true → ¬ stringsCut L.flags b (stringLimits.take 4) L.stringsAt)) .typeError

/-- The command-line tool on a file of these bytes: the link is made, then its command (`-t`) or its report is written. -/
def tool (tp : TextProc) (target : Bool) (b : List UInt8) : Log :=
  if b = [] then fail .lnkParserError
  else andThen (construction tp b) fun w e => ∃ L l last, layout b = some L ∧ Cut (b.drop L.extraAt) l last ∧
    (if target then command b L else report tp b L l) w e

/-- No exception of the code page is one that is handled (`struct.error`, `ValueError`, `KeyError`, `StopIteration`), other than that
something cannot be decoded. -/
def Tame (tp : TextProc) : Prop :=
  let escapes (e : PyErr) := e ∉ [.structError, .valueError, .unicodeDecode, .keyError, .stopIteration]
  ∀ c, tp.env.resolve tp.cp = some c → ∀ a, a ≠ [] →
    (∀ e, c.strict a = .error e → e = .unicodeDecode ∨ escapes e) ∧ ∀ e, c.replace a = .error e → escapes e

end Log

end Verif.Spec
