import Verif.Model.Targets
import Verif.Model.Metadata

/-
LnkParse3/extra/*.py, LnkParse3/extra_factory.py, LnkParse3/extra_data.py
-/

namespace Verif

/-- The extra block classes.  Models extra_factory.py:5-16, extra_data.py:5. -/
inductive ExtraClass
  | environment | console | distributedTracker | codePage | specialFolder | darwin | icon | shimLayer
  | metadata | knownFolder | shellItem | unknown | terminal
deriving DecidableEq, Repr

/-- An extra block object.  Models extra/lnk_extra_base.py:16-19. -/
structure Extra where
  cls : ExtraClass
  tp : TextProc
  raw : Bytes

namespace ExtraClass

/-- The `name()` methods.  Models extra/environment.py:22-23, console.py:58-59, distributed_tracker.py:39-40,
code_page.py:20-21, special_folder.py:22-23, darwin.py:39-40, icon.py:22-23, shim_layer.py:19-20,
metadata.py:305-306, known_folder.py:24-25, shell_item.py:21-22, unknown.py:14-15, terminal.py:28-29. -/
def name : ExtraClass → String
  | environment => "ENVIRONMENTAL_VARIABLES_LOCATION_BLOCK"
  | console => "CONSOLE_PROPERTIES_BLOCK"
  | distributedTracker => "DISTRIBUTED_LINK_TRACKER_BLOCK"
  | codePage => "CONSOLE_CODEPAGE_BLOCK"
  | specialFolder => "SPECIAL_FOLDER_LOCATION_BLOCK"
  | darwin => "DARWIN_BLOCK"
  | icon => "ICON_LOCATION_BLOCK"
  | shimLayer => "SHIM_LAYER_BLOCK"
  | metadata => "METADATA_PROPERTIES_BLOCK"
  | knownFolder => "KNOWN_FOLDER_LOCATION_BLOCK"
  | shellItem => "SHELL_ITEM_IDENTIFIER_BLOCK"
  | unknown => "UNKNOWN_BLOCK"
  | terminal => "TERMINAL_BLOCK"

end ExtraClass

namespace ExtraFactory

/-- Models extra_factory.py:31-43. -/
def EXTRA_SIGS : List (String × ExtraClass) :=
  [ ("a0000001", .environment), ("a0000002", .console), ("a0000003", .distributedTracker),
    ("a0000004", .codePage), ("a0000005", .specialFolder), ("a0000006", .darwin), ("a0000007", .icon),
    ("a0000008", .shimLayer), ("a0000009", .metadata), ("a000000b", .knownFolder),
    ("a000000c", .shellItem) ]

/-- BlockSize.  Models extra_factory.py:48-51. -/
def itemSize (raw : Bytes) : Py Nat := unpackU 4 (slice raw 0 4)

/-- BlockSignature.  Models extra_factory.py:53-56. -/
def rsig (raw : Bytes) : Py Nat := unpackU 4 (slice raw 4 8)

/-- The class for the block at the start of `raw`; `None` with a warning when the signature is cut off.
Models extra_factory.py:58-65. -/
def extraClass (raw : Bytes) : Py (Option ExtraClass) :=
  Py.tryExcept
    (do
      let n ← rsig raw
      let sig := (pyHex n).drop 2
      match EXTRA_SIGS.find? fun kv => kv.1.toList = sig with
      | some kv => pure (some kv.2)
      | none => pure (some .unknown))
    (fun e => e = .structError)
    (fun _ => do
      Py.warn .extraSignature
      pure none)

end ExtraFactory

namespace Extra

/-- An unsigned field of the block. -/
def uint (x : Extra) (start stop : Nat) : Py Nat := unpackU (stop - start) (slice x.raw start stop)

/-- A signed field of the block. -/
def sint (x : Extra) (start stop : Nat) : Py Int := unpackI (stop - start) (slice x.raw start stop)

/-- `size()`: the BlockSize field, except that a `Terminal` counts its bytes.
Models extra/lnk_extra_base.py:21-24, extra/terminal.py:31-37. -/
def size (x : Extra) : Py Nat :=
  match x.cls with
  | .terminal => pure (4 + (x.raw.drop 4).length)
  | _ => x.uint 0 4

/-! #### CodePage, SpecialFolder, KnownFolder, Environment, Icon, ShimLayer, Unknown, Terminal -/

/-- Models extra/code_page.py:23-30. -/
def codePageFields (x : Extra) : Py Dict := do
  let c ← x.uint 8 12
  pure [("code_page", .nat c)]

/-- Models extra/special_folder.py:25-37. -/
def specialFolderFields (x : Extra) : Py Dict := do
  let i ← x.uint 8 12
  let o ← x.uint 12 16
  pure [("special_folder_id", .nat i), ("offset", .nat o)]

/-- Models extra/known_folder.py:27-41. -/
def knownFolderFields (x : Extra) : Py Dict := do
  let i ← parseUuid (slice x.raw 8 24)
  let o ← x.uint 24 28
  pure [("known_folder_id", .str i), ("offset", .nat o)]

/-- Models extra/environment.py:25-43 and extra/icon.py:25-43. -/
def targetFields (x : Extra) : Py Dict := do
  let a ← x.tp.readString (slice x.raw 8 (8 + 260))
  let u ← TextProc.readUnicodeString (slice x.raw 268 (268 + 520))
  pure [("target_ansi", .str a), ("target_unicode", .str u)]

/-- Models extra/shim_layer.py:22-31. -/
def shimLayerFields (x : Extra) : Py Dict := do
  let s ← x.tp.readString (x.raw.drop 8)
  pure [("layer_name", .str s)]

/-- Models extra/unknown.py:17-24. -/
def unknownFields (x : Extra) : Py Dict :=
  pure [("extra_data_sha256", .str (x.tp.env.sha256hex (x.raw.drop 4)))]

/-- Models extra/terminal.py:31-42. -/
def terminalFields (x : Extra) : Py Dict :=
  pure [("appended_data_sha256", .str (x.tp.env.sha256hex (x.raw.drop 4)))]

/-! #### Console -/

/-- Models extra/console.py:61-171. -/
def consoleFields (x : Extra) : Py Dict := do
  let fill_attributes ← x.uint 8 10
  let popup_fill_attributes ← x.uint 10 12
  let screen_buffer_size_x ← x.sint 12 14
  let screen_buffer_size_y ← x.sint 14 16
  let window_size_x ← x.sint 16 18
  let window_size_y ← x.sint 18 20
  let window_origin_x ← x.sint 20 22
  let window_origin_y ← x.sint 22 24
  let font_size ← x.uint 32 36
  let font_family ← x.uint 36 40
  let font_weight ← x.uint 40 44
  let face_name ← TextProc.readUnicodeString (slice x.raw 44 (44 + 64))
  let cursor_size ← x.uint 108 112
  let full_screen ← x.uint 112 116
  let quick_edit ← x.uint 116 120
  let insert_mode ← x.uint 120 124
  let auto_position ← x.uint 124 128
  let history_buffer_size ← x.uint 128 132
  let number_of_history_buffers ← x.uint 132 136
  let history_no_dup ← x.uint 136 140
  let color_table ← x.uint 140 144
  pure [("fill_attributes", .nat fill_attributes), ("popup_fill_attributes", .nat popup_fill_attributes),
    ("screen_buffer_size_x", .int screen_buffer_size_x), ("screen_buffer_size_y", .int screen_buffer_size_y),
    ("window_size_x", .int window_size_x), ("window_size_y", .int window_size_y),
    ("window_origin_x", .int window_origin_x), ("window_origin_y", .int window_origin_y),
    ("font_size", .nat font_size), ("font_family", .nat font_family), ("font_weight", .nat font_weight),
    ("face_name", .str face_name), ("cursor_size", .nat cursor_size), ("full_screen", .nat full_screen),
    ("quick_edit", .nat quick_edit), ("insert_mode", .nat insert_mode),
    ("auto_position", .nat auto_position), ("history_buffer_size", .nat history_buffer_size),
    ("number_of_history_buffers", .nat number_of_history_buffers),
    ("history_no_dup", .nat history_no_dup), ("color_table", .nat color_table)]

/-! #### DistributedTracker -/

/-- Models extra/distributed_tracker.py:42-106. -/
def trackerFields (x : Extra) : Py Dict := do
  let length ← mustBe "length" (.int 0x58) .int (x.uint 8 12)
  let version ← mustBe "version" (.int 0) .int (x.uint 12 16)
  let machine ← x.tp.readString (slice x.raw 16 (16 + 16))
  let dv ← parseUuid (slice x.raw 32 48)
  let df ← parseUuid (slice x.raw 48 64)
  let bv ← parseUuid (slice x.raw 64 80)
  let bf ← parseUuid (slice x.raw 80 96)
  pure [("length", .nat length), ("version", .nat version), ("machine_identifier", .str machine),
    ("droid_volume_identifier", .str dv), ("droid_file_identifier", .str df),
    ("birth_droid_volume_identifier", .str bv), ("birth_droid_file_identifier", .str bf)]

/-! #### Darwin -/

/-- Models extra/darwin.py:49-54. -/
def darwinDataUnicode (x : Extra) : Py Str := TextProc.readUnicodeString (slice x.raw 268 (268 + 520))

/-- Models extra/darwin.py:56-61. -/
def productCodeId (x : Extra) : Py (Option Str) := do
  let data ← x.darwinDataUnicode
  parsePackedUuid (some (slice data 0 20))

/-- `data[start:end]` where `end` may be negative (counting from the end of the string). -/
def sliceTo (data : Str) (start : Nat) (stop : Int) : Str :=
  slice data start (if stop < 0 then (data.length + stop).toNat else stop.toNat)

/-- Models extra/darwin.py:63-78. -/
def featureName (x : Extra) : Py (Option Str) := do
  let data ← x.darwinDataUnicode
  let terminator := max (strFind data '>') (strFind data '<')
  if terminator = 20 then pure none
  else pure (some (sliceTo data 20 terminator))

/-- Models extra/darwin.py:80-89. -/
def componentId (x : Extra) : Py (Option Str) := do
  let data ← x.darwinDataUnicode
  let terminator := strFind data '>'
  if terminator = -1 then parsePackedUuid none
  else parsePackedUuid (some (data.drop (terminator + 1).toNat))

/-- Models extra/darwin.py:42-47 and 91-98. -/
def darwinFields (x : Extra) : Py Dict := do
  let a ← x.tp.readString (slice x.raw 8 (8 + 260))
  let u ← x.darwinDataUnicode
  let p ← x.productCodeId
  let f ← x.featureName
  let c ← x.componentId
  pure [("darwin_data_ansi", .str a), ("darwin_data_unicode", .str u),
    ("product_code_id", PyVal.opt .str p), ("feature_name", PyVal.opt .str f),
    ("component_id", PyVal.opt .str c)]

/-! #### ShellItem, Metadata -/

/-- The generator `_id_list`: the loop of `LnkTargets._id_lists` over `raw[8:size]`.
Models extra/shell_item.py:42-55. -/
def shellItemIter (x : Extra) : List (Py Target) :=
  let n := x.uint 0 4
  match n.res with
  | .error e => [⟨n.warns, .error e⟩]
  | .ok n => LnkTargets.idLists x.tp (slice x.raw 8 n)

/-- Models extra/shell_item.py:57-71. -/
def shellItemFields (x : Extra) : Py Dict := do
  let l ← LnkTargets.asListLoop x.shellItemIter
  pure [("id_list", .list l)]

/-- Models extra/metadata.py:326-329. -/
def metadataFields (x : Extra) : Py Dict := do
  let l ← Metadata.propertyStore x.raw
  pure [("property_store", .list l)]

/-- The fields each class adds to `size`. -/
def fields (x : Extra) : Py Dict :=
  match x.cls with
  | .environment => x.targetFields
  | .console => x.consoleFields
  | .distributedTracker => x.trackerFields
  | .codePage => x.codePageFields
  | .specialFolder => x.specialFolderFields
  | .darwin => x.darwinFields
  | .icon => x.targetFields
  | .shimLayer => x.shimLayerFields
  | .metadata => x.metadataFields
  | .knownFolder => x.knownFolderFields
  | .shellItem => x.shellItemFields
  | .unknown => x.unknownFields
  | .terminal => x.terminalFields

/-- `as_dict()`: `size` first, then the class's fields.  Models extra/lnk_extra_base.py:26-29 and the overrides. -/
def asDict (x : Extra) : Py Dict := do
  let n ← x.size
  let d ← x.fields
  pure (("size", .nat n) :: d)

end Extra

/-- An `ExtraData` object: its blocks.  Models extra_data.py:17-22. -/
structure ExtraData where
  data : List Extra

namespace ExtraData

/-- The `while rest` loop of `process`: the blocks and what is left when it ends.  A round that does not shorten
`rest` would repeat forever: `diverge`.  Models extra_data.py:30-46. -/
def loop (tp : TextProc) (rest : Bytes) : Py (List Extra × Bytes) :=
  if rest = [] then pure ([], [])
  else do
    let r ← Py.attempt (ExtraFactory.itemSize rest) (fun e => e = .structError)
    match r with
    | .error _ => do
      Py.warn .extraSize
      pure ([], rest)
    | .ok size =>
      if size = 0 then pure ([], rest)
      else do
        let cls ← ExtraFactory.extraClass rest
        let new : List Extra := match cls with
          | some c => [⟨c, tp, rest.take size⟩]
          | none => []
        if _h : (rest.drop size).length < rest.length then do
          let (more, last) ← loop tp (rest.drop size)
          pure (new ++ more, last)
        else Py.raise .diverge
termination_by rest.length

/-- `ExtraData(indata, cp, allow_terminal_blocks)`.  Models extra_data.py:17-51. -/
def init (tp : TextProc) (allow_terminal_blocks : Bool) (indata : Bytes) : Py ExtraData := do
  let (data, rest) ← loop tp indata
  if allow_terminal_blocks && decide (rest.length > 4) then do
    let n ← unpackU 4 (rest.take 4)
    if n < 4 then pure ⟨data ++ [⟨.terminal, tp, rest⟩]⟩ else pure ⟨data⟩
  else pure ⟨data⟩

/-- `sum(extra.size() for extra in self.data)`.  Models extra_data.py:53-54. -/
def sizeLoop : List Extra → Py Nat
  | [] => pure 0
  | x :: xs => do
    let n ← x.size
    let m ← sizeLoop xs
    pure (n + m)

/-- Models extra_data.py:53-54. -/
def size (e : ExtraData) : Py Nat := sizeLoop e.data

/-- The list stored under a key. -/
def listAt (res : Dict) (k : String) : List PyVal :=
  match res.get? k with
  | some (.list l) => l
  | _ => []

/-- The `for extra in self` loop of `as_dict` with the dictionary built so far.  Models extra_data.py:56-70. -/
def asDictLoop : List Extra → Dict → Py Dict
  | [], res => pure res
  | x :: xs, res => do
    let res := if x.cls = .unknown ∧ ¬ res.has x.cls.name then res.set x.cls.name (.list []) else res
    let r ← Py.attempt x.asDict (fun e => e = .structError ∨ e.isValueError)
    match r with
    | .error e => do
      Py.warn (.extraBlock x.cls.name e)
      asDictLoop xs res
    | .ok d =>
      if x.cls = .unknown then
        asDictLoop xs (res.set x.cls.name (.list (listAt res x.cls.name ++ [.dict d])))
      else asDictLoop xs (res.set x.cls.name (.dict d))

/-- `as_dict()`.  Models extra_data.py:56-70. -/
def asDict (e : ExtraData) : Py Dict := asDictLoop e.data []

end ExtraData

end Verif
