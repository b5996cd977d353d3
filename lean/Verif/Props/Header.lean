import Verif.Lemmas.Header
import Verif.Lemmas.Process

/-
C01: header fields are reported faithfully.  C03/C04: flag lists.  C39: MUST-be checks.  C41: hot key and show
command.  C42: textual flag summary.
-/

namespace Verif.Props

open Spec LnkHeader

/-- A check warns exactly when the value is not the required one. -/
def warnUnless (func : String) (expected got : MustVal) : List Warn :=
  if got = expected then [] else [.mustBe func expected got]

/-- C01 (and C39 for the header): whatever the fields are, whatever size of at least 76 is declared and whatever
bytes follow, every header accessor reports the serialized field; the only warnings are those of violated
MUST-be checks. -/
theorem header_faithful (hd : Header) (rest : Bytes) (hs : 76 ≤ hd.headerSize.toNat) :
    ∃ h : LnkHeader,
      LnkHeader.init (hd.encode ++ rest)
        = ⟨warnUnless "size" (.int 0x4C) (.int hd.headerSize.toNat), .ok h⟩ ∧
      h.size = ⟨warnUnless "size" (.int 0x4C) (.int hd.headerSize.toNat), .ok hd.headerSize.toNat⟩ ∧
      h.linkClsId = ⟨warnUnless "link_cls_id" (.str shellLinkCLSID.text) (.str hd.linkCLSID.text),
        .ok hd.linkCLSID.text⟩ ∧
      h.rLinkFlags = pure hd.linkFlags.toNat ∧
      h.linkFlags = pure (setBitNames linkFlagNames hd.linkFlags.toNat) ∧
      h.rFileFlags = pure hd.fileAttributes.toNat ∧
      h.fileFlags = pure (setBitNames fileFlagNames hd.fileAttributes.toNat) ∧
      h.creationTime = parseFiletime (leI 8 hd.creationTime.toInt) ∧
      h.accessTime = parseFiletime (leI 8 hd.accessTime.toInt) ∧
      h.writeTime = parseFiletime (leI 8 hd.writeTime.toInt) ∧
      h.fileSize = pure hd.fileSize.toNat ∧
      h.iconIndex = pure hd.iconIndex.toInt ∧
      h.windowStyle = pure (showCommandName hd.showCommand.toInt) ∧
      h.hotKey = pure (hotKeyText hd.hotKeyLow hd.hotKeyHigh) ∧
      h.rawHotKey = pure (hd.hotKeyLow.toNat + 256 * hd.hotKeyHigh.toNat) ∧
      h.reserved0 = ⟨warnUnless "reserved0" (.int 0) (.int hd.reserved1.toNat), .ok hd.reserved1.toNat⟩ ∧
      h.reserved1 = ⟨warnUnless "reserved1" (.int 0) (.int hd.reserved2.toNat), .ok hd.reserved2.toNat⟩ ∧
      h.reserved2 = ⟨warnUnless "reserved2" (.int 0) (.int hd.reserved3.toNat), .ok hd.reserved3.toNat⟩ := by
  have hr := HeaderRaw_take hd rest hd.headerSize.toNat hs
  exact ⟨⟨(hd.encode ++ rest).take hd.headerSize.toNat⟩, init_enc hd rest, size_enc hr, linkClsId_enc hr,
    rLinkFlags_enc hr, linkFlags_enc hr, rFileFlags_enc hr, fileFlags_enc hr, creationTime_enc hr,
    accessTime_enc hr, writeTime_enc hr, fileSize_enc hr, iconIndex_enc hr, windowStyle_enc hr, hotKey_enc hr,
    rawHotKey_enc hr, reserved0_enc hr, reserved1_enc hr, reserved2_enc hr⟩

/-- A concrete header. -/
def exampleHeader : Header :=
  ⟨76, shellLinkCLSID, 0x8B, 0x20, 0, 0, 0, 1234, -3, 7, 0x74, 4, 0, 0, 0⟩

example : 76 ≤ exampleHeader.headerSize.toNat := by decide

/-- Some of its fields, read back without a warning; and a header of 80 bytes, which is warned about. -/
example (rest : Bytes) : ∃ h h' : LnkHeader, LnkHeader.init (exampleHeader.encode ++ rest) = pure h ∧
    h.linkFlags = pure ["HasTargetIDList", "HasLinkInfo", "HasRelativePath", "IsUnicode"] ∧ h.fileSize = pure 1234 ∧
    h.iconIndex = pure (-3) ∧ h.windowStyle = pure "SW_SHOWMINNOACTIVE" ∧ h.hotKey = pure "ALT - F5 {0x7404}".toList ∧
    LnkHeader.init ({ exampleHeader with headerSize := 80, reserved1 := 5 }.encode ++ rest) = ⟨[.mustBe "size" (.int 76) (.int 80)], .ok h'⟩ ∧
    h'.reserved0 = ⟨[.mustBe "reserved0" (.int 0) (.int 5)], .ok 5⟩ := by
  obtain ⟨h, h1, -, -, -, h5, -, -, -, -, -, h11, h12, h13, h14, -⟩ := header_faithful exampleHeader rest (by decide)
  obtain ⟨h', k1, -, -, -, -, -, -, -, -, -, -, -, -, -, -, k16, -⟩ :=
    header_faithful { exampleHeader with headerSize := 80, reserved1 := 5 } rest (by decide)
  refine ⟨h, h', h1, h5.trans ?_, h11, h12, h13.trans ?_, h14.trans ?_, k1, k16⟩ <;> congr 1

/-- Every input of at least 76 bytes starts with some serialized header: `header_faithful` leaves nothing out. -/
theorem header_every_input (b : Bytes) (hb : 76 ≤ b.length) : ∃ hd : Header, ∃ rest, b = hd.encode ++ rest :=
  exists_header b hb

example : ∃ hd : Header, ∃ rest, (List.replicate 100 7 : Bytes) = hd.encode ++ rest := header_every_input _ (by decide)

/-- The `header` object `get_json` reports for a serialized header, given the three decoded times. -/
def headerObject (hd : Header) (c a w : Option DateTime) : Dict :=
  [("guid", .str hd.linkCLSID.text), ("r_link_flags", .int hd.linkFlags.toNat),
    ("r_file_flags", .int hd.fileAttributes.toNat),
    ("creation_time", PyVal.opt .dt c), ("accessed_time", PyVal.opt .dt a), ("modified_time", PyVal.opt .dt w),
    ("file_size", .int hd.fileSize.toNat), ("icon_index", .int hd.iconIndex.toInt),
    ("windowstyle", .str (showCommandName hd.showCommand.toInt).toList),
    ("hotkey", .str (hotKeyText hd.hotKeyLow hd.hotKeyHigh)),
    ("r_hotkey", .int (hd.hotKeyLow.toNat + 256 * hd.hotKeyHigh.toNat : Nat)),
    ("link_flags", .list ((setBitNames linkFlagNames hd.linkFlags.toNat).map fun s => .str s.toList)),
    ("file_flags", .list ((setBitNames fileFlagNames hd.fileAttributes.toNat).map fun s => .str s.toList)),
    ("header_size", .int hd.headerSize.toNat), ("reserved0", .int hd.reserved1.toNat),
    ("reserved1", .int hd.reserved2.toNat), ("reserved2", .int hd.reserved3.toNat)]

/-- The keys `get_json(False)` leaves out of the header. -/
def hiddenHeaderKeys : List String := ["header_size", "reserved0", "reserved1", "reserved2"]

/-- C01: the `header` object of `get_json` for a file that starts with a serialized header. -/
theorem header_json (env : Env) (cp : Option String) (allow all : Bool) (hd : Header) (rest : Bytes)
    (hs : 76 ≤ hd.headerSize.toNat) (src : Source) (hsrc : src.bytes = hd.encode ++ rest) (f : LnkFile)
    (hf : (LnkFile.init env cp allow src).Returns f) (j : Dict) (hj : (f.getJson all).Returns j) :
    ∃ c a w, (parseFiletime (leI 8 hd.creationTime.toInt)).Returns c ∧
      (parseFiletime (leI 8 hd.accessTime.toInt)).Returns a ∧
      (parseFiletime (leI 8 hd.writeTime.toInt)).Returns w ∧
      j.get? "header" = some (.dict (if all then headerObject hd c a w
        else (headerObject hd c a w).filter fun kv => kv.1 ∉ hiddenHeaderKeys)) := by
  obtain ⟨h, _, _, _, _, _, _, _, _, h1, -, -, -, -, -, -, rfl⟩ :=
    LnkFile.process_ok_iff.mp (LnkFile.init_ok hf)
  obtain ⟨hdr, _, _, _, h2, -, -, -, rfl⟩ := LnkFile.getJson_ok_iff.mp hj
  rw [hsrc, init_enc] at h1
  simp only [Except.ok.injEq] at h1
  subst h1
  have hr := HeaderRaw_take hd rest hd.headerSize.toNat hs
  unfold LnkFile.jsonHeader at h2
  simp only [linkClsId_enc hr, rLinkFlags_enc hr, linkFlags_enc hr, rFileFlags_enc hr, fileFlags_enc hr,
    creationTime_enc hr, accessTime_enc hr, writeTime_enc hr, fileSize_enc hr, iconIndex_enc hr,
    windowStyle_enc hr, hotKey_enc hr, rawHotKey_enc hr, size_enc hr, reserved0_enc hr, reserved1_enc hr,
    reserved2_enc hr, Py.bind_ok_iff, Py.pure_res, Except.ok.injEq, exists_eq_left'] at h2
  obtain ⟨c, hc, a, ha, w, hw, rfl⟩ := h2
  refine ⟨c, a, w, hc, ha, hw, ?_⟩
  cases all <;> rfl

/-! ### C03, C04 -/

/-- On any header, `link_flags()` is the list of the names of the set bits of `r_link_flags()`, lowest bit
first; it raises exactly when the flags field is not there. -/
theorem link_flags_of_raw (h : LnkHeader) :
    (∀ v, h.rLinkFlags.Returns v → h.linkFlags = pure (setBitNames linkFlagNames v)) ∧
      (∀ e, h.rLinkFlags.Raises e → h.linkFlags = Py.raise e) := by
  unfold LnkHeader.linkFlags LnkHeader.rLinkFlags
  unfold unpackU
  constructor
  · intro v hv
    split at hv
    · rename_i hl
      simp only [Py.Returns, Py.pure_res, Except.ok.injEq] at hv
      subst hv
      rw [if_pos hl, pure_bind, linkFlagNames_eq]
    · simp [Py.Returns] at hv
  · intro e he
    split at he
    · simp [Py.Raises] at he
    · rename_i hl
      simp only [Py.Raises, Py.raise_res, Except.error.injEq] at he
      subst he
      rw [if_neg hl, Py.raise_bind]

/-- C03: on any header, `link_flags()` is the list of the names of the set bits of the word at offset 20, lowest bit
first, and `r_link_flags()` is that word; both raise `struct.error` exactly when the word is not there. -/
theorem link_flags_exact (h : LnkHeader) :
    (∀ v, uAt 4 h.raw 20 = some v → h.rLinkFlags = pure v ∧ h.linkFlags = pure (setBitNames linkFlagNames v)) ∧
      (uAt 4 h.raw 20 = none → h.rLinkFlags = Py.raise .structError ∧ h.linkFlags = Py.raise .structError) := by
  have h1 : h.rLinkFlags = _ := unpackU_slice h.raw 4 20 (by omega)
  refine ⟨fun v hv => ?_, fun hv => ?_⟩ <;> rw [hv] at h1
  · exact ⟨h1, (link_flags_of_raw h).1 v (by rw [h1]; rfl)⟩
  · exact ⟨h1, (link_flags_of_raw h).2 _ (by rw [h1]; rfl)⟩

example (r : Bytes) : LnkHeader.linkFlags ⟨List.replicate 20 0 ++ [0x82, 0, 0, 0] ++ r⟩ = pure ["HasLinkInfo", "IsUnicode"] :=
  ((link_flags_exact ⟨List.replicate 20 0 ++ [0x82, 0, 0, 0] ++ r⟩).1 0x82 (uAt_le (n := 4) (v := 0x82) (by decide) (List.replicate 20 0) r)).2.trans (congrArg _ (by decide))

/-- C03: a name is listed exactly when its bit is set. -/
theorem link_flags_mem (v i : Nat) (name : String) (h : linkFlagNames[i]? = some name) :
    name ∈ setBitNames linkFlagNames v ↔ v.testBit i = true :=
  mem_setBitNames linkFlagNames_nodup h

example : "IsUnicode" ∈ setBitNames linkFlagNames 0x80 ∧ "IsUnicode" ∉ setBitNames linkFlagNames 0x7F :=
  ⟨(link_flags_mem _ 7 _ rfl).2 (by decide), fun h => absurd ((link_flags_mem _ 7 _ rfl).1 h) (by decide)⟩

/-- C03, C04: names come in table (bit) order without duplicates. -/
theorem set_bits_sublist (names : List String) (v : Nat) : (setBitNames names v).Sublist names := by
  have h : (List.range names.length).filterMap (fun i => names[i]?) = names := by
    induction names with
    | nil => rfl
    | cons a l ih =>
      rw [List.length_cons, List.range_succ_eq_map, List.filterMap_cons]
      simp only [List.getElem?_cons_zero, List.filterMap_map]
      conv => rhs; rw [← ih]
      rfl
  have h2 : setBitNames names v
      = ((List.range names.length).filter fun i => v.testBit i).filterMap fun i => names[i]? := by
    rw [List.filterMap_filter]; rfl
  rw [h2]
  conv => rhs; rw [← h]
  exact List.Sublist.filterMap _ List.filter_sublist

theorem link_flags_nodup (v : Nat) : (setBitNames linkFlagNames v).Nodup :=
  (set_bits_sublist _ _).nodup linkFlagNames_nodup

theorem setBitNames_eq_iff {names : List String} (hn : names.Nodup) (v w : Nat) :
    setBitNames names v = setBitNames names w ↔ ∀ i < names.length, v.testBit i = w.testBit i := by
  constructor
  · intro h i hi
    have h1 := mem_setBitNames (v := v) hn (List.getElem?_eq_getElem hi)
    have h2 := mem_setBitNames (v := w) hn (List.getElem?_eq_getElem hi)
    rw [h] at h1
    exact Bool.eq_iff_iff.mpr (h1.symm.trans h2)
  · intro h
    unfold setBitNames
    apply List.filterMap_congr
    intro i hi
    rw [h i (by simpa using hi)]

/-- C03: the lists agree exactly when the 27 defined bits agree. -/
theorem link_flags_eq_iff (v w : Nat) :
    setBitNames linkFlagNames v = setBitNames linkFlagNames w ↔ ∀ i < 27, v.testBit i = w.testBit i :=
  setBitNames_eq_iff linkFlagNames_nodup v w

/-- The five bits without a name make no difference, the last one with a name does. -/
example : setBitNames linkFlagNames 0xF8000082 = setBitNames linkFlagNames 0x82 ∧
    setBitNames linkFlagNames 0x4000082 ≠ setBitNames linkFlagNames 0x82 :=
  ⟨(link_flags_eq_iff _ _).2 (by decide), fun h => absurd ((link_flags_eq_iff _ _).1 h 26 (by decide)) (by decide)⟩

/-- On any header, `file_flags()` is the list of the names of the set bits of `r_file_flags()`. -/
theorem file_flags_of_raw (h : LnkHeader) :
    (∀ v, h.rFileFlags.Returns v → h.fileFlags = pure (setBitNames fileFlagNames v)) ∧
      (∀ e, h.rFileFlags.Raises e → h.fileFlags = Py.raise e) := by
  unfold LnkHeader.fileFlags LnkHeader.rFileFlags
  unfold unpackU
  constructor
  · intro v hv
    split at hv
    · rename_i hl
      simp only [Py.Returns, Py.pure_res, Except.ok.injEq] at hv
      subst hv
      rw [if_pos hl, pure_bind, fileFlagNames_eq]
    · simp [Py.Returns] at hv
  · intro e he
    split at he
    · simp [Py.Raises] at he
    · rename_i hl
      simp only [Py.Raises, Py.raise_res, Except.error.injEq] at he
      subst he
      rw [if_neg hl, Py.raise_bind]

/-- C04: on any header, `file_flags()` is the list of the names of the set bits of the word at offset 24, lowest bit
first, and `r_file_flags()` is that word; both raise `struct.error` exactly when the word is not there. -/
theorem file_flags_exact (h : LnkHeader) :
    (∀ v, uAt 4 h.raw 24 = some v → h.rFileFlags = pure v ∧ h.fileFlags = pure (setBitNames fileFlagNames v)) ∧
      (uAt 4 h.raw 24 = none → h.rFileFlags = Py.raise .structError ∧ h.fileFlags = Py.raise .structError) := by
  have h1 : h.rFileFlags = _ := unpackU_slice h.raw 4 24 (by omega)
  refine ⟨fun v hv => ?_, fun hv => ?_⟩ <;> rw [hv] at h1
  · exact ⟨h1, (file_flags_of_raw h).1 v (by rw [h1]; rfl)⟩
  · exact ⟨h1, (file_flags_of_raw h).2 _ (by rw [h1]; rfl)⟩

example (r : Bytes) : LnkHeader.fileFlags ⟨List.replicate 24 0 ++ [0x21, 0, 0, 0] ++ r⟩ =
    pure ["FILE_ATTRIBUTE_READONLY", "FILE_ATTRIBUTE_ARCHIVE"] :=
  ((file_flags_exact ⟨List.replicate 24 0 ++ [0x21, 0, 0, 0] ++ r⟩).1 0x21 (uAt_le (n := 4) (v := 0x21) (by decide) (List.replicate 24 0) r)).2.trans (congrArg _ (by decide))

/-- C04: a name is listed exactly when its bit is set. -/
theorem file_flags_mem (v i : Nat) (name : String) (h : fileFlagNames[i]? = some name) :
    name ∈ setBitNames fileFlagNames v ↔ v.testBit i = true :=
  mem_setBitNames fileFlagNames_nodup h

example : "FILE_ATTRIBUTE_HIDDEN" ∈ setBitNames fileFlagNames 6 ∧ "FILE_ATTRIBUTE_HIDDEN" ∉ setBitNames fileFlagNames 5 :=
  ⟨(file_flags_mem _ 1 _ rfl).2 (by decide), fun h => absurd ((file_flags_mem _ 1 _ rfl).1 h) (by decide)⟩

/-- C04: only the 18 defined bits matter. -/
theorem file_flags_eq_iff (v w : Nat) :
    setBitNames fileFlagNames v = setBitNames fileFlagNames w ↔ ∀ i < 18, v.testBit i = w.testBit i :=
  setBitNames_eq_iff fileFlagNames_nodup v w

example : setBitNames fileFlagNames 0x80000020 = setBitNames fileFlagNames 0x20 := (file_flags_eq_iff _ _).2 (by decide)

example : setBitNames linkFlagNames 0x8B = ["HasTargetIDList", "HasLinkInfo", "HasRelativePath", "IsUnicode"] := by
  decide
example : setBitNames fileFlagNames 0x80000020 = ["FILE_ATTRIBUTE_ARCHIVE"] := by decide

/-! ### C39 -/

/-- C39: a MUST-be check passes result and exception through and adds one warning, last, exactly when there is a
result that differs from the required value. -/
theorem must_be (func : String) (expected : MustVal) (wrap : α → MustVal) (x : Py α) :
    (mustBe func expected wrap x).res = x.res ∧
      (mustBe func expected wrap x).warns = x.warns ++ (match x.res with
        | .ok a => warnUnless func expected (wrap a)
        | .error _ => []) := by
  unfold mustBe warnUnless
  rcases x with ⟨w, e | a⟩
  · simp [Py.bind_def, Py.andThen]
  · by_cases h : wrap a = expected <;> simp [Py.bind_def, Py.andThen, h]

/-- A value that is not the required one is returned all the same. -/
example : (mustBe "size" (.int 76) (fun n => .int n) (pure 80)).res = .ok 80 ∧
    (mustBe "size" (.int 76) (fun n => .int n) (pure 80)).warns = [.mustBe "size" (.int 76) (.int 80)] :=
  must_be "size" (.int 76) (fun n => .int n) (pure 80)

/-! ### C41 -/

/-- C41: the show command of any header with the field present. -/
theorem show_command (h : LnkHeader) (v : Int32) (hv : (h.raw.drop 60).take 4 = leI 4 v.toInt) :
    h.windowStyle = pure (showCommandName v.toInt) := by
  unfold LnkHeader.windowStyle
  rw [show slice h.raw 60 64 = leI 4 v.toInt from hv, unpackI_leI4, pure_bind, windowStyles_lookup]

example (r : Bytes) : LnkHeader.windowStyle ⟨List.replicate 60 0 ++ [3, 0, 0, 0] ++ r⟩ = pure "SW_SHOWMAXIMIZED" :=
  show_command ⟨List.replicate 60 0 ++ [3, 0, 0, 0] ++ r⟩ 3 rfl

/-- C41: the hot key of any header with the field present. -/
theorem hot_key (h : LnkHeader) (low high : UInt8) (hv : (h.raw.drop 64).take 2 = [low, high]) :
    h.hotKey = pure (hotKeyText low high) := by
  unfold LnkHeader.hotKey
  simp only [show slice h.raw 64 66 = [low, high] from hv]
  have hb : bytesHex [low, high] = hotKeyHex low high := by simp [bytesHex, hotKeyHex, byteHex_eq]
  unfold hotKeyText
  rw [← hotkeyHigh_lookup, ← hotkeyLow_lookup, hb]
  cases HOTKEY_VALUES_HIGH.lookup high.toNat <;> cases HOTKEY_VALUES_LOW.lookup low.toNat <;> rfl

example (r : Bytes) : LnkHeader.hotKey ⟨List.replicate 64 0 ++ [0x74, 4] ++ r⟩ = pure "ALT - F5 {0x7404}".toList :=
  (hot_key ⟨List.replicate 64 0 ++ [0x74, 4] ++ r⟩ 0x74 4 rfl).trans (congrArg _ (by decide +kernel))

example : hotKeyText 0x74 0x04 = "ALT - F5 {0x7404}".toList := by decide +kernel
example : hotKeyText 0x74 0x03 = "7403".toList := by decide +kernel

/-! ### C42 -/

theorem joinBar_eq (l : List String) : LnkFile.joinBar l = List.intercalate " | ".toList (l.map String.toList) := by
  induction l with
  | nil => rfl
  | cons a l ih =>
    cases l with
    | nil => simp [LnkFile.joinBar, List.intercalate]
    | cons b l =>
      rw [LnkFile.joinBar, ih]
      · simp [List.intercalate]
      · simp

/-- The textual summaries show the names joined by `" | "` and the decimal raw value. -/
theorem flag_summary_of_raw (f : LnkFile) :
    (∀ v, f.header.rLinkFlags.Returns v →
      f.formatLinkFlags = pure (flagSummary (setBitNames linkFlagNames v) v)) ∧
    (∀ v, f.header.rFileFlags.Returns v →
      f.formatFileFlags = pure (flagSummary (setBitNames fileFlagNames v) v)) := by
  have key : ∀ raw names, LnkFile.formatFlags raw names = flagSummary names raw := by
    intro raw names
    unfold LnkFile.formatFlags flagSummary
    rw [joinBar_eq, decStr_eq]
    by_cases h : raw = 0 <;> simp [h]
  constructor
  · intro v hv
    have h1 : f.header.rLinkFlags = pure v := by
      unfold LnkHeader.rLinkFlags unpackU at *
      split at hv <;> simp_all [Py.Returns]
    unfold LnkFile.formatLinkFlags
    rw [(link_flags_of_raw f.header).1 v hv, h1, pure_bind, pure_bind, key]
  · intro v hv
    have h1 : f.header.rFileFlags = pure v := by
      unfold LnkHeader.rFileFlags unpackU at *
      split at hv <;> simp_all [Py.Returns]
    unfold LnkFile.formatFileFlags
    rw [(file_flags_of_raw f.header).1 v hv, h1, pure_bind, pure_bind, key]

/-- C42: the textual summaries show the names of the set bits joined by `" | "` and the decimal raw value, which are those
of the words at offsets 20 and 24. -/
theorem flag_summary (f : LnkFile) :
    (∀ v, uAt 4 f.header.raw 20 = some v → f.formatLinkFlags = pure (flagSummary (setBitNames linkFlagNames v) v)) ∧
    (∀ v, uAt 4 f.header.raw 24 = some v → f.formatFileFlags = pure (flagSummary (setBitNames fileFlagNames v) v)) :=
  ⟨fun v hv => (flag_summary_of_raw f).1 v (by rw [((link_flags_exact f.header).1 v hv).1]; rfl),
    fun v hv => (flag_summary_of_raw f).2 v (by rw [((file_flags_exact f.header).1 v hv).1]; rfl)⟩

example (f : LnkFile) (h : f.header.raw = exampleHeader.encode) :
    f.formatFileFlags = pure "FILE_ATTRIBUTE_ARCHIVE - (32)".toList :=
  ((flag_summary f).2 32 (by rw [h]; decide +kernel)).trans (congrArg _ (by decide +kernel))

/-- C42: the raw value can be recovered from the summary. -/
theorem flag_summary_inj (names names' : List String) (v v' : Nat)
    (h : flagSummary names v = flagSummary names' v') : v = v' := by
  have key : ∀ names v, ((flagSummary names v).reverse.drop 1).takeWhile Char.isDigit
      = (Nat.toDigits 10 v).reverse := by
    intro names v
    have hd : ∀ c ∈ (Nat.toDigits 10 v).reverse, c.isDigit = true := by
      intro c hc
      exact Nat.isDigit_of_mem_toDigits (b := 10) (n := v) (by decide) (by decide) (by simpa using hc)
    unfold flagSummary
    simp only [List.reverse_append, List.reverse_cons, List.reverse_nil, List.nil_append, List.append_assoc,
      List.cons_append, List.drop_succ_cons, List.drop_zero]
    rw [List.takeWhile_append_of_pos hd, List.takeWhile_cons_of_neg (by decide), List.append_nil]
  have h1 := key names v
  rw [h, key names' v'] at h1
  exact (toDigits10_inj (by simpa using h1)).symm

/-- Two values with the same names are told apart. -/
example : flagSummary (setBitNames linkFlagNames 0x82) 0x82 ≠ flagSummary (setBitNames linkFlagNames 0x8000082) 0x8000082 :=
  fun h => absurd (flag_summary_inj _ _ _ _ h) (by decide)

example : flagSummary ["HasLinkInfo", "IsUnicode"] 130 = "HasLinkInfo | IsUnicode - (130)".toList := by decide +kernel

end Verif.Props
