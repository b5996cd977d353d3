import Verif.Lemmas.File
import Verif.Props.Header
import Verif.Props.Instant
import Verif.Props.StringData
import Verif.Props.Info
import Verif.Props.File

/-
C12, C13, C14: whole well-formed links, alone, followed by other data, and one after another.
-/

namespace Verif.Props

open Spec LnkHeader

/-! ### sections -/

theorem TextAt.append {tp : TextProc} {raw : Bytes} {u : Bool} {off shift : Nat} {t : Option Text}
    (h : TextAt tp raw u off shift t) (rest : Bytes) : TextAt tp (raw ++ rest) u off shift t := by
  unfold TextAt at *
  split
  · rename_i h0; rwa [if_pos h0] at h
  · rename_i h0
    rw [if_neg h0] at h
    obtain ⟨x, h1, h2, h3⟩ := h
    exact ⟨x, h1, h2, h3.append rest⟩

theorem InfoIn.append {tp : TextProc} {raw : Bytes} {h : InfoHeader} {t : InfoTexts} (hi : InfoIn tp raw h t)
    (rest : Bytes) : InfoIn tp (raw ++ rest) h t :=
  ⟨hi.valid, hi.header.append rest, TextAt.append hi.base rest, TextAt.append hi.suffix rest,
    TextAt.append hi.wideBase rest, TextAt.append hi.wideSuffix rest⟩

theorem VolumeIn.append {tp : TextProc} {raw : Bytes} {off : Nat} {v : Volume} (h : VolumeIn tp raw off v)
    (rest : Bytes) : VolumeIn tp (raw ++ rest) off v :=
  ⟨h.wide, h.ne, h.here.append rest, h.valid, h.label.append rest⟩

theorem WideNameAt.append {tp : TextProc} {raw : Bytes} {base off : Nat} {t : Option Text}
    (h : WideNameAt tp raw base off t) (rest : Bytes) : WideNameAt tp (raw ++ rest) base off t := by
  unfold WideNameAt at *
  split
  · rename_i h0; rwa [if_pos h0] at h
  · rename_i h0
    rw [if_neg h0] at h
    obtain ⟨x, h1, h2, h3⟩ := h
    exact ⟨x, h1, h2, h3.append rest⟩

theorem NetLinkIn.append {tp : TextProc} {raw : Bytes} {off : Nat} {n : NetLink} (h : NetLinkIn tp raw off n)
    (rest : Bytes) : NetLinkIn tp (raw ++ rest) off n := by
  refine ⟨h.wide, h.here.append rest, ?_⟩
  have := h.names
  rcases hw : n.wide with _ | w
  · rw [hw] at this
    obtain ⟨⟨x, x1, x2, x3⟩, ⟨y, y1, y2, y3⟩⟩ := this
    exact ⟨⟨x, x1, x2, x3.append rest⟩, ⟨y, y1, y2, y3.append rest⟩⟩
  · rw [hw] at this
    exact ⟨WideNameAt.append this.1 rest, WideNameAt.append this.2 rest⟩

/-- The class of the object for a link info. -/
def infoClass (i : Info) : InfoClass :=
  match i.location with
  | .volume _ => .local
  | .network _ => .network

theorem processTargets_link (tp : TextProc) (s : ShellLink) (hv : s.Valid tp) (pre rest : Bytes) (h : LnkHeader)
    (hf : uAt 4 h.raw 20 = some s.flags) :
    LnkFile.processTargets tp (pre ++ (s.encodeTarget ++ rest)) h pre.length =
      pure (s.items.map fun l => ⟨tp, encodeIdList l ++ rest, encodeItems l ++ [0, 0]⟩, pre.length + s.encodeTarget.length) := by
  have hi := hv.hasItems
  unfold LnkFile.processTargets ShellLink.encodeTarget
  rw [hasFlag_bit hf (i := 0) rfl, pure_bind, ← hi, drop_append_exact rfl]
  rcases hs : s.items with _ | l
  · simp
  · obtain ⟨h1, h2⟩ := hv.items l hs
    simp only [Option.isSome_some, if_true, Option.map_some]
    rw [init_encodeIdList l rest h2, pure_bind]
    obtain ⟨t, ht, hsz, -⟩ := id_list_init tp l ⟨h1, h2⟩ rest
    rw [init_encodeIdList l rest h2] at ht
    have : t = ⟨tp, encodeIdList l ++ rest, encodeItems l ++ [0, 0]⟩ := by
      have := congrArg Py.res ht
      simpa using this.symm
    rw [← this, hsz]
    rfl

theorem processInfo_link (tp : TextProc) (s : ShellLink) (hv : s.Valid tp) (pre rest : Bytes) (h : LnkHeader)
    (hf : uAt 4 h.raw 20 = some s.flags) :
    LnkFile.processInfo tp (pre ++ (s.encodeInfo ++ rest)) h pre.length =
      pure (s.info.map fun i => (infoClass i, ⟨tp, i.raw ++ rest⟩), pre.length + s.encodeInfo.length) := by
  have hi := hv.hasInfo
  rw [info_processed tp _ h pre.length s.flags hf, drop_append_exact rfl, ← hi]
  unfold ShellLink.encodeInfo
  rcases hs : s.info with _ | i
  · simp
  · have hI := hv.info i hs
    have hh := hI.parts.header.append rest
    have h0 := LnkInfo.size_of (i := ⟨tp, i.raw ++ rest⟩) hh
    have h8 := LnkInfo.flags_of (i := ⟨tp, i.raw ++ rest⟩) hh
    have g0 : uAt 4 (i.raw ++ rest) 0 = some i.header.size.toNat := by
      have : LnkInfo.size ⟨tp, i.raw ++ rest⟩ = _ := unpackU_slice (i.raw ++ rest) 4 0 (by omega)
      rw [this] at h0
      rcases hu : uAt 4 (i.raw ++ rest) 0 with _ | x
      · rw [hu] at h0; simpa using congrArg Py.res h0
      · rw [hu] at h0; simpa using congrArg Py.res h0
    have g8 : uAt 4 (i.raw ++ rest) 8 = some i.header.flags.toNat := by
      have : LnkInfo.flags ⟨tp, i.raw ++ rest⟩ = _ := unpackU_slice (i.raw ++ rest) 4 8 (by omega)
      rw [this] at h8
      rcases hu : uAt 4 (i.raw ++ rest) 8 with _ | x
      · rw [hu] at h8; simpa using congrArg Py.res h8
      · rw [hu] at h8; simpa using congrArg Py.res h8
    simp only [Option.isSome_some, if_true, g0, g8, Option.map_some]
    have hl := hI.location
    unfold infoClass
    rcases hloc : i.location with v | n
    · rw [hloc] at hl
      simp only [hl.1, if_true, hI.size]
    · rw [hloc] at hl
      simp only [hl.1, hl.2.1, if_true, if_false, Bool.false_eq_true, hI.size]

/-- The blocks as they are stored. -/
def rawBlocks (s : ShellLink) : List RawBlock := s.blocks.map fun b => ⟨b.1.signature, b.1.payload ++ b.2⟩

theorem encodeBlocks_eq (s : ShellLink) : s.encodeBlocks = (rawBlocks s).flatMap RawBlock.encode := by
  unfold ShellLink.encodeBlocks rawBlocks
  rw [List.flatMap_map]
  rfl

/-- What the constructor makes of the header, the ID list and the link info of a well-formed link. -/
structure Head (tp : TextProc) (s : ShellLink) (f : LnkFile) : Prop where
  header : HeaderRaw s.header f.header.raw
  targetIndex : f.targetIndex = 78
  targets : ∃ rest, f.targets = s.items.map fun l => ⟨tp, encodeIdList l ++ rest, encodeItems l ++ [0, 0]⟩
  info : ∃ rest, f.info = s.info.map fun i => (infoClass i, ⟨tp, i.raw ++ rest⟩)

/-- What it makes of a well-formed link with other data after it. -/
structure Built (tp : TextProc) (s : ShellLink) (allow : Bool) (trailer : Bytes) (f : LnkFile) : Prop extends Head tp s f where
  strings : f.stringData.data = fieldTexts s.strings.fields
  extras : f.extras = ⟨(rawBlocks s).map (Extra.ofRaw tp) ++
    if allow = true ∧ trailer ≠ [] then [⟨.terminal, tp, le 4 0 ++ trailer⟩] else []⟩
  size : f.size = s.encode.length + if allow then trailer.length else 0

/-- The sections before the strings. -/
def head (s : ShellLink) : Bytes := s.header.encode ++ s.encodeTarget ++ s.encodeInfo

theorem flags_of_header {s : ShellLink} {h : LnkHeader} (hraw : HeaderRaw s.header h.raw) : uAt 4 h.raw 20 = some s.flags := by
  have h1 := rLinkFlags_enc hraw
  have h2 : h.rLinkFlags = _ := unpackU_slice h.raw 4 20 (by omega)
  rw [h2] at h1
  rcases hu : uAt 4 h.raw 20 with _ | x
  · rw [hu] at h1; simpa using congrArg Py.res h1
  · rw [hu] at h1; simpa [ShellLink.flags] using congrArg Py.res h1

/-- The first sections of a well-formed link are read as they are, whatever follows; then come strings and extra data. -/
theorem process_head (env : Env) (cp : Option String) (allow : Bool) (s : ShellLink)
    (hv : s.Valid (TextProc.mk' env cp)) (T : Bytes) :
    ∃ (h : LnkHeader) (F : StringData → ExtraData → Nat → LnkFile), HeaderRaw s.header h.raw ∧
      (LnkFile.process env cp allow (head s ++ T) = do
        let sd ← StringData.init h (TextProc.mk' env cp) T
        let x ← ExtraData.init (TextProc.mk' env cp) allow (T.drop sd.size)
        let n ← x.size
        pure (F sd x n)) ∧
      ∀ sd x n, Head (TextProc.mk' env cp) s (F sd x n) ∧ (F sd x n).stringData = sd ∧ (F sd x n).extras = x ∧
        (F sd x n).size = (head s).length + sd.size + n + min (T.length - (sd.size + n)) 4 := by
  generalize htp : TextProc.mk' env cp = tp at *
  have hsz : checkWarns "size" (.int 0x4C) (.int s.header.headerSize.toNat) = [] := by
    rw [hv.headerSize]; rfl
  have hdata : head s ++ T = s.header.encode ++ (s.encodeTarget ++ (s.encodeInfo ++ T)) := by
    rw [head]
    simp only [List.append_assoc]
  have hlen : (head s).length = 76 + s.encodeTarget.length + s.encodeInfo.length := by
    rw [head]
    simp
    omega
  have hhl : s.header.encode.length = 76 := by simp
  obtain ⟨R, hR⟩ : ∃ R, R = (s.header.encode ++ (s.encodeTarget ++ (s.encodeInfo ++ T))).take 76 := ⟨_, rfl⟩
  have hraw : HeaderRaw s.header (LnkHeader.mk R).raw := by
    rw [hR]
    exact HeaderRaw_take s.header _ 76 (Nat.le_refl _)
  have hflags := flags_of_header hraw
  have hT := processTargets_link tp s hv s.header.encode (s.encodeInfo ++ T) ⟨R⟩ hflags
  have hI := processInfo_link tp s hv (s.header.encode ++ s.encodeTarget) T ⟨R⟩ hflags
  rw [List.append_assoc, List.length_append] at hI
  have hd1 : (s.header.encode ++ (s.encodeTarget ++ (s.encodeInfo ++ T))).drop
      (76 + s.encodeTarget.length + s.encodeInfo.length) = T := by
    rw [← List.append_assoc, ← List.append_assoc, drop_append_exact (by simp; omega)]
  have hd2 : ∀ n, (s.header.encode ++ (s.encodeTarget ++ (s.encodeInfo ++ T))).drop
      (76 + s.encodeTarget.length + s.encodeInfo.length + n) = T.drop n := by
    intro n
    rw [← List.drop_drop, hd1]
  rw [hhl] at hT hI
  refine ⟨⟨R⟩, fun sd x n => ⟨s.header.encode ++ (s.encodeTarget ++ (s.encodeInfo ++ T)), ⟨R⟩, 76 + 2,
    s.items.map fun l => ⟨tp, encodeIdList l ++ (s.encodeInfo ++ T), encodeItems l ++ [0, 0]⟩,
    s.info.map fun i => (infoClass i, ⟨tp, i.raw ++ T⟩), sd, x,
    (head s).length + sd.size + n + min (T.length - (sd.size + n)) 4⟩, hraw, ?_,
    fun sd x n => ⟨⟨hraw, rfl, ⟨_, rfl⟩, ⟨_, rfl⟩⟩, rfl, rfl, rfl⟩⟩
  unfold LnkFile.process
  simp only [htp]
  rw [hdata, init_enc, hsz, hv.headerSize, ← hR]
  rw [show ∀ (x : LnkHeader) (g : LnkHeader → Py LnkFile), (bind (⟨[], .ok x⟩ : Py LnkHeader) g) = g x from
    fun x g => pure_bind x g]
  rw [size_enc hraw, hsz, hv.headerSize]
  rw [show ∀ (x : Nat) (g : Nat → Py LnkFile), (bind (⟨[], .ok x⟩ : Py Nat) g) = g x from fun x g => pure_bind x g]
  rw [hT, pure_bind]
  simp only
  rw [hI, pure_bind]
  simp only
  rw [hd1]
  refine bind_congr fun sd => ?_
  rw [hd2]
  refine bind_congr fun x => bind_congr fun n => congrArg pure (congrArg (LnkFile.mk _ _ _ _ _ _ _) ?_)
  simp only [List.length_drop, ← hdata]
  rw [List.length_append, hlen]
  omega

theorem process_link (env : Env) (cp : Option String) (allow : Bool) (s : ShellLink)
    (hv : s.Valid (TextProc.mk' env cp)) (trailer : Bytes) :
    ∃ f, LnkFile.process env cp allow (s.encode ++ trailer) = pure f ∧ Built (TextProc.mk' env cp) s allow trailer f := by
  generalize htp : TextProc.mk' env cp = tp at *
  obtain ⟨E, hE⟩ : ∃ E, E = s.encodeBlocks ++ (le 4 0 ++ trailer) := ⟨_, rfl⟩
  obtain ⟨S, hS⟩ : ∃ S, S = s.strings.encode (s.flags.testBit 7) := ⟨_, rfl⟩
  have hdata : s.encode ++ trailer = head s ++ (S ++ E) := by
    rw [ShellLink.encode, hE, hS, head]
    simp only [List.append_assoc]
  have hlen : s.encode.length = (head s).length + S.length + s.encodeBlocks.length + 4 := by
    rw [ShellLink.encode, head, hS]
    simp
    omega
  obtain ⟨h, F, hraw, hF, hall⟩ := process_head env cp allow s (htp ▸ hv) (S ++ E)
  rw [htp] at hF hall
  have hSt := string_data_roundtrip h tp s.flags (flags_of_header hraw) s.strings ⟨hv.announced, hv.strings⟩ E
  rw [← hS] at hSt
  have hfit : ∀ r ∈ rawBlocks s, r.Fits := by
    intro r hr
    obtain ⟨b, hb, rfl⟩ := List.mem_map.1 hr
    exact (hv.blocks b hb).2
  have hcut : Cut E ((rawBlocks s).map ExtraData.pieceOf ++ []) (le 4 0 ++ trailer) := by
    rw [hE, encodeBlocks_eq]
    exact ExtraData.cut_raw _ hfit (ExtraData.cut_stops (.inl ⟨trailer, rfl⟩))
  rw [List.append_nil] at hcut
  have hX := ExtraData.init_cut (tp := tp) (allow := allow) hcut
  have hXs := ExtraData.size_cut (tp := tp) (allow := allow) hcut
  have hall4 : ∀ p ∈ ExtraData.signed ((rawBlocks s).map ExtraData.pieceOf), 4 ≤ p.declared := by
    intro p hp
    obtain ⟨r, -, rfl⟩ := List.mem_map.1 (List.mem_filter.1 hp).1
    show 4 ≤ 8 + _
    omega
  rw [if_pos hall4] at hXs
  have hsum : ((ExtraData.signed ((rawBlocks s).map ExtraData.pieceOf)).map Piece.declared).sum = s.encodeBlocks.length := by
    rw [encodeBlocks_eq]
    clear hall4 hXs hX hcut hfit
    induction rawBlocks s with
    | nil => rfl
    | cons r l ih =>
      simp only [ExtraData.signed, List.map_cons] at ih ⊢
      rw [List.filter_cons, if_pos (by rfl), List.map_cons, List.sum_cons, ih, List.flatMap_cons, List.length_append,
        ExtraData.RawBlock_length]
      rfl
  rw [hsum] at hXs
  have hw : ExtraData.cutWarns ((rawBlocks s).map ExtraData.pieceOf) (le 4 0 ++ trailer) = [] := by
    rw [ExtraData.cutWarns_raw, ExtraData.cutWarns, ExtraData.uAt_le4 0 (by omega)]
    simp
  rw [hw, ExtraData.objects_raw] at hX
  rw [ExtraData.objects_raw] at hXs
  have htr : (4 < (le 4 0 ++ trailer).length) ↔ trailer ≠ [] := by
    rw [List.length_append, le_length, ← List.length_pos_iff]; omega
  simp only [htr] at hX hXs
  rw [hdata, hF, hSt, pure_bind]
  simp only
  rw [drop_append_exact rfl, hX]
  rw [show ∀ (x : ExtraData) (g : ExtraData → Py LnkFile), (bind (⟨[], .ok x⟩ : Py ExtraData) g) = g x from
    fun x g => pure_bind x g]
  rw [hXs, pure_bind]
  obtain ⟨h1, h2, h3, h4⟩ := hall ⟨fieldTexts s.strings.fields, S.length⟩ ⟨(rawBlocks s).map (Extra.ofRaw tp) ++
    if allow = true ∧ trailer ≠ [] then [⟨.terminal, tp, le 4 0 ++ trailer⟩] else []⟩
    (s.encodeBlocks.length + if allow = true ∧ trailer ≠ [] then (le 4 0 ++ trailer).length else 0)
  refine ⟨_, rfl, ⟨h1, by rw [h2], h3, ?_⟩⟩
  rw [h4, hlen, hE]
  cases allow
  · simp; omega
  · by_cases ht : trailer = []
    · subst ht; simp; omega
    · simp [ht]; omega

/-! ### the tree -/

/-- What the header must report for a FILETIME, and the warnings: nothing for zero; whole seconds exactly, anything else up
to 16 microseconds, as binary64 arithmetic gives it; outside the years 1 to 9999 nothing and a warning that quotes the bytes. -/
structure TimeRead (v : Int64) (r : Option DateTime) (w : List Warn) : Prop where
  zero : v = 0 → r = none ∧ w = []
  exact : ∀ d, ValidDateTime d → d.microsecond = 0 → v ≠ 0 → v.toInt = filetime d → r = some d
  near : ∀ d, r = some d → ValidDateTime d ∧ |filetime d - v.toInt| ≤ 160 ∧ w = []
  stamp : ∀ d, r = some d → Stamp v.toInt (instant d) ∧ ¬ OutOfCalendar v.toInt
  missing : v ≠ 0 → r = none → w = [.invalidFiletime (leI 8 v.toInt)] ∧ OutOfCalendar v.toInt

theorem time_read (v : Int64) : ∃ r w, parseFiletime (leI 8 v.toInt) = ⟨w, .ok r⟩ ∧ TimeRead v r w := by
  have hz : v = 0 → parseFiletime (leI 8 v.toInt) = pure none := by
    rintro rfl
    have : filetime ⟨1601, 1, 1, 0, 0, 0, 0⟩ = (0 : Int64).toInt := by simp [filetime]
    rw [← this]
    exact filetime_zero
  have hexact : ∀ d, ValidDateTime d → d.microsecond = 0 → v ≠ 0 → v.toInt = filetime d →
      parseFiletime (leI 8 v.toInt) = pure (some d) := by
    intro d h1 h2 h3 h4
    rw [h4]
    refine filetime_seconds_exact d h1 h2 ?_
    rintro rfl
    have : filetime ⟨1601, 1, 1, 0, 0, 0, 0⟩ = (0 : Int64).toInt := by simp [filetime]
    rw [this] at h4
    exact h3 (Int64.toInt_inj.1 h4)
  have key : ∀ r w, parseFiletime (leI 8 v.toInt) = ⟨w, .ok r⟩ →
      (∀ d, r = some d → ValidDateTime d ∧ w = []) → (v ≠ 0 → r = none → w = [.invalidFiletime (leI 8 v.toInt)]) →
      TimeRead v r w := by
    intro r w h h1 h2
    refine ⟨fun h0 => ?_, fun d a b c e => ?_, fun d hd => ?_, fun d hd => ?_, fun h0 hr => ⟨h2 h0 hr, ?_⟩⟩
    · have := hz h0
      rw [h] at this
      simpa [pure, Py.ret, and_comm] using this
    · have := hexact d a b c e
      rw [h] at this
      have := congrArg Py.res this
      simpa using this
    · refine ⟨(h1 d hd).1, ?_, (h1 d hd).2⟩
      refine filetime_error v d ?_
      unfold Py.Returns
      rw [h, hd]
    · by_cases h0 : v = 0
      · have := hz h0
        rw [h, hd] at this
        simp [pure, Py.ret] at this
      · obtain ⟨n, hn, -, -, ⟨-, hp⟩ | ⟨hc, d', -, hi, hp⟩⟩ := filetime_date v h0
        · rw [h, hd] at hp
          simp at hp
        · rw [h, hd] at hp
          have hp := congrArg Py.res hp
          simp only [Py.pure_res, Except.ok.injEq, Option.some.injEq] at hp
          rw [hp, hi]
          exact ⟨hn, hc⟩
    · obtain ⟨n, hn, -, -, ⟨hc, -⟩ | ⟨hc, d', -, hi, hp⟩⟩ := filetime_date v h0
      · exact hc
      · rw [h, hr] at hp
        have := congrArg Py.res hp
        simp at this
  rcases filetime_total (leI 8 v.toInt) (by simp) with ⟨hb, h⟩ | ⟨hb, d, hd, h⟩ | ⟨hb, h⟩
  · refine ⟨none, [], h, key _ _ h (by simp) fun h0 _ => ?_⟩
    have h1 := unpackI_leI8 v
    rw [hb] at h1
    have h2 : unpackI 8 (List.replicate 8 0) = pure 0 := rfl
    rw [h2] at h1
    have h3 := congrArg Py.res h1
    simp only [Py.pure_res, Except.ok.injEq] at h3
    exact absurd (by rw [← Int64.ofInt_toInt v, ← h3]; rfl) h0
  · exact ⟨some d, [], h, key _ _ h (fun e he => ⟨by simp only [Option.some.injEq] at he; exact he ▸ hd, rfl⟩) (by simp)⟩
  · exact ⟨none, _, h, key _ _ h (by simp) fun _ _ => rfl⟩

/-- The tree that must be reported for a link: `c`, `a`, `w` are the three times, `size` the total size, `extra` names and
contents of the extra blocks. -/
def linkReport (s : ShellLink) (c a w : Option DateTime) (size : Nat) (extra : List (String × Dict)) : Dict :=
  [("size", .int size), ("header", .dict (headerObject s.header c a w))] ++
    (s.items.toList.map fun l => ("target", .dict (targetObject l 78))) ++
    [ ("link_info", .dict ((s.info.map Info.report).getD [])), ("data", .dict (stringsObject s.strings)),
      ("extra", .dict (extraObject extra)) ]

/-- The warnings that go with it: a wrong CLSID, the three times, reserved fields that are not zero, the items of the ID
list, the blocks. -/
def linkWarns (s : ShellLink) (wc wa ww : List Warn) : List Warn :=
  warnUnless "link_cls_id" (.str shellLinkCLSID.text) (.str s.header.linkCLSID.text) ++ wc ++ wa ++ ww ++
    warnUnless "reserved0" (.int 0) (.int s.header.reserved1.toNat) ++
    warnUnless "reserved1" (.int 0) (.int s.header.reserved2.toNat) ++
    warnUnless "reserved2" (.int 0) (.int s.header.reserved3.toNat) ++
    (s.items.getD []).flatMap Item.warns ++ s.blocks.flatMap fun b => b.1.warns

/-- What is reported for the data after the terminal block. -/
def terminalReport (hash : Bytes → Str) (trailer : Bytes) : Dict :=
  [("size", .int (4 + trailer.length : Nat)), ("appended_data_sha256", .str (hash trailer))]

theorem terminal_report (tp : TextProc) (trailer : Bytes) :
    Extra.asDict ⟨.terminal, tp, le 4 0 ++ trailer⟩ = ⟨[], .ok (terminalReport tp.env.sha256hex trailer)⟩ := by
  have h2 : (le 4 0 ++ trailer).drop 4 = trailer := rfl
  unfold Extra.asDict Extra.size Extra.fields Extra.terminalFields
  rw [pure_bind, pure_bind, h2]
  rfl

theorem extras_link (tp : TextProc) (s : ShellLink) (hv : s.Valid tp) (allow : Bool) (trailer : Bytes) (f : LnkFile)
    (hb : Built tp s allow trailer f) :
    f.extras.asDict = ⟨s.blocks.flatMap fun b => b.1.warns,
      .ok (extraObject (s.blockReports tp.env.sha256hex ++
        if allow = true ∧ trailer ≠ [] then [("TERMINAL_BLOCK", terminalReport tp.env.sha256hex trailer)] else []))⟩ := by
  rw [hb.extras]
  have hblocks : ((rawBlocks s).map (Extra.ofRaw tp)).map Extra.asDict =
      (s.blocks.map fun b => (b.1.warns, b.1.report tp.env.sha256hex b.2)).map fun r => ⟨r.1, .ok r.2⟩ := by
    unfold rawBlocks
    rw [List.map_map, List.map_map, List.map_map]
    refine List.map_congr_left fun b hbm => ?_
    exact Extra.asDict_block b.1 b.2 (hv.blocks b hbm).1 (hv.blocks b hbm).2
  have hnames : ((rawBlocks s).map (Extra.ofRaw tp)).map (fun x => x.cls.name) =
      s.blocks.map fun b => blockName b.1.signature.toNat := by
    unfold rawBlocks
    rw [List.map_map, List.map_map]
    exact List.map_congr_left fun b _ => extraKind_name _
  have hzip : (s.blocks.map fun b => blockName b.1.signature.toNat).zip
      ((s.blocks.map fun b => (b.1.warns, b.1.report tp.env.sha256hex b.2)).map (·.2)) =
      s.blockReports tp.env.sha256hex := by
    rw [List.map_map, List.zip_map']
    rfl
  split
  · have ht : Extra.asDict ⟨.terminal, tp, le 4 0 ++ trailer⟩ = ⟨[], .ok (terminalReport tp.env.sha256hex trailer)⟩ :=
      terminal_report tp trailer
    rw [ExtraData.asDict_reports _ ((s.blocks.map fun b => (b.1.warns, b.1.report tp.env.sha256hex b.2)) ++
      [([], terminalReport tp.env.sha256hex trailer)]) (by
        rw [List.map_append, List.map_append, hblocks, List.map_cons, List.map_nil, ht]; rfl)]
    rw [List.map_append, hnames, List.map_append, List.zip_append (by simp), hzip, List.flatMap_append,
      List.flatMap_map, List.flatMap_cons, List.flatMap_nil, List.append_nil]
    simp only [List.append_nil]
    rfl
  · rw [List.append_nil, List.append_nil, ExtraData.asDict_reports _ _ hblocks, hnames, hzip, List.flatMap_map]

theorem header_link (tp : TextProc) (s : ShellLink) (hv : s.Valid tp) (f : LnkFile) (hb : Head tp s f) {c a w : Option DateTime} {wc wa ww : List Warn}
    (hc : parseFiletime (leI 8 s.header.creationTime.toInt) = ⟨wc, .ok c⟩)
    (ha : parseFiletime (leI 8 s.header.accessTime.toInt) = ⟨wa, .ok a⟩)
    (hw : parseFiletime (leI 8 s.header.writeTime.toInt) = ⟨ww, .ok w⟩) :
    f.jsonHeader = ⟨warnUnless "link_cls_id" (.str shellLinkCLSID.text) (.str s.header.linkCLSID.text) ++ wc ++ wa ++ ww ++
    warnUnless "reserved0" (.int 0) (.int s.header.reserved1.toNat) ++
    warnUnless "reserved1" (.int 0) (.int s.header.reserved2.toNat) ++
    warnUnless "reserved2" (.int 0) (.int s.header.reserved3.toNat), .ok (headerObject s.header c a w)⟩ := by
  have hr := hb.header
  have hsz : checkWarns "size" (.int 0x4C) (.int s.header.headerSize.toNat) = [] := by
    rw [hv.headerSize]; rfl
  unfold LnkFile.jsonHeader
  rw [linkClsId_enc hr, rLinkFlags_enc hr, linkFlags_enc hr, rFileFlags_enc hr, fileFlags_enc hr,
    creationTime_enc hr, accessTime_enc hr, writeTime_enc hr, fileSize_enc hr, iconIndex_enc hr,
    windowStyle_enc hr, hotKey_enc hr, rawHotKey_enc hr, size_enc hr, reserved0_enc hr, reserved1_enc hr,
    reserved2_enc hr, hc, ha, hw, hsz]
  simp only [bind, Py.andThen, pure, Py.ret, List.nil_append, List.append_nil, List.append_assoc]
  rfl

theorem target_link (tp : TextProc) (s : ShellLink) (hv : s.Valid tp) (f : LnkFile) (hb : Head tp s f) :
    f.jsonTarget = ⟨(s.items.getD []).flatMap Item.warns, .ok (s.items.map fun l => targetObject l 78)⟩ := by
  obtain ⟨rest, ht⟩ := hb.targets
  unfold LnkFile.jsonTarget
  rw [ht, hb.targetIndex]
  rcases hs : s.items with _ | l
  · rfl
  · obtain ⟨g1, g2⟩ := hv.items l hs
    have hg : GoodItems tp l := ⟨g1, g2⟩
    obtain ⟨t, e1, -, e3⟩ := id_list_init tp l hg rest
    have e4 := id_list_report tp l hg rest
    rw [init_encodeIdList l rest g2] at e1 e4
    have : t = ⟨tp, encodeIdList l ++ rest, encodeItems l ++ [0, 0]⟩ := by
      have := congrArg Py.res e1
      simpa using this.symm
    rw [pure_bind] at e4
    rw [this] at e3
    simp only [Option.map_some, Option.getD_some]
    rw [e3, pure_bind, e4]
    have hlen : (encodeIdList l).length - 2 = (encodeItems l).length + 2 := by simp [encodeIdList]
    simp only [bind, Py.andThen, pure, Py.ret, List.append_nil, hlen]
    rfl

theorem info_link (tp : TextProc) (s : ShellLink) (hv : s.Valid tp) (f : LnkFile) (hb : Head tp s f) :
    f.jsonInfo = pure ((s.info.map Info.report).getD []) := by
  obtain ⟨rest, hi⟩ := hb.info
  rcases hs : s.info with _ | i
  · rw [hs] at hi
    unfold LnkFile.jsonInfo
    rw [hi]
    rfl
  · rw [hs, Option.map_some] at hi
    have hI := hv.info i hs
    have hl := hI.location
    unfold infoClass at hi
    simp only [Option.map_some, Option.getD_some, Info.report]
    rcases hloc : i.location with v | n
    · rw [hloc] at hl hi
      exact local_info_report f tp _ hi _ _ v (InfoIn.append hI.parts rest) (VolumeIn.append hl.2 rest)
    · rw [hloc] at hl hi
      exact network_info_report f tp _ hi _ _ n (InfoIn.append hI.parts rest) (NetLinkIn.append hl.2.2 rest)

/-- The tree with the given strings and extra blocks. -/
def headReport (s : ShellLink) (c a w : Option DateTime) (size : Nat) (data extra : Dict) : Dict :=
  [("size", .int size), ("header", .dict (headerObject s.header c a w))] ++
    (s.items.toList.map fun l => ("target", .dict (targetObject l 78))) ++
    [("link_info", .dict ((s.info.map Info.report).getD [])), ("data", .dict data), ("extra", .dict extra)]

/-- The warnings of the sections before the extra data. -/
def headWarns (s : ShellLink) (wc wa ww : List Warn) : List Warn :=
  warnUnless "link_cls_id" (.str shellLinkCLSID.text) (.str s.header.linkCLSID.text) ++ wc ++ wa ++ ww ++
    warnUnless "reserved0" (.int 0) (.int s.header.reserved1.toNat) ++
    warnUnless "reserved1" (.int 0) (.int s.header.reserved2.toNat) ++
    warnUnless "reserved2" (.int 0) (.int s.header.reserved3.toNat) ++
    (s.items.getD []).flatMap Item.warns

/-- The tree of an object whose first sections are those of a well-formed link. -/
theorem json_head (tp : TextProc) (s : ShellLink) (hv : s.Valid tp) :
    ∃ c a w wc wa ww, TimeRead s.header.creationTime c wc ∧ TimeRead s.header.accessTime a wa ∧
      TimeRead s.header.writeTime w ww ∧
      ∀ f, Head tp s f → f.getJson true = ⟨headWarns s wc wa ww ++ f.extras.asDict.warns,
        f.extras.asDict.res.map (headReport s c a w f.size f.stringData.asDict)⟩ := by
  obtain ⟨c, wc, hc, tc⟩ := time_read s.header.creationTime
  obtain ⟨a, wa, ha, ta⟩ := time_read s.header.accessTime
  obtain ⟨w, ww, hw, tw⟩ := time_read s.header.writeTime
  refine ⟨c, a, w, wc, wa, ww, tc, ta, tw, fun f hb => ?_⟩
  have h1 := header_link tp s hv f hb hc ha hw
  have h2 := target_link tp s hv f hb
  have h3 := info_link tp s hv f hb
  unfold LnkFile.getJson
  rw [h1, h2, h3]
  generalize f.extras.asDict = e
  rcases e with ⟨we, er | d⟩
  · simp only [bind, Py.andThen, pure, Py.ret, List.nil_append, List.append_nil]
    unfold headWarns
    refine congrArg₂ Py.mk ?_ rfl
    simp only [List.append_assoc]
  · simp only [bind, Py.andThen, pure, Py.ret, List.nil_append, List.append_nil, if_true]
    unfold headWarns headReport
    generalize headerObject _ _ _ _ = hd
    refine congrArg₂ Py.mk ?_ (congrArg Except.ok ?_)
    · simp only [List.append_assoc]
    · rcases s.items with _ | l <;> rfl

theorem json_link (tp : TextProc) (s : ShellLink) (hv : s.Valid tp) (allow : Bool) (trailer : Bytes) (f : LnkFile)
    (hb : Built tp s allow trailer f) :
    ∃ c a w wc wa ww, TimeRead s.header.creationTime c wc ∧ TimeRead s.header.accessTime a wa ∧
      TimeRead s.header.writeTime w ww ∧
      f.getJson true = ⟨linkWarns s wc wa ww, .ok (linkReport s c a w f.size (s.blockReports tp.env.sha256hex ++
        if allow = true ∧ trailer ≠ [] then [("TERMINAL_BLOCK", terminalReport tp.env.sha256hex trailer)] else []))⟩ := by
  obtain ⟨c, a, w, wc, wa, ww, tc, ta, tw, h⟩ := json_head tp s hv
  refine ⟨c, a, w, wc, wa, ww, tc, ta, tw, ?_⟩
  have h5 : f.stringData.asDict = stringsObject s.strings := by
    have : f.stringData = ⟨fieldTexts s.strings.fields, f.stringData.size⟩ := by rw [← hb.strings]
    rw [this, string_data_dict]
    rfl
  rw [h f hb.toHead, extras_link tp s hv allow trailer f hb, h5]
  rfl

theorem encode_ne_nil (s : ShellLink) (rest : Bytes) : s.encode ++ rest ≠ [] := by
  intro h
  have := congrArg List.length h
  simp [ShellLink.encode] at this

theorem init_of_process (env : Env) (cp : Option String) (allow : Bool) (src : Source) (hne : src.bytes ≠ [])
    {f : LnkFile} (h : LnkFile.process env cp allow src.bytes = pure f) : LnkFile.init env cp allow src = pure f := by
  rcases src with b | b
  · exact h
  · have hne : b ≠ [] := hne
    show (if _ then _ else _) = _
    rw [if_neg hne]
    exact h

/-- The constructor accepts `src` without a warning; the object has the given size and its tree (with the given extra
blocks) is that of `s`. -/
def Parses (env : Env) (cp : Option String) (allow : Bool) (src : Source) (s : ShellLink) (size : Nat)
    (extra : List (String × Dict)) (f : LnkFile) : Prop :=
  LnkFile.init env cp allow src = pure f ∧ f.size = size ∧
    ∃ c a w wc wa ww, TimeRead s.header.creationTime c wc ∧ TimeRead s.header.accessTime a wa ∧
      TimeRead s.header.writeTime w ww ∧
      f.getJson true = ⟨linkWarns s wc wa ww, .ok (linkReport s c a w size extra)⟩

theorem parses_link (env : Env) (cp : Option String) (allow : Bool) (s : ShellLink) (hv : s.Valid (TextProc.mk' env cp))
    (trailer : Bytes) (src : Source) (hs : src.bytes = s.encode ++ trailer) :
    ∃ f, Parses env cp allow src s (s.encode.length + if allow then trailer.length else 0)
      (s.blockReports env.sha256hex ++
        if allow = true ∧ trailer ≠ [] then [("TERMINAL_BLOCK", terminalReport env.sha256hex trailer)] else []) f ∧
      Built (TextProc.mk' env cp) s allow trailer f := by
  obtain ⟨f, h, hb⟩ := process_link env cp allow s hv trailer
  have hi := init_of_process env cp allow src (by rw [hs]; exact encode_ne_nil s trailer) (f := f) (by rw [hs, h])
  refine ⟨f, ⟨hi, hb.size, ?_⟩, hb⟩
  have := json_link _ s hv allow trailer f hb
  rwa [hb.size] at this

/-! ### C12 -/

/-- C12: a well-formed link is accepted without a warning, its size is the length of the file, and every section is
reported with the encoded contents. -/
theorem link_roundtrip (env : Env) (cp : Option String) (allow : Bool) (s : ShellLink)
    (hv : s.Valid (TextProc.mk' env cp)) (src : Source) (hs : src.bytes = s.encode) :
    ∃ f, Parses env cp allow src s s.encode.length (s.blockReports env.sha256hex) f := by
  obtain ⟨f, h, -⟩ := parses_link env cp allow s hv [] src (by rw [hs, List.append_nil])
  refine ⟨f, ?_⟩
  simpa using h

/-! ### C14 -/

/-- C14: with terminal blocks allowed, data after a well-formed link is reported: its length, its digest, and the size
of the link counts it. -/
theorem appended_data (env : Env) (cp : Option String) (s : ShellLink) (hv : s.Valid (TextProc.mk' env cp))
    (trailer : Bytes) (hne : trailer ≠ []) (src : Source) (hs : src.bytes = s.encode ++ trailer) :
    ∃ f, Parses env cp true src s (s.encode ++ trailer).length (s.blockReports env.sha256hex ++
      [("TERMINAL_BLOCK", [("size", .int (4 + trailer.length : Nat)),
        ("appended_data_sha256", .str (env.sha256hex trailer))])]) f := by
  obtain ⟨f, h, -⟩ := parses_link env cp true s hv trailer src hs
  refine ⟨f, ?_⟩
  simpa [hne, terminalReport] using h

/-- The report of the appended data is in the tree: no block of the link has the name. -/
theorem appended_data_present (env : Env) (s : ShellLink) (trailer : Bytes) :
    Dict.get? (extraObject (s.blockReports env.sha256hex ++
      [("TERMINAL_BLOCK", [("size", .int (4 + trailer.length : Nat)),
        ("appended_data_sha256", .str (env.sha256hex trailer))])])) "TERMINAL_BLOCK" =
      some (.dict [("size", .int (4 + trailer.length : Nat)), ("appended_data_sha256", .str (env.sha256hex trailer))]) := by
  rw [ExtraData.get_object, if_pos (by simp), if_neg (by decide)]
  simp [named, List.filter_append]

/-! ### C13 -/

/-- C13: with terminal blocks not allowed, a well-formed link followed by any bytes is reported exactly as without them,
in both variants of the tree, and its size is its own length. -/
theorem trailer_ignored (env : Env) (cp : Option String) (s : ShellLink) (hv : s.Valid (TextProc.mk' env cp))
    (trailer : Bytes) (src alone : Source) (hs : src.bytes = s.encode ++ trailer) (ha : alone.bytes = s.encode) :
    ∃ f g, Parses env cp false src s s.encode.length (s.blockReports env.sha256hex) f ∧
      Parses env cp false alone s s.encode.length (s.blockReports env.sha256hex) g ∧
      ∀ all, f.getJson all = g.getJson all := by
  obtain ⟨f, h, hb⟩ := parses_link env cp false s hv trailer src hs
  obtain ⟨g, h', hb'⟩ := parses_link env cp false s hv [] alone (by rw [ha, List.append_nil])
  refine ⟨f, g, by simpa using h, by simpa using h', fun all => ?_⟩
  obtain ⟨c, wc, hc, -⟩ := time_read s.header.creationTime
  obtain ⟨a, wa, ha, -⟩ := time_read s.header.accessTime
  obtain ⟨w, ww, hw, -⟩ := time_read s.header.writeTime
  unfold LnkFile.getJson
  rw [header_link _ s hv f hb.toHead hc ha hw, header_link _ s hv g hb'.toHead hc ha hw, target_link _ s hv f hb.toHead,
    target_link _ s hv g hb'.toHead, info_link _ s hv f hb.toHead, info_link _ s hv g hb'.toHead, hb.extras, hb'.extras,
    h.2.1, h'.2.1]
  have : f.stringData.asDict = g.stringData.asDict := by
    unfold StringData.asDict; rw [hb.strings, hb'.strings]
  rw [this]
  simp

/-- Going through data link by link: parse, then step forward by the size reported. -/
inductive Walk (env : Env) (cp : Option String) : Bytes → List LnkFile → Prop
  | done : Walk env cp [] []
  | step (b : Bytes) (f : LnkFile) (fs : List LnkFile) : b ≠ [] →
      (LnkFile.init env cp false (.indata b)).res = .ok f → Walk env cp (b.drop f.size) fs → Walk env cp b (f :: fs)

theorem Walk.unique {env : Env} {cp : Option String} {b : Bytes} {fs gs : List LnkFile} (h : Walk env cp b fs)
    (h' : Walk env cp b gs) : fs = gs := by
  induction h generalizing gs with
  | done => cases h' with
    | done => rfl
    | step _ _ _ h => exact absurd rfl h
  | step b f fs h1 h2 _ ih => cases h' with
    | done => exact absurd rfl h1
    | step _ g gs _ h4 h5 =>
      rw [h2] at h4
      obtain rfl : f = g := by simpa using h4
      rw [ih h5]

/-- C13: going through a concatenation of links visits exactly each of them, in order, each reported as itself. -/
theorem walk_links (env : Env) (cp : Option String) (links : List ShellLink)
    (hv : ∀ s ∈ links, s.Valid (TextProc.mk' env cp)) :
    ∃ fs, (∀ gs, Walk env cp (links.flatMap ShellLink.encode) gs ↔ gs = fs) ∧
      List.Forall₂ (fun s f => ∃ rest,
        Parses env cp false (.indata (s.encode ++ rest)) s s.encode.length (s.blockReports env.sha256hex) f) links fs := by
  induction links with
  | nil =>
    refine ⟨[], fun gs => ⟨fun h => h.unique .done, ?_⟩, .nil⟩
    rintro rfl
    exact .done
  | cons s l ih =>
    obtain ⟨fs, h1, h2⟩ := ih fun x hx => hv x (List.mem_cons_of_mem _ hx)
    obtain ⟨f, h, -⟩ := parses_link env cp false s (hv s List.mem_cons_self) (l.flatMap ShellLink.encode)
      (.indata (s.encode ++ l.flatMap ShellLink.encode)) rfl
    simp only [Bool.false_eq_true, if_false, false_and, List.append_nil, Nat.add_zero] at h
    have hw : Walk env cp ((s :: l).flatMap ShellLink.encode) (f :: fs) := by
      rw [List.flatMap_cons]
      refine .step _ f fs (encode_ne_nil _ _) (by rw [h.1]; rfl) ?_
      rw [h.2.1, drop_append_exact rfl]
      exact (h1 fs).2 rfl
    refine ⟨f :: fs, fun gs => ⟨fun hg => hg.unique hw, ?_⟩, .cons ⟨_, h⟩ h2⟩
    rintro rfl
    exact hw

/-! ### an example -/

/-- A link with all sections. -/
def exampleLink : ShellLink :=
  ⟨⟨76, shellLinkCLSID, 0xA7, 0x20, 128920196520000000, 0, 0, 1234, -3, 7, 0x74, 4, 0, 0, 0⟩, some exampleItems,
    some ⟨exampleLocal.encode, exampleLocal.header, exampleLocal.texts, .volume exampleLocal.volume⟩, exampleStrings,
    [(.tracker exampleTracker, []), (.other 0xA0000042 [9, 9], [])]⟩

theorem exampleLink_valid (env : Env) : exampleLink.Valid (TextProc.mk' env none) := by
  obtain ⟨h1, h2, h3⟩ := local_info_encode _ _ (exampleLocal_valid env) []
  rw [List.append_nil] at h1 h2
  refine ⟨rfl, by decide +kernel, ?_, by decide +kernel, ?_, ?_, ?_, ?_⟩
  · rintro l ⟨rfl⟩
    exact ⟨(exampleItems_good _).valid, (exampleItems_good (TextProc.mk' env none)).small⟩
  · rintro i ⟨rfl⟩
    exact ⟨h1, by decide +kernel, by decide +kernel, h2⟩
  · intro f hf
    simp only [Strings.fields, List.mem_cons, List.not_mem_nil, or_false] at hf
    rcases hf with rfl | rfl | rfl | rfl | rfl <;> decide
  · exact (exampleStrings_good _).valid
  · intro b hb
    simp only [exampleLink, List.mem_cons, List.not_mem_nil, or_false] at hb
    rcases hb with rfl | rfl
    · exact ⟨exampleTracker_valid env, by decide +kernel⟩
    · exact ⟨by show blockName _ = _; decide +kernel, by decide +kernel⟩

example (env : Env) : ∃ f, LnkFile.init env none true (.indata exampleLink.encode) = pure f ∧ f.size = 347 := by
  obtain ⟨f, h1, h2, -⟩ := link_roundtrip env none true exampleLink (exampleLink_valid env) (.indata exampleLink.encode) rfl
  exact ⟨f, h1, by rw [h2]; decide +kernel⟩

/-- The three bytes after the link are reported; the creation time is a whole second and comes out exactly. -/
example (env : Env) : ∃ f j, LnkFile.init env none true (.fhandle (exampleLink.encode ++ [1, 2, 3])) = pure f ∧
    (f.getJson true).res = .ok j ∧ Dict.get? j "size" = some (.int 350) ∧
    Dict.get? j "header" = some (.dict (headerObject exampleLink.header (some ⟨2009, 7, 14, 4, 34, 12, 0⟩) none none)) ∧
    Dict.get? j "data" = some (.dict [("description", .str "Größe".toList), ("command_line_arguments", .str "-x 😀".toList)]) ∧
    Dict.get? j "extra" = some (.dict [
      ("DISTRIBUTED_LINK_TRACKER_BLOCK", .dict ((Block.tracker exampleTracker).report env.sha256hex [])),
      ("UNKNOWN_BLOCK", .list [.dict [("size", .int 10), ("extra_data_sha256", .str (env.sha256hex [0x42, 0, 0, 0xA0, 9, 9]))]]),
      ("TERMINAL_BLOCK", .dict [("size", .int 7), ("appended_data_sha256", .str (env.sha256hex [1, 2, 3]))])]) := by
  obtain ⟨f, h1, h2, c, a, w, wc, wa, ww, tc, ta, tw, h3⟩ := appended_data env none exampleLink (exampleLink_valid env)
    [1, 2, 3] (by decide) (.fhandle (exampleLink.encode ++ [1, 2, 3])) rfl
  have e1 : c = some ⟨2009, 7, 14, 4, 34, 12, 0⟩ :=
    tc.exact _ (by decide +kernel) rfl (by decide) (by decide +kernel)
  obtain ⟨rfl, e2⟩ := ta.zero rfl
  obtain ⟨rfl, e3⟩ := tw.zero rfl
  obtain ⟨-, -, e4⟩ := tc.near _ e1
  subst e1 e2 e3 e4
  have hl : (exampleLink.encode ++ [1, 2, 3]).length = 350 := by decide +kernel
  refine ⟨f, linkReport exampleLink _ none none _ _, h1, by rw [h3], ?_, ?_, ?_, ?_⟩
  · rw [hl]; rfl
  · rfl
  · rfl
  · rfl

end Verif.Props
