import Verif.Lemmas.Messages
import Verif.Props.Warnings

/-
C76: what the message of a warning tells its reader.
-/

namespace Verif.Props

open Spec Py

namespace Messages

open Verif.Messages

/-- Reading the message of a warning: it is clear, and what is read is true. -/
def Readable (b : Bytes) (L : Layout) (l : List Piece) (last : Bytes) (w : Warn) : Prop :=
  Clear w ∧ ∀ q, NoticeTrue b L l last (noticeOf q w)

theorem blockName_mark (s : Nat) : '`' ∉ (blockName s).toList := by
  have h : ∀ x ∈ blockNames.map (·.2), '`' ∉ x.toList := by decide +kernel
  unfold blockName
  rcases hl : blockNames.lookup s with _ | x
  · decide +kernel
  · rw [Option.getD_some]
    obtain ⟨l₁, l₂, hs, -⟩ := List.lookup_eq_some_iff.1 hl
    refine h x (List.mem_map.2 ⟨(s, x), ?_, rfl⟩)
    rw [hs]
    simp

theorem number_clear {func : String} (hf : func ∈ fieldNames) (hn : func ≠ "link_cls_id") (m n : Nat) :
    Clear (.mustBe func (.int m) (.int n)) :=
  ⟨hf, (marks_decStr m).2.1, ⟨fun _ => hn, fun _ => ⟨n, rfl⟩⟩, ⟨fun _ => hn, fun _ => ⟨m, rfl⟩⟩⟩

theorem header_notice {b : Bytes} {L : Layout} {l : List Piece} {last : Bytes} {w : Warn} (h : HeaderWarn b w) :
    Readable b L l last w := by
  cases h with
  | size hn hne =>
    refine ⟨number_clear (by decide) (by decide) _ _, fun q => .mustBe ?_⟩
    simp only [MustVal.text, decStr_eq]
    exact .header (len := 4) (by simp) hn hne
  | classId hg hne =>
    refine ⟨⟨by decide, ?_, ⟨?_, ?_⟩, ⟨?_, ?_⟩⟩, fun q => .mustBe (.classId hg hne)⟩
    · show ':' ∉ shellLinkCLSID.text
      decide +kernel
    all_goals simp
  | reserved0 hn hne =>
    refine ⟨number_clear (by decide) (by decide) _ _, fun q => .mustBe ?_⟩
    simp only [MustVal.text, decStr_eq]
    exact .header (len := 2) (by simp) hn hne
  | reserved1 hn hne =>
    refine ⟨number_clear (by decide) (by decide) _ _, fun q => .mustBe ?_⟩
    simp only [MustVal.text, decStr_eq]
    exact .header (len := 4) (by simp) hn hne
  | reserved2 hn hne =>
    refine ⟨number_clear (by decide) (by decide) _ _, fun q => .mustBe ?_⟩
    simp only [MustVal.text, decStr_eq]
    exact .header (len := 4) (by simp) hn hne
  | time ho hb hv hr =>
    refine ⟨trivial, fun q => ?_⟩
    show NoticeTrue _ _ _ _ (.filetime _)
    rw [← hb]
    exact .filetime ho hb hv hr

theorem item_notice {b : Bytes} {L : Layout} {l : List Piece} {last : Bytes} {w : Warn}
    (hL : L.flags.testBit 0 = true ∨ ∃ p ∈ l, p.signature = some 0xA000000C) (h : ItemWarn w) : Readable b L l last w := by
  cases h with
  | type h1 h2 => exact ⟨h1, fun q => .item hL ⟨h1, h2⟩⟩
  | kind h1 h2 => exact ⟨Nat.lt_trans h1 (by decide), fun q => .item hL ⟨h1, h2⟩⟩
  | category h1 h2 => exact ⟨trivial, fun q => .item hL ⟨h1, h2⟩⟩
  | sortIndex h1 h2 => exact ⟨h1, fun q => .item hL ⟨h1, h2⟩⟩
  | time h1 h2 h3 h4 h5 => exact ⟨trivial, fun q => .item hL ⟨_, _, h1, h2, h3, h4, h5⟩⟩
  | text s => exact ⟨trivial, fun q => .text _⟩

theorem piece_notice {b : Bytes} {L : Layout} {l : List Piece} {last : Bytes} {w : Warn} {p : Piece} (hp : p ∈ l) (h : PieceWarn p w) :
    Readable b L l last w := by
  cases h with
  | unreadable hs hr he => exact ⟨blockName_mark _, fun q => .block hp hs hr⟩
  | field h =>
    cases h with
    | length hs hn hne =>
      refine ⟨number_clear (by decide) (by decide) _ _, fun q => .mustBe ?_⟩
      simp only [MustVal.text, decStr_eq]
      exact .tracker (by simp) hp hs hn hne
    | version hs hn hne =>
      refine ⟨number_clear (by decide) (by decide) _ _, fun q => .mustBe ?_⟩
      simp only [MustVal.text, decStr_eq]
      exact .tracker (by simp) hp hs hn hne
    | item hs hi => exact item_notice (.inr ⟨p, hp, hs⟩) hi
    | text s => exact ⟨trivial, fun q => .text _⟩

/-- The warnings of a file are readable. -/
theorem file_readable (env : Env) (cp : Option String) (hcp : UsableCodePage (TextProc.mk' env cp)) (allow : Bool) (src : Source)
    (f : LnkFile) (hf : (LnkFile.init env cp allow src).res = .ok f) :
    ∃ L l last, layout src.bytes = some L ∧ Cut (src.bytes.drop L.extraAt) l last ∧
      ∀ w, w ∈ (LnkFile.init env cp allow src).warns ∨ (∃ all, w ∈ (f.getJson all).warns) → Readable src.bytes L l last w := by
  obtain ⟨L, l, last, texts, hL, hc, ht, hw⟩ := construction_warnings env cp hcp allow src f hf
  obtain ⟨L', l', last', hL', hc', hr⟩ := report_warnings env cp hcp allow src f hf
  obtain rfl : L = L' := Option.some.inj (hL.symm.trans hL')
  obtain ⟨rfl, rfl⟩ := cut_unique hc hc'
  refine ⟨L, l, last, hL, hc, ?_⟩
  rintro w (h | ⟨all, h⟩)
  · rw [hw] at h
    simp only [List.mem_append] at h
    rcases h with ((((h | h) | h) | h) | h) | h
    · split at h
      · cases h
      · rename_i h76
        rw [List.eq_of_mem_replicate h]
        have h0 : uAt 4 src.bytes 0 = some L.headerSize := by
          clear hw hr hc hc' hL' h h76 ht
          unfold layout at hL
          rcases h0 : uAt 4 src.bytes 0 with _ | hs
          · rw [h0] at hL
            cases hL
          · rw [h0] at hL
            dsimp only at hL
            split at hL
            · cases hL
            · split at hL
              · cases hL
              · rw [← Option.some.inj hL]
        exact header_notice (.size h0 h76)
    · split at h
      · rename_i hi
        rw [List.mem_singleton.1 h]
        exact ⟨trivial, fun q => .infoFlags hi.1 hi.2⟩
      · cases h
    · obtain ⟨s, rfl⟩ := ht w h
      exact ⟨trivial, fun q => .text _⟩
    · split at h
      · rename_i hs
        rw [List.mem_singleton.1 h]
        exact ⟨trivial, fun q => .strings hs⟩
      · cases h
    · obtain ⟨hne, rfl⟩ := List.mem_replicate.1 h
      obtain ⟨p, hp⟩ := List.exists_mem_of_length_pos (Nat.pos_of_ne_zero hne)
      obtain ⟨hp, hn⟩ := List.mem_filter.1 hp
      exact ⟨trivial, fun q => .blockSignature hp (by simpa using hn)⟩
    · split at h
      · rename_i hl
        rw [List.mem_singleton.1 h]
        exact ⟨trivial, fun q => .blockSize hl.1 hl.2⟩
      · cases h
  · rcases hr all w h with h | ⟨h0, h⟩ | ⟨-, s, rfl⟩ | ⟨p, hp, h⟩
    · exact header_notice h
    · exact item_notice (.inl h0) h
    · exact ⟨trivial, fun q => .text _⟩
    · exact piece_notice hp h

end Messages

/-! ### C76 -/

/-- C76: every message of the constructor and of `get_json` can be read, by its text alone and whatever exception it quotes, and what
it says about the file is true. -/
theorem messages_true (env : Env) (cp : Option String) (hcp : UsableCodePage (TextProc.mk' env cp)) (allow : Bool) (src : Source)
    (f : LnkFile) (hf : (LnkFile.init env cp allow src).res = .ok f) :
    ∃ L l last, layout src.bytes = some L ∧ Cut (src.bytes.drop L.extraAt) l last ∧
      ∀ w, w ∈ (LnkFile.init env cp allow src).warns ∨ (∃ all, w ∈ (f.getJson all).warns) → ∀ q,
        ∃ n, Messages.readMessage (w.text q) = some n ∧ NoticeTrue src.bytes L l last n := by
  obtain ⟨L, l, last, hL, hc, h⟩ := Messages.file_readable env cp hcp allow src f hf
  exact ⟨L, l, last, hL, hc, fun w hw q => ⟨_, Verif.Messages.read_text q w (h w hw).1, (h w hw).2 q⟩⟩

/-- C76: two warnings, of the same file or of two, with the same message say the same: they agree except for the text that cannot be
decoded and the exception that keeps a block from being reported. -/
theorem messages_distinct (env env' : Env) (cp cp' : Option String) (hcp : UsableCodePage (TextProc.mk' env cp))
    (hcp' : UsableCodePage (TextProc.mk' env' cp')) (allow allow' : Bool) (src src' : Source)
    (f f' : LnkFile) (hf : (LnkFile.init env cp allow src).res = .ok f) (hf' : (LnkFile.init env' cp' allow' src').res = .ok f')
    (w w' : Warn) (hw : w ∈ (LnkFile.init env cp allow src).warns ∨ ∃ all, w ∈ (f.getJson all).warns)
    (hw' : w' ∈ (LnkFile.init env' cp' allow' src').warns ∨ ∃ all, w' ∈ (f'.getJson all).warns)
    (q q' : Quote) (h : w.text q = w'.text q') : blurred w = blurred w' := by
  obtain ⟨_, _, _, -, -, h1⟩ := Messages.file_readable env cp hcp allow src f hf
  obtain ⟨_, _, _, -, -, h2⟩ := Messages.file_readable env' cp' hcp' allow' src' f' hf'
  refine Verif.Messages.notice_inj (h1 w hw).1 (h2 w' hw').1 (q := q) (q' := q') ?_
  have := congrArg Messages.readMessage h
  rw [Verif.Messages.read_text q w (h1 w hw).1, Verif.Messages.read_text q' w' (h2 w' hw').1] at this
  exact Option.some.inj this

/-- C76: the message about a text that cannot be decoded starts with that text. -/
theorem decode_message (s : Str) (q : Quote) :
    ∃ rest, Messages.readMessage ((Warn.decode s).text q) = some (.text (s ++ '`' :: ' ' :: '(' :: rest)) :=
  ⟨q.exc ++ [')'], by
    rw [Verif.Messages.read_text q (.decode s) trivial, Verif.Messages.noticeOf, Verif.Messages.assoc4]
    rfl⟩

/-- The messages the examples of C72 give, and some more. -/
example (q : Quote) : (Warn.mustBe "length" (.int 0x58) (.int 1)).text q = "length must be 88: 1".toList ∧
    (Warn.invalidFiletime [0, 0, 0, 0, 0, 0xab, 0xff, 0x7f]).text q = "Invalid filetime: 00 00 00 00 00 ab ff 7f".toList ∧
    (Warn.itemType 0x0d).text q = ("Not implemented item_type 0x0D in TargetFactory.SHELL_ITEM_CLASSES. " ++
      "Use fallback value: <class 'LnkParse3.target.unknown.Unknown'>.").toList ∧
    (Warn.category 12).text q = ("Not implemented category_id 12 in ControlPanelCategory.CATEGORIES. " ++
      "Use fallback value: \"Unknown\".").toList ∧
    (Warn.sortIndex 0x70).text q = ("Not implemented sort_index_value 70 in RootFolder.SORT_INDEX. " ++
      "Use fallback value: \"Unknown\".").toList := by
  refine ⟨?_, ?_, ?_, ?_, ?_⟩ <;> (unfold Warn.text; dsimp only; decide +kernel)

example (e : Str) : (Warn.extraBlock "CONSOLE_PROPERTIES_BLOCK" .structError).text ⟨"unpack requires a buffer of 2 bytes".toList, false⟩ =
    "Error while parsing `CONSOLE_PROPERTIES_BLOCK` (unpack requires a buffer of 2 bytes)".toList ∧
    (Warn.decode ['a', '`']).text ⟨e, false⟩ = "Error while decoding string `a`` (".toList ++ e ++ [')'] := by
  refine ⟨by decide +kernel, rfl⟩

/-- A file with such messages: `oddTracker`, and what its reader learns from one of them. -/
example (env : Env) (allow all : Bool) (f : LnkFile) (hf : (LnkFile.init env none allow (.indata oddTracker)).res = .ok f)
    (hw : .mustBe "length" (.int 0x58) (.int 1) ∈ (f.getJson all).warns) (q : Quote) :
    ∃ l last, Cut (oddTracker.drop 76) l last ∧
      NoticeTrue oddTracker ⟨76, 0, 76, 76, 76⟩ l last (.mustBe "length".toList "88".toList "1".toList) := by
  obtain ⟨L, l, last, hL, hc, h⟩ := messages_true env none (usable_default env) allow _ f hf
  obtain ⟨n, h1, h2⟩ := h _ (.inr ⟨all, hw⟩) q
  simp only [Source.bytes] at hL hc h2
  rw [oddTracker_layout] at hL
  cases hL
  have e : (Warn.mustBe "length" (.int 0x58) (.int 1)).text q = "length must be 88: 1".toList := by
    unfold Warn.text; dsimp only; decide +kernel
  rw [e] at h1
  have : Messages.readMessage "length must be 88: 1".toList = some (.mustBe "length".toList "88".toList "1".toList) := by
    decide +kernel
  rw [this] at h1
  cases h1
  exact ⟨l, last, hc, h2⟩

end Verif.Props
