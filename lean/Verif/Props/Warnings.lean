import Verif.Lemmas.WarnedInit
import Verif.Props.Blocks

/-
C72: what the warnings of a constructor call and of a report say about the file.
-/

namespace Verif.Props

open Spec Py

/-! ### helpers -/

namespace Warnings

theorem mem_left {x : Py α} {f : α → Py β} {w : Warn} (h : w ∈ x.warns) : w ∈ (x >>= f).warns := by
  rw [bind_warns]
  split
  · exact h
  · exact List.mem_append_left _ h

theorem mem_right {x : Py α} {f : α → Py β} {b : β} {w : Warn} (hok : (x >>= f).res = .ok b)
    (h : ∀ a, x.res = .ok a → (f a).res = .ok b → w ∈ (f a).warns) : w ∈ (x >>= f).warns := by
  obtain ⟨a, h1, h2⟩ := bind_ok_iff.1 hok
  rw [bind_warns, h1]
  exact List.mem_append_right _ (h a h1 h2)

theorem mem_mustBe {fn : String} {v : MustVal} {g : α → MustVal} {x : Py α} {a : α} (ha : x.res = .ok a) (hne : g a ≠ v) :
    .mustBe fn v (g a) ∈ (mustBe fn v g x).warns := by
  unfold mustBe
  rw [bind_warns, ha]
  dsimp only
  rw [if_pos hne]
  exact List.mem_append_right _ (List.mem_singleton.2 rfl)

theorem field_read {b : Bytes} {m n off v : Nat} (hn : 0 < n) (h : uAt n b off = some v) (hm : off + n ≤ m) :
    (unpackU n (slice (b.take m) off (off + n))).res = .ok v :=
  (uAt_iff_ok hn).2 (by rw [ExtraData.uAt_take _ _ _ _ hn hm, h])

end Warnings

/-! ### C72: the constructor -/

/-- C72: the warnings of the constructor, all of them and in order: twice that the header size is not 76; that the flags of the
link info are missing; texts of the strings; that the count of a string is missing; the blocks without signature; that the size of a
block is incomplete. -/
theorem construction_warnings (env : Env) (cp : Option String) (hcp : UsableCodePage (TextProc.mk' env cp)) (allow : Bool) (src : Source)
    (f : LnkFile) (hf : (LnkFile.init env cp allow src).res = .ok f) :
    ∃ L l last texts, layout src.bytes = some L ∧ Cut (src.bytes.drop L.extraAt) l last ∧
      (∀ w ∈ texts, ∃ s, w = .decode s) ∧
      (LnkFile.init env cp allow src).warns =
        (if L.headerSize = 76 then [] else List.replicate 2 (.mustBe "size" (.int 76) (.int L.headerSize))) ++
        (if infoAnnounced L.flags = true ∧ uAt 4 src.bytes (L.infoAt + 8) = none then [.infoClass] else []) ++
        texts ++
        (if stringsCut L.flags src.bytes stringLimits L.stringsAt then [.stringData] else []) ++
        List.replicate (l.filter fun p => p.signature.isNone).length .extraSignature ++
        (if 0 < last.length ∧ last.length < 4 then [.extraSize] else []) := by
  obtain ⟨L, l, last, hL, hc, -⟩ := constructed env cp hcp allow src f hf
  obtain ⟨D, h1, h2⟩ := LnkFile.process_warns env cp hcp allow src.bytes L hL l last hc
  refine ⟨L, l, last, D, hL, hc, h1, ?_⟩
  rw [← h2]
  unfold LnkFile.init at hf ⊢
  cases src with
  | fhandle c => rfl
  | indata b =>
    dsimp only at hf ⊢
    split
    · rename_i hb
      rw [if_pos hb] at hf
      cases hf
    · rfl

/-! ### C72: the report -/

/-- C72: every warning of `get_json` says something true about the bytes: about the header, about an item of the ID list, about a text of
the link info, or about an extra block; even if `get_json` then raises. -/
theorem report_warnings (env : Env) (cp : Option String) (hcp : UsableCodePage (TextProc.mk' env cp)) (allow : Bool) (src : Source)
    (f : LnkFile) (hf : (LnkFile.init env cp allow src).res = .ok f) :
    ∃ L l last, layout src.bytes = some L ∧ Cut (src.bytes.drop L.extraAt) l last ∧
      ∀ all, ∀ w ∈ (f.getJson all).warns, HeaderWarn src.bytes w ∨ (L.flags.testBit 0 = true ∧ ItemWarn w) ∨
        (infoAnnounced L.flags = true ∧ ∃ s, w = .decode s) ∨ ∃ p ∈ l, PieceWarn p w := by
  obtain ⟨L, l, last, hL, hc, P, h4, -⟩ := Blocks.pieces env cp hcp allow src f hf
  refine ⟨L, l, last, hL, hc, fun all => ?_⟩
  suffices h : Warned (fun w => HeaderWarn src.bytes w ∨ (L.flags.testBit 0 = true ∧ ItemWarn w) ∨
      (infoAnnounced L.flags = true ∧ ∃ s, w = .decode s) ∨ ∃ p ∈ l, PieceWarn p w) (f.getJson all) from h.out
  unfold LnkFile.getJson
  refine warned_bind (LnkHeader.warned_jsonHeader (b := src.bytes) (fun w => .inl) P.header) fun _ => warned_bind ?_ fun _ =>
    warned_bind ?_ fun _ => warned_bind ?_ fun _ => warned_pure _
  · have ht := P.targets
    split at ht
    · rename_i h0
      exact LnkFile.warned_jsonTarget (fun w hw => .inr (.inl ⟨h0, hw⟩)) ht hcp
    · unfold LnkFile.jsonTarget
      rw [ht]
      exact warned_pure _
  · by_cases ha : infoAnnounced L.flags = true
    · exact LnkFile.warned_jsonInfo (fun s => .inr (.inr (.inl ⟨ha, s, rfl⟩))) f
    · have hi := P.info
      rw [if_neg ha] at hi
      unfold LnkFile.jsonInfo
      rw [hi]
      exact warned_pure _
  · rw [P.extras]
    exact ExtraData.warned_asDict hcp hc h4 _ (by intro x hx; split at hx <;> simp_all)
      fun p hp w hw => .inr (.inr (.inr ⟨p, hp, hw⟩))

/-- C72, the converse for the header: every field that is not what it must be is announced, and every time outside
the years 1 to 9999. -/
theorem header_announced (env : Env) (cp : Option String) (hcp : UsableCodePage (TextProc.mk' env cp)) (allow : Bool) (src : Source)
    (f : LnkFile) (hf : (LnkFile.init env cp allow src).res = .ok f) :
    ∃ L, layout src.bytes = some L ∧ (HeaderReadable src.bytes L → ∀ all,
      (∀ n, uAt 4 src.bytes 0 = some n → n ≠ 76 → .mustBe "size" (.int 76) (.int n) ∈ (f.getJson all).warns) ∧
      (∀ g : Guid, between src.bytes 4 20 = g.encode → g ≠ shellLinkCLSID →
        .mustBe "link_cls_id" (.str shellLinkCLSID.text) (.str g.text) ∈ (f.getJson all).warns) ∧
      (∀ n, uAt 2 src.bytes 66 = some n → n ≠ 0 → .mustBe "reserved0" (.int 0) (.int n) ∈ (f.getJson all).warns) ∧
      (∀ n, uAt 4 src.bytes 68 = some n → n ≠ 0 → .mustBe "reserved1" (.int 0) (.int n) ∈ (f.getJson all).warns) ∧
      (∀ n, uAt 4 src.bytes 72 = some n → n ≠ 0 → .mustBe "reserved2" (.int 0) (.int n) ∈ (f.getJson all).warns) ∧
      ∀ off (v : Int64), off = 28 ∨ off = 36 ∨ off = 44 → between src.bytes off (off + 8) = leI 8 v.toInt →
        OutOfCalendar v.toInt →
        .invalidFiletime (leI 8 v.toInt) ∈ (f.getJson all).warns) := by
  obtain ⟨L, l, last, hL, -, P⟩ := constructed env cp hcp allow src f hf
  refine ⟨L, hL, fun hr all => ?_⟩
  obtain ⟨d, hok⟩ := (Outcome.header_fails P).ok hr
  have hin : ∀ w, w ∈ f.jsonHeader.warns → w ∈ (f.getJson all).warns := fun w hw => by
    unfold LnkFile.getJson
    exact Warnings.mem_left hw
  obtain ⟨h76, -⟩ := hr
  unfold LnkFile.jsonHeader at hok hin
  rw [P.header] at hok hin
  refine ⟨fun n hn hne => hin _ ?_, fun g hg hne => hin _ ?_, fun n hn hne => hin _ ?_, fun n hn hne => hin _ ?_, fun n hn hne => hin _ ?_,
    fun off v ho hb hv => hin _ ?_⟩
  · iterate 13 refine Warnings.mem_right hok fun _ _ hok => ?_
    refine Warnings.mem_left (Warnings.mem_mustBe (g := .int) (Warnings.field_read (n := 4) (off := 0) (by omega) hn (by omega)) ?_)
    simpa using hne
  · refine Warnings.mem_left ?_
    have ht : shellLinkCLSID.text = "00021401-0000-0000-C000-000000000046".toList := by decide +kernel
    rw [ht]
    refine Warnings.mem_mustBe (g := .str) (a := g.text) ?_ ?_
    · have : slice (src.bytes.take L.headerSize) 4 20 = g.encode := by
        rw [← hg]
        exact between_take src.bytes 4 20 L.headerSize (by omega)
      dsimp only
      rw [this, parseUuid_encode]
      rfl
    · rw [← ht]
      intro h
      exact hne (Guid_text_inj (MustVal.str.inj h))
  · iterate 14 refine Warnings.mem_right hok fun _ _ hok => ?_
    refine Warnings.mem_left (Warnings.mem_mustBe (g := .int) (Warnings.field_read (n := 2) (off := 66) (by omega) hn (by omega)) ?_)
    simpa using hne
  · iterate 15 refine Warnings.mem_right hok fun _ _ hok => ?_
    refine Warnings.mem_left (Warnings.mem_mustBe (g := .int) (Warnings.field_read (n := 4) (off := 68) (by omega) hn (by omega)) ?_)
    simpa using hne
  · iterate 16 refine Warnings.mem_right hok fun _ _ hok => ?_
    refine Warnings.mem_left (Warnings.mem_mustBe (g := .int) (Warnings.field_read (n := 4) (off := 72) (by omega) hn (by omega)) ?_)
    simpa using hne
  · have hb' : slice (src.bytes.take L.headerSize) off (off + 8) = leI 8 v.toInt := by
      rw [← hb]
      exact between_take src.bytes off (off + 8) L.headerSize (by omega)
    have hm : Warn.invalidFiletime (leI 8 v.toInt) ∈ (parseFiletime (leI 8 v.toInt)).warns := by
      have h0 : v ≠ 0 := by
        rintro rfl
        unfold OutOfCalendar at hv
        rw [filetime_first, filetime_last] at hv
        revert hv
        decide
      obtain ⟨n, -, -, -, ⟨-, hp⟩ | ⟨hc, -⟩⟩ := filetime_date v h0
      swap
      · exact absurd hv hc
      rw [hp]
      exact List.mem_singleton.2 rfl
    rw [← hb'] at hm ⊢
    rcases ho with rfl | rfl | rfl
    · iterate 3 refine Warnings.mem_right hok fun _ _ hok => ?_
      exact Warnings.mem_left hm
    · iterate 4 refine Warnings.mem_right hok fun _ _ hok => ?_
      exact Warnings.mem_left hm
    · iterate 5 refine Warnings.mem_right hok fun _ _ hok => ?_
      exact Warnings.mem_left hm

/-- C72, the converse for tracker blocks: a length or a version that is not what it must be is announced. -/
theorem tracker_announced (env : Env) (cp : Option String) (hcp : UsableCodePage (TextProc.mk' env cp)) (allow : Bool) (src : Source)
    (f : LnkFile) (hf : (LnkFile.init env cp allow src).res = .ok f) :
    ∃ L l last, layout src.bytes = some L ∧ Cut (src.bytes.drop L.extraAt) l last ∧
      ∀ all j, (f.getJson all).res = .ok j → ∀ p ∈ l, p.signature = some 0xA0000003 →
        (∀ n, uAt 4 p.bytes 8 = some n → n ≠ 0x58 → .mustBe "length" (.int 0x58) (.int n) ∈ (f.getJson all).warns) ∧
        ∀ n, uAt 4 p.bytes 12 = some n → n ≠ 0 → .mustBe "version" (.int 0) (.int n) ∈ (f.getJson all).warns := by
  obtain ⟨L, l, last, hL, hc, P, h4, hg⟩ := Blocks.pieces env cp hcp allow src f hf
  refine ⟨L, l, last, hL, hc, fun all j hj p hp hs => ?_⟩
  obtain ⟨header, target, info, E, h1, h2, h3, hE, -⟩ := LnkFile.getJson_ok_iff.1 hj
  obtain ⟨E', hE', -, -, -⟩ := extra_report f.extras (Blocks.caught_of_ok hE)
  have hin : ∀ w, w ∈ (Extra.asDict ⟨.distributedTracker, TextProc.mk' env cp, p.bytes⟩).warns → w ∈ (f.getJson all).warns := by
    intro w hw
    have hmem : (⟨.distributedTracker, TextProc.mk' env cp, p.bytes⟩ : Extra) ∈ f.extras.data := by
      rw [P.extras]
      exact List.mem_append_left _ (List.mem_filterMap.2 ⟨p, hp, by rw [hs]; rfl⟩)
    have he : w ∈ f.extras.asDict.warns := by
      rw [hE']
      exact List.mem_flatMap.2 ⟨_, hmem, List.mem_append_left _ hw⟩
    unfold LnkFile.getJson
    simp only [bind_warns, h1, h2, h3, hE]
    simp [he]
  have hsz : Extra.size ⟨.distributedTracker, TextProc.mk' env cp, p.bytes⟩ = pure p.declared := by
    rw [ExtraData.size_eq _ (by simp), hg.size p hp _ hs]
  have hin' : ∀ w, w ∈ (Extra.trackerFields ⟨.distributedTracker, TextProc.mk' env cp, p.bytes⟩).warns → w ∈ (f.getJson all).warns := by
    intro w hw
    refine hin w ?_
    unfold Extra.asDict
    rw [hsz, pure_bind]
    exact Warnings.mem_left hw
  refine ⟨fun n hn hne => hin' _ ?_, fun n hn hne => hin' _ ?_⟩
  · exact Warnings.mem_left (Warnings.mem_mustBe (g := .int) ((uAt_iff_ok (n := 4) (off := 8) (by omega)).2 hn) (by simpa using hne))
  · unfold Extra.trackerFields
    have h8 : ∃ m, uAt 4 p.bytes 8 = some m := by
      have := ExtraData.uAt_some_length hn
      unfold uAt
      rw [if_pos (by omega)]
      exact ⟨_, rfl⟩
    obtain ⟨m, hm⟩ := h8
    obtain ⟨m', hm'⟩ : ∃ m', (mustBe "length" (.int 0x58) .int (Extra.uint ⟨.distributedTracker, TextProc.mk' env cp, p.bytes⟩ 8 12)).res = .ok m' :=
      (when_mustBe _ _ _ (Extra.when_uint _ 8 12 (by omega))).ok (by
        have := ExtraData.uAt_some_length hm
        exact this)
    rw [bind_warns, hm']
    exact List.mem_append_right _ (Warnings.mem_left
      (Warnings.mem_mustBe (g := .int) ((uAt_iff_ok (n := 4) (off := 12) (by omega)).2 hn) (by simpa using hne)))

/-! ### a file that ends early -/

/-- A header that announces a link info and a name, and one byte. -/
def stub : Bytes := le 4 76 ++ List.replicate 16 7 ++ le 4 6 ++ List.replicate 52 0 ++ [5]

theorem stub_layout : layout stub = some ⟨76, 6, 76, 76, 76⟩ := by decide +kernel

theorem stub_cut : Cut (stub.drop 76) [] [5] := by
  have : stub.drop 76 = [5] := by decide +kernel
  rw [this]
  exact .stop (.inl (by decide))

/-- The object exists, and it has a report. -/
theorem stub_ok (env : Env) (allow all : Bool) :
    ∃ f, (LnkFile.init env none allow (.indata stub)).res = .ok f ∧ ∃ j, (f.getJson all).res = .ok j := by
  obtain ⟨f, hf⟩ := (constructor_outcome env none (usable_default env) allow (.indata stub)).1.2 (by
    refine ⟨⟨76, 6, by decide, by decide, by decide, by decide⟩, ?_⟩
    intro L l last hL hc p hp hs
    simp only [Source.bytes] at hL hc
    rw [stub_layout] at hL
    cases hL
    obtain ⟨rfl, -⟩ := cut_unique hc stub_cut
    cases hp)
  refine ⟨f, hf, ?_⟩
  obtain ⟨L, l, last, hL, hc, h⟩ := report_returns env none (usable_default env) allow _ f hf
  simp only [Source.bytes] at hL hc h
  rw [stub_layout] at hL
  cases hL
  obtain ⟨rfl, -⟩ := cut_unique hc stub_cut
  refine (h all).2 ⟨⟨by decide, by decide⟩, by decide +kernel, fun _ kind hk => ?_, by simp⟩
  have : infoLocation stub 76 = none := by decide +kernel
  simp only at hk
  rw [this] at hk
  cases hk

/-- What is missing is announced. -/
example (env : Env) (allow : Bool) (f : LnkFile) (hf : (LnkFile.init env none allow (.indata stub)).res = .ok f) :
    ∃ texts, (∀ w ∈ texts, ∃ s, w = .decode s) ∧
      (LnkFile.init env none allow (.indata stub)).warns = [.infoClass] ++ texts ++ [.stringData, .extraSize] := by
  obtain ⟨L, l, last, texts, hL, hc, ht, h⟩ := construction_warnings env none (usable_default env) allow _ f hf
  simp only [Source.bytes] at hL hc h
  rw [stub_layout] at hL
  cases hL
  obtain ⟨rfl, rfl⟩ := cut_unique hc stub_cut
  refine ⟨texts, ht, ?_⟩
  have h1 : uAt 4 stub 84 = none := by decide +kernel
  have h2 : stringsCut 6 stub stringLimits 76 = true := by decide +kernel
  have h3 : infoAnnounced 6 = true := by decide
  rw [h]
  simp [Source.bytes, h1, h2, h3]

/-- The class id is announced, and nothing else is. -/
example (env : Env) (allow all : Bool) (f : LnkFile) (hf : (LnkFile.init env none allow (.indata stub)).res = .ok f) :
    .mustBe "link_cls_id" (.str shellLinkCLSID.text) (.str "07070707-0707-0707-0707-070707070707".toList) ∈ (f.getJson all).warns ∧
    ∀ w ∈ (f.getJson all).warns, (∃ g : Guid, w = .mustBe "link_cls_id" (.str shellLinkCLSID.text) (.str g.text)) ∨ ∃ s, w = .decode s := by
  constructor
  · obtain ⟨L, hL, h⟩ := header_announced env none (usable_default env) allow _ f hf
    simp only [Source.bytes] at hL h
    rw [stub_layout] at hL
    cases hL
    have := (h ⟨by decide, by decide⟩ all).2.1 ⟨0x07070707, 0x0707, 0x0707, 7, 7, 7, 7, 7, 7, 7, 7⟩ (by decide +kernel) (by decide)
    have e : (⟨0x07070707, 0x0707, 0x0707, 7, 7, 7, 7, 7, 7, 7, 7⟩ : Guid).text = "07070707-0707-0707-0707-070707070707".toList := by
      decide +kernel
    rwa [e] at this
  · obtain ⟨L, l, last, hL, hc, h⟩ := report_warnings env none (usable_default env) allow _ f hf
    simp only [Source.bytes] at hL hc h
    rw [stub_layout] at hL
    cases hL
    obtain ⟨rfl, rfl⟩ := cut_unique hc stub_cut
    intro w hw
    rcases h all w hw with h | ⟨h, -⟩ | ⟨-, h⟩ | ⟨p, hp, -⟩
    · rcases h with ⟨h, hn⟩ | ⟨-, -⟩ | ⟨h, hn⟩ | ⟨h, hn⟩ | ⟨h, hn⟩ | ⟨ho, hb, hn, -⟩
      · rw [show uAt 4 stub 0 = some 76 by decide +kernel] at h
        exact absurd (Option.some.inj h).symm hn
      · exact .inl ⟨_, rfl⟩
      · rw [show uAt 2 stub 66 = some 0 by decide +kernel] at h
        exact absurd (Option.some.inj h).symm hn
      · rw [show uAt 4 stub 68 = some 0 by decide +kernel] at h
        exact absurd (Option.some.inj h).symm hn
      · rw [show uAt 4 stub 72 = some 0 by decide +kernel] at h
        exact absurd (Option.some.inj h).symm hn
      · exfalso
        rename_i off v
        have hz : between stub off (off + 8) = leI 8 (0 : Int64).toInt := by
          rcases ho with rfl | rfl | rfl <;> decide +kernel
        rw [hz] at hb
        have h1 : (unpackI 8 (leI 8 v.toInt)).res = (unpackI 8 (leI 8 (0 : Int64).toInt)).res := by rw [hb]
        rw [unpackI_leI8, unpackI_leI8] at h1
        exact hn (Int64.toInt_inj.1 (Except.ok.inj h1))
    · exact absurd h (by decide)
    · exact .inr h
    · cases hp

/-- A header, and a tracker block whose length is 1. -/
def oddTracker : Bytes := le 4 76 ++ List.replicate 16 7 ++ le 4 0 ++ List.replicate 52 0 ++
  (le 4 96 ++ le 4 0xA0000003 ++ le 4 1 ++ List.replicate 84 0)

theorem oddTracker_layout : layout oddTracker = some ⟨76, 0, 76, 76, 76⟩ := by decide +kernel

theorem oddTracker_cut : Cut (oddTracker.drop 76) [⟨96, oddTracker.drop 76, some 0xA0000003⟩] [] := by
  have h := Cut.block (b := oddTracker.drop 76) (n := 96) (by decide +kernel) (by decide +kernel)
    (.stop (b := (oddTracker.drop 76).drop 96) (.inl (by decide +kernel)))
  have e1 : (oddTracker.drop 76).drop 96 = [] := by decide +kernel
  have e2 : (⟨96, (oddTracker.drop 76).take 96, uAt 4 (oddTracker.drop 76) 4⟩ : Piece) = ⟨96, oddTracker.drop 76, some 0xA0000003⟩ := by
    congr 1 <;> decide +kernel
  rw [e1, e2] at h
  exact h

/-- The object exists, it has a report, and the length is announced. -/
example (env : Env) (allow all : Bool) :
    ∃ f, (LnkFile.init env none allow (.indata oddTracker)).res = .ok f ∧ (∃ j, (f.getJson all).res = .ok j) ∧
      .mustBe "length" (.int 0x58) (.int 1) ∈ (f.getJson all).warns := by
  obtain ⟨f, hf⟩ := (constructor_outcome env none (usable_default env) allow (.indata oddTracker)).1.2 (by
    refine ⟨⟨76, 0, by decide +kernel, by decide +kernel, by decide, by decide +kernel⟩, ?_⟩
    intro L l last hL hc p hp hs
    simp only [Source.bytes] at hL hc
    rw [oddTracker_layout] at hL
    cases hL
    obtain ⟨rfl, -⟩ := cut_unique hc oddTracker_cut
    simp only [List.mem_singleton] at hp
    subst hp
    decide)
  obtain ⟨L, l, last, hL, hc, h⟩ := report_returns env none (usable_default env) allow _ f hf
  simp only [Source.bytes] at hL hc h
  rw [oddTracker_layout] at hL
  cases hL
  obtain ⟨rfl, -⟩ := cut_unique hc oddTracker_cut
  obtain ⟨j, hj⟩ := (h all).2 ⟨⟨by decide, by decide +kernel⟩, by decide +kernel, fun h => absurd h (by decide), fun p hp e he => by
    simp only [List.mem_singleton] at hp
    subst hp
    rcases he with ⟨h, -⟩ | ⟨h, -⟩ <;> exact absurd h (by decide)⟩
  refine ⟨f, hf, ⟨j, hj⟩, ?_⟩
  obtain ⟨L, l, last, hL, hc, h⟩ := tracker_announced env none (usable_default env) allow _ f hf
  simp only [Source.bytes] at hL hc
  rw [oddTracker_layout] at hL
  cases hL
  obtain ⟨rfl, -⟩ := cut_unique hc oddTracker_cut
  exact (h all j hj _ List.mem_cons_self rfl).1 1 (by decide +kernel) (by decide)

end Verif.Props
