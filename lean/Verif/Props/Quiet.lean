import Verif.Props.Link

/-
C67: when a well-formed link is warned about.
-/

namespace Verif.Props

open Spec

/-- A file entry nothing is to be said about: its kind has a name; date and time are zero or a date and time. -/
def Ordinary.entry (e : FileEntry) : Prop :=
  e.typ.toNat % 8 ≠ 0 ∧ ((e.date = 0 ∧ e.time = 0) ∨ ValidDateTime (dosDateTime e.date.toNat e.time.toNat))

/-- The same for items: known kinds, categories and sort indexes. -/
def Ordinary.item : Item → Prop
  | .category _ _ id _ => id.toNat < 12
  | .root _ si _ _ => si ∈ [0x00, 0x42, 0x44, 0x48, 0x4C, 0x50, 0x54, 0x58, 0x60, 0x68, 0x78, 0x80]
  | .file e => entry e
  | .network typ .. => typ.toNat % 8 ≠ 0
  | .usersFiles _ _ e .. => entry e
  | .other .. => False
  | _ => True

/-- The same for blocks: a tracker block has the length and version of [MS-SHLLINK] 2.5.10. -/
def Ordinary.block : Block → Prop
  | .tracker t => t.length = 0x58 ∧ t.version = 0
  | .shellItem items => ∀ it ∈ items, item it
  | _ => True

/-- A FILETIME that is zero or a time of the years 1 to 9999. -/
def Ordinary.time (v : Int64) : Prop := v = 0 ∨ ¬ OutOfCalendar v.toInt

/-- A link nothing is to be said about. -/
structure Ordinary (s : ShellLink) : Prop where
  clsid : s.header.linkCLSID = shellLinkCLSID
  reserved : s.header.reserved1 = 0 ∧ s.header.reserved2 = 0 ∧ s.header.reserved3 = 0
  creation : Ordinary.time s.header.creationTime
  access : Ordinary.time s.header.accessTime
  write : Ordinary.time s.header.writeTime
  items : ∀ l, s.items = some l → ∀ it ∈ l, Ordinary.item it
  blocks : ∀ b ∈ s.blocks, Ordinary.block b.1

theorem kind_warns (typ : UInt8) : fsKindWarns typ = [] ↔ typ.toNat % 8 ≠ 0 := by
  unfold fsKindWarns fsKind
  have h8 : typ.toNat % 16 % 8 = typ.toNat % 8 := by omega
  rw [h8]
  have : typ.toNat % 8 < 8 := Nat.mod_lt _ (by decide)
  generalize typ.toNat % 8 = k at this
  have : k = 0 ∨ k = 1 ∨ k = 2 ∨ k = 3 ∨ k = 4 ∨ k = 5 ∨ k = 6 ∨ k = 7 := by omega
  rcases this with rfl | rfl | rfl | rfl | rfl | rfl | rfl | rfl <;> simp

theorem entry_warns (e : FileEntry) : e.warns = [] ↔ Ordinary.entry e := by
  unfold FileEntry.warns Ordinary.entry
  rw [List.append_eq_nil_iff, kind_warns]
  have h1 : e.date = 0 ↔ e.date.toNat = 0 := by rw [← UInt16.toNat_inj]; rfl
  have h2 : e.time = 0 ↔ e.time.toNat = 0 := by rw [← UInt16.toNat_inj]; rfl
  rw [h1, h2]
  refine and_congr_right fun _ => ?_
  split
  · rename_i h
    simp [h]
  · rename_i h
    simp [h]

theorem item_warns (it : Item) : it.warns = [] ↔ Ordinary.item it := by
  cases it with
  | category u sig id tr =>
    simp only [Item.warns, Ordinary.item]
    have h : categoryName id.toNat = none ↔ 12 ≤ id.toNat := List.getElem?_eq_none_iff
    by_cases hn : categoryName id.toNat = none
    · rw [if_pos hn]
      have := h.1 hn
      simp
      omega
    · rw [if_neg hn]
      simp only [true_iff]
      by_contra hc
      exact hn (h.2 (by omega))
  | root typ si g tr =>
    simp only [Item.warns, Ordinary.item]
    have key : ∀ v : UInt8, sortIndexName v.toNat = none ↔
        v ∉ [0x00, 0x42, 0x44, 0x48, 0x4C, 0x50, 0x54, 0x58, 0x60, 0x68, 0x78, 0x80] := by
      intro v
      have : ∀ n < 256, sortIndexName n = none ↔
        (UInt8.ofNat n) ∉ [0x00, 0x42, 0x44, 0x48, 0x4C, 0x50, 0x54, 0x58, 0x60, 0x68, 0x78, 0x80] := by decide +kernel
      have := this v.toNat v.toNat_lt
      rwa [UInt8.ofNat_toNat] at this
    by_cases hn : sortIndexName si.toNat = none
    · rw [if_pos hn]
      simp only [List.cons_ne_nil, false_iff]
      exact (key si).1 hn
    · rw [if_neg hn]
      simp only [true_iff]
      by_contra hc
      exact hn ((key si).2 hc)
  | file e => exact entry_warns e
  | network typ u cf loc desc comm tr => exact kind_warns typ
  | usersFiles u sig e c f tr => exact entry_warns e
  | other typ body => simp [Item.warns, Ordinary.item]
  | _ => simp [Item.warns, Ordinary.item]

theorem block_warns (b : Block) : b.warns = [] ↔ Ordinary.block b := by
  cases b with
  | tracker t =>
    simp only [Block.warns, Ordinary.block, List.append_eq_nil_iff]
    have h1 : t.length = 0x58 ↔ t.length.toNat = 0x58 := by rw [← UInt32.toNat_inj]; rfl
    have h2 : t.version = 0 ↔ t.version.toNat = 0 := by rw [← UInt32.toNat_inj]; rfl
    rw [h1, h2]
    refine and_congr ?_ ?_ <;> split <;> simp_all
  | shellItem items =>
    simp only [Block.warns, Ordinary.block, List.flatMap_eq_nil_iff]
    exact forall₂_congr fun it _ => item_warns it
  | _ => simp [Block.warns, Ordinary.block]

theorem time_warns {v : Int64} {r : Option DateTime} {w : List Warn} (h : TimeRead v r w) (ho : Ordinary.time v) : w = [] := by
  by_cases h0 : v = 0
  · exact (h.zero h0).2
  · rcases r with _ | d
    · exact absurd (h.missing h0 rfl).2 (ho.resolve_left h0)
    · exact (h.near d rfl).2.2

theorem warnUnless_nil {f : String} {a b : MustVal} : warnUnless f a b = [] ↔ b = a := by
  unfold warnUnless
  split
  · simpa
  · simpa

/-- C67: a well-formed link in which all required values are as required, all codes are known and all times lie in the years 1
to 9999 is constructed and reported, in both variants, without any warning. -/
theorem ordinary_silent (env : Env) (cp : Option String) (allow all : Bool) (s : ShellLink)
    (hv : s.Valid (TextProc.mk' env cp)) (ho : Ordinary s) (trailer : Bytes) (src : Source)
    (hs : src.bytes = s.encode ++ trailer) :
    ∃ f j, LnkFile.init env cp allow src = pure f ∧ f.getJson all = pure j := by
  obtain ⟨f, ⟨hf, -, c, a, w, wc, wa, ww, tc, ta, tw, hj⟩, -⟩ := parses_link env cp allow s hv trailer src hs
  have hwarn : linkWarns s wc wa ww = [] := by
    unfold linkWarns
    rw [time_warns tc ho.creation, time_warns ta ho.access, time_warns tw ho.write, ho.clsid, ho.reserved.1, ho.reserved.2.1,
      ho.reserved.2.2]
    simp only [List.append_eq_nil_iff, List.flatMap_eq_nil_iff, warnUnless_nil]
    refine ⟨⟨by simp, ?_⟩, fun b hb => (block_warns _).2 (ho.blocks b hb)⟩
    intro it hit
    rcases hi : s.items with _ | l
    · rw [hi] at hit
      simp at hit
    · rw [hi] at hit
      exact (item_warns it).2 (ho.items l hi it hit)
  rw [hwarn] at hj
  cases all
  · have hr := reduced_json f
    rw [hj] at hr
    exact ⟨f, _, hf, hr⟩
  · exact ⟨f, _, hf, hj⟩

theorem time_ordinary {v : Int64} {r : Option DateTime} {w : List Warn} (h : TimeRead v r w) (hw : w = []) :
    Ordinary.time v := by
  by_cases h0 : v = 0
  · exact .inl h0
  · rcases r with _ | d
    · obtain ⟨hq, -⟩ := h.missing h0 rfl
      rw [hw] at hq
      cases hq
    · exact .inr (h.stamp d rfl).2

/-- C67: and only such a link. -/
theorem silent_ordinary (env : Env) (cp : Option String) (allow all : Bool) (s : ShellLink)
    (hv : s.Valid (TextProc.mk' env cp)) (trailer : Bytes) (src : Source)
    (hs : src.bytes = s.encode ++ trailer) (f : LnkFile) (hf : (LnkFile.init env cp allow src).res = .ok f)
    (hw : (f.getJson all).warns = []) : Ordinary s := by
  obtain ⟨f', ⟨hf', -, c, a, w, wc, wa, ww, tc, ta, tw, hj⟩, -⟩ := parses_link env cp allow s hv trailer src hs
  rw [hf'] at hf
  simp only [Py.pure_res, Except.ok.injEq] at hf
  subst hf
  have hw : linkWarns s wc wa ww = [] := by
    cases all
    · rw [reduced_json, hj] at hw
      simpa [Functor.map, bind, Py.andThen, pure, Py.ret] using hw
    · rw [hj] at hw
      exact hw
  unfold linkWarns at hw
  simp only [List.append_eq_nil_iff, List.flatMap_eq_nil_iff, warnUnless_nil] at hw
  obtain ⟨⟨⟨⟨⟨⟨⟨⟨h1, h2⟩, h3⟩, h4⟩, h5⟩, h6⟩, h7⟩, h8⟩, h9⟩ := hw
  refine ⟨?_, ⟨?_, ?_, ?_⟩, time_ordinary tc h2, time_ordinary ta h3, time_ordinary tw h4, ?_, fun b hb => (block_warns _).1 (h9 b hb)⟩
  · exact Guid_text_inj (by simpa using h1)
  · rw [← UInt16.toNat_inj]
    simpa using h5
  · rw [← UInt32.toNat_inj]
    simpa using h6
  · rw [← UInt32.toNat_inj]
    simpa using h7
  · intro l hl it hit
    rw [hl] at h8
    exact (item_warns it).1 (h8 it hit)

/-- `exampleLink` without its unknown item. -/
def ordinaryLink : ShellLink := { exampleLink with items := some (exampleItems.take 2) }

theorem ordinaryLink_valid (env : Env) : ordinaryLink.Valid (TextProc.mk' env none) := by
  have h := exampleLink_valid env
  refine ⟨h.headerSize, rfl, ?_, h.hasInfo, h.info, h.announced, h.strings, h.blocks⟩
  intro l hl
  cases hl
  exact ⟨fun it hit => (h.items exampleItems rfl).1 it (List.mem_of_mem_take hit), by decide +kernel⟩

theorem ordinaryLink_ordinary : Ordinary ordinaryLink := by
  refine ⟨rfl, ⟨rfl, rfl, rfl⟩, .inr ?_, .inl rfl, .inl rfl, ?_, ?_⟩
  · unfold OutOfCalendar
    rw [filetime_first, filetime_last]
    decide
  · intro l hl
    cases hl
    intro it hit
    rcases List.mem_cons.1 hit with rfl | hit
    · show _ ∈ _
      decide
    · rcases List.mem_cons.1 hit with rfl | hit
      · refine ⟨by decide, .inr ?_⟩
        decide +kernel
      · cases hit
  · intro b hb
    rcases List.mem_cons.1 hb with rfl | hb
    · exact ⟨rfl, rfl⟩
    · rcases List.mem_cons.1 hb with rfl | hb
      · trivial
      · cases hb

example (env : Env) (all : Bool) : ∃ f j, LnkFile.init env none true (.indata ordinaryLink.encode) = pure f ∧
    f.getJson all = pure j :=
  ordinary_silent env none true all ordinaryLink (ordinaryLink_valid env) ordinaryLink_ordinary [] (.indata ordinaryLink.encode)
    (by simp [Source.bytes])

/-- `exampleLink` is not ordinary only because of its unknown item, and is warned about. -/
example (env : Env) : ∃ f, LnkFile.init env none true (.indata exampleLink.encode) = pure f ∧ (f.getJson true).warns ≠ [] := by
  obtain ⟨f, hf, -⟩ := link_roundtrip env none true exampleLink (exampleLink_valid env) (.indata exampleLink.encode) rfl
  refine ⟨f, hf, fun hw => ?_⟩
  have := silent_ordinary env none true true exampleLink (exampleLink_valid env) [] (.indata exampleLink.encode)
    (by simp [Source.bytes]) f (by rw [hf]; rfl) hw
  have := this.items exampleItems rfl
  simp only [exampleItems, List.mem_cons, forall_eq_or_imp] at this
  exact this.2.2.1

end Verif.Props
