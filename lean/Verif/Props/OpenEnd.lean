import Verif.Lemmas.OpenEnd
import Verif.Props.Trailer

/-
C90: bytes behind a file without terminal block are read as further blocks of it.
-/

namespace Verif.Props

open Spec Py Log OpenEnd

private theorem init_process {env : Env} {cp : Option String} {allow : Bool} {s : Source} (h : s.bytes ≠ []) :
    LnkFile.init env cp allow s = LnkFile.process env cp allow s.bytes := by
  cases s with
  | fhandle x => rfl
  | indata x => exact if_neg h

private theorem bare_ne (t : Bytes) : bareHeader ++ t ≠ [] := by
  intro h
  have := congrArg List.length h
  rw [List.length_append, show bareHeader.length = 76 by decide +kernel] at this
  simp at this

/-- C90: bytes behind a file that ends with its strings or with a block of extra data are read as if they came behind a header that announces nothing:
the constructor says and raises what it does for both, the size is that of both without the second header, the command is that of the
file, and the report is that of the file except for its size and for the blocks, which are those of both. -/
theorem open_end (env : Env) (cp : Option String) (allow : Bool) (ht : Tame (TextProc.mk' env cp)) (b t : Bytes) (L : Layout)
    (l : List Piece) (hO : OpenEnd b L l) (alone behind src : Source) (ha : alone.bytes = b) (hb : behind.bytes = bareHeader ++ t)
    (hs : src.bytes = b ++ t) :
    (∀ e, (LnkFile.init env cp allow alone).res = .error e → LnkFile.init env cp allow src = ⟨(LnkFile.init env cp allow alone).warns, .error e⟩) ∧
    ∀ f, (LnkFile.init env cp allow alone).res = .ok f →
      (LnkFile.init env cp allow src).warns = (LnkFile.init env cp allow alone).warns ++ (LnkFile.init env cp allow behind).warns ∧
      (∀ e, (LnkFile.init env cp allow src).res = .error e ↔ (LnkFile.init env cp allow behind).res = .error e) ∧
      ∀ h, (LnkFile.init env cp allow behind).res = .ok h → ∃ g, (LnkFile.init env cp allow src).res = .ok g ∧
        g.size + 76 = f.size + h.size ∧ g.lnkCommand = f.lnkCommand ∧
        ∀ all, g.getJson all = (do
          let r ← f.getJson all
          let s ← h.getJson all
          pure (joinReports r s)) := by
  have hne : b ≠ [] := by
    rintro rfl
    have := hO.layout
    simp [Spec.layout, uAt] at this
  rw [init_process (s := alone) (by rw [ha]; exact hne), init_process (s := behind) (by rw [hb]; exact bare_ne t),
    init_process (s := src) (by rw [hs]; simp [hne]), ha, hb, hs, process_join env cp allow ht hO t]
  rcases hp : LnkFile.process env cp allow b with ⟨w, e | f⟩
  · refine ⟨fun e' he => ?_, fun f hf => by cases hf⟩
    cases he
    rfl
  refine ⟨fun e he => (by cases he), fun f' hf => ?_⟩
  obtain rfl := Except.ok.inj hf
  rcases hq : LnkFile.process env cp allow (bareHeader ++ t) with ⟨w', e' | h⟩
  · exact ⟨rfl, fun e => Iff.rfl, fun h hh => by cases hh⟩
  refine ⟨?_, fun e => ⟨fun he => (by cases he), fun he => (by cases he)⟩, fun h' hh => ?_⟩
  · show w ++ (w' ++ []) = w ++ w'
    rw [List.append_nil]
  obtain rfl := Except.ok.inj hh
  obtain ⟨L', l', last', h1, h2, hP, -⟩ := LnkFile.parts_tame ht (b := b) (f := f) (by rw [hp])
  rw [hO.layout] at h1
  cases h1
  obtain ⟨rfl, rfl⟩ := cut_unique hO.cut h2
  have hq' := congrArg Py.res hq
  rw [process_bare] at hq'
  obtain ⟨r, -, hr⟩ := bind_ok_iff.1 hq'
  obtain rfl := Except.ok.inj hr
  refine ⟨_, rfl, ?_, rfl, fun all => ?_⟩
  · show f.size + (76 + r.2 + min (t.length - r.2) 4) - 76 + 76 = _
    dsimp only
    omega
  · exact report_join hO t hP rfl rfl rfl (by dsimp only; omega) all

/-- C90: of the blocks of one kind in the two parts the later one is reported; blocks of unknown kinds are listed one after another. -/
theorem later_block_counts (r s : Dict) (a d : Dict) (hr : r.get? "extra" = some (.dict a)) (hs : s.get? "extra" = some (.dict d)) :
    ∃ x : Dict, Dict.get? (joinReports r s) "extra" = some (.dict x) ∧
      (∀ k, k ≠ "UNKNOWN_BLOCK" → x.get? k = (d.get? k).or (a.get? k)) ∧
      (∀ ys zs, a.get? "UNKNOWN_BLOCK" = some (.list ys) → d.get? "UNKNOWN_BLOCK" = some (.list zs) →
        x.get? "UNKNOWN_BLOCK" = some (.list (ys ++ zs))) := by
  refine ⟨mergeBlocks a d, ?_, fun k hk => ?_, fun ys zs h1 h2 => ?_⟩
  · rw [Dict.get?_eq_lookup] at hs
    unfold joinReports
    induction r with
    | nil => cases hr
    | cons p r ih =>
      obtain ⟨k, v⟩ := p
      rw [List.map_cons, Dict.get?]
      rw [Dict.get?] at hr
      dsimp only
      by_cases hk : k = "extra"
      · rw [if_pos hk] at hr ⊢
        cases hr
        subst hk
        rw [hs]
        rfl
      · rw [if_neg hk] at hr ⊢
        exact ih hr
  · rw [get?_merge]
    unfold combined
    rcases d.get? k with _ | v
    · rfl
    · rcases a.get? k with _ | w
      · rfl
      · dsimp only
        rw [if_neg hk]
        rfl
  · rw [get?_merge, h2]
    unfold combined
    rw [h1]
    rfl

/-- C90: when another link follows, its header is taken for a block of an unknown kind with all its 76 bytes. -/
theorem next_link_swallowed (b rest : Bytes) (L : Layout) (l l' : List Piece) (last : Bytes) (hO : OpenEnd b L l) (hd : Header)
    (h1 : hd.headerSize = 76) (h2 : hd.linkCLSID = shellLinkCLSID) (hr : Cut rest l' last) :
    Spec.layout (b ++ (hd.encode ++ rest)) = some L ∧
    Cut ((b ++ (hd.encode ++ rest)).drop L.extraAt) (l ++ ⟨76, hd.encode, some 0x21401⟩ :: l') last ∧ blockName 0x21401 = "UNKNOWN_BLOCK" := by
  have hlen : L.extraAt ≤ b.length := hO.there
  refine ⟨(Trailer.layout_more _ hO.layout hlen hO.strings fun h => (hO.info h).1).1, ?_, by decide⟩
  rw [List.drop_append_of_le_length (by omega)]
  refine (cut_append hO.cut hO.whole ?_).1
  have hl : hd.encode.length = 76 := by simp
  have e : ∃ x, hd.encode = le 4 76 ++ (le 4 0x21401 ++ x) := by
    unfold Header.encode
    rw [h1, h2, show shellLinkCLSID.encode = le 4 0x21401 ++ (shellLinkCLSID.encode.drop 4) by decide +kernel]
    simp only [List.append_assoc]
    exact ⟨_, rfl⟩
  obtain ⟨x, e⟩ := e
  have u0 : uAt 4 (hd.encode ++ rest) 0 = some 76 := by
    rw [e, List.append_assoc]
    exact Trailer.uAt_some_more _ (b := le 4 76) (by decide)
  have u4 : uAt 4 (hd.encode ++ rest) 4 = some 0x21401 := by
    rw [e, List.append_assoc, List.append_assoc, ← List.append_assoc (le 4 76)]
    exact Trailer.uAt_some_more _ (b := le 4 76 ++ le 4 0x21401) (by decide)
  have := Cut.block (b := hd.encode ++ rest) u0 (by decide) (by rw [List.drop_left' hl]; exact hr)
  rwa [List.take_left' hl, u4] at this

/-! ### examples -/

/-- A header that announces nothing and one block that names a code page. -/
def oneBlock : Bytes := bareHeader ++ (le 4 12 ++ le 4 0xA0000004 ++ le 4 1252)

theorem oneBlock_open : OpenEnd oneBlock ⟨76, 0, 76, 76, 76⟩ [⟨12, le 4 12 ++ le 4 0xA0000004 ++ le 4 1252, some 0xA0000004⟩] where
  layout := by decide +kernel
  cut := .block (b := oneBlock.drop 76) (n := 12) (by decide +kernel) (by decide) (.stop (b := []) (.inl (by decide +kernel)))
  there := by decide +kernel
  strings := by decide +kernel
  whole := by simp
  info h := by cases h

/-- A header that announces a name, the name, and nothing else. -/
example : OpenEnd (le 4 76 ++ shellLinkCLSID.encode ++ le 4 4 ++ List.replicate 52 0 ++ le 2 3 ++ [0x61, 0x62, 0x63]) ⟨76, 4, 76, 76, 81⟩ [] where
  layout := by decide +kernel
  cut := .stop (b := []) (.inl (by decide +kernel))
  there := by decide +kernel
  strings := by decide +kernel
  whole := by simp
  info h := by cases h

/-- A second block of that kind behind it replaces the first one in the report. -/
example (env : Env) : ∃ f g r d x, (LnkFile.init env none false (.indata oneBlock)).res = .ok f ∧
    (LnkFile.init env none false (.indata (oneBlock ++ (le 4 12 ++ le 4 0xA0000004 ++ le 4 437)))).res = .ok g ∧
    (f.getJson true).res = .ok r ∧ (g.getJson true).res = .ok d ∧
    r.get? "extra" = some (.dict [("CONSOLE_CODEPAGE_BLOCK", .dict [("size", .nat 12), ("code_page", .nat 1252)])]) ∧
    d.get? "extra" = some (.dict x) ∧
    Dict.get? x "CONSOLE_CODEPAGE_BLOCK" = some (.dict [("size", .nat 12), ("code_page", .nat 437)]) ∧ g.size = 100 := by
  have key : ∀ n : Nat, n = 1252 ∨ n = 437 → ∃ f r, (LnkFile.init env none false (.indata (bareHeader ++
      (le 4 12 ++ le 4 0xA0000004 ++ le 4 n)))).res = .ok f ∧ f.size = 88 ∧ (f.getJson true).res = .ok r ∧
      r.get? "extra" = some (.dict [("CONSOLE_CODEPAGE_BLOCK", .dict [("size", .nat 12), ("code_page", .nat n)])]) := by
    intro n hn
    have hc : Cut (le 4 12 ++ le 4 0xA0000004 ++ le 4 n) [⟨12, le 4 12 ++ le 4 0xA0000004 ++ le 4 n, some 0xA0000004⟩] [] := by
      rcases hn with rfl | rfl
      · exact .block (b := le 4 12 ++ le 4 0xA0000004 ++ le 4 1252) (n := 12) (by decide +kernel) (by decide)
          (.stop (b := []) (.inl (by decide +kernel)))
      · exact .block (b := le 4 12 ++ le 4 0xA0000004 ++ le 4 437) (n := 12) (by decide +kernel) (by decide)
          (.stop (b := []) (.inl (by decide +kernel)))
    have hr := (read_append (tp := TextProc.mk' env none) (allow := false) (t := []) hc (by simp)).1
    rw [init_process (bare_ne _)]
    show ∃ f r, (LnkFile.process env none false (bareHeader ++ _)).res = _ ∧ _
    rw [process_bare, hr]
    obtain ⟨d, hd⟩ := bare_header ⟨bareHeader ++ (le 4 12 ++ le 4 0xA0000004 ++ le 4 n), ⟨bareHeader⟩, 78, none, none, ⟨[], 0⟩,
      ⟨[⟨.codePage, TextProc.mk' env none, le 4 12 ++ le 4 0xA0000004 ++ le 4 n⟩]⟩, 88⟩ rfl
    refine ⟨⟨bareHeader ++ (le 4 12 ++ le 4 0xA0000004 ++ le 4 n), ⟨bareHeader⟩, 78, none, none, ⟨[], 0⟩,
      ⟨[⟨.codePage, TextProc.mk' env none, le 4 12 ++ le 4 0xA0000004 ++ le 4 n⟩]⟩, 88⟩,
      [("size", .nat 88), ("header", .dict d), ("link_info", .dict []), ("data", .dict []),
        ("extra", .dict [("CONSOLE_CODEPAGE_BLOCK", .dict [("size", .nat 12), ("code_page", .nat n)])])], ?_, rfl, ?_, rfl⟩
    · rfl
    · have : ExtraData.asDict ⟨[⟨.codePage, TextProc.mk' env none, le 4 12 ++ le 4 0xA0000004 ++ le 4 n⟩]⟩ =
          pure [("CONSOLE_CODEPAGE_BLOCK", .dict [("size", .nat 12), ("code_page", .nat n)])] := by
        rcases hn with rfl | rfl <;> rfl
      unfold LnkFile.getJson
      rw [hd]
      dsimp only [LnkFile.jsonTarget, LnkFile.jsonInfo]
      rw [this]
      rfl
  obtain ⟨f, r, hf, hs, hj, he⟩ := key 1252 (.inl rfl)
  obtain ⟨h, s, hh, hs', hj', he'⟩ := key 437 (.inr rfl)
  obtain ⟨-, H⟩ := open_end env none false (tame_usable (usable_default env)) oneBlock (le 4 12 ++ le 4 0xA0000004 ++ le 4 437) _ _
    oneBlock_open (.indata oneBlock) (.indata (bareHeader ++ (le 4 12 ++ le 4 0xA0000004 ++ le 4 437)))
    (.indata (oneBlock ++ (le 4 12 ++ le 4 0xA0000004 ++ le 4 437))) rfl rfl rfl
  obtain ⟨-, -, H⟩ := H f hf
  obtain ⟨g, hg, hz, -, hr⟩ := H h hh
  obtain ⟨x, hx, hk, -⟩ := later_block_counts r s _ _ he he'
  refine ⟨f, g, r, joinReports r s, x, hf, hg, hj, ?_, he, hx, ?_, by omega⟩
  · rw [hr true]
    exact bind_ok_iff.2 ⟨r, hj, bind_ok_iff.2 ⟨s, hj', rfl⟩⟩
  · rw [hk _ (by decide)]
    rfl

/-- The header of a second link, as a block of the first one. -/
example : ∃ l, Cut ((oneBlock ++ (bare.encode ++ le 4 0)).drop 76) l (le 4 0) ∧ l.length = 2 ∧ (oneBlock ++ (bare.encode ++ le 4 0)).length = 168 :=
  ⟨_, (next_link_swallowed oneBlock (le 4 0) _ _ [] (le 4 0) oneBlock_open bare rfl rfl (.stop (.inr (by decide)))).2.1, rfl,
    by decide +kernel⟩

end Verif.Props
