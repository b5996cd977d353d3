import Verif.Lemmas.Readable
import Verif.Props.File
import Verif.Props.Header

/-
C43: the tree that the readable output is printed from.
-/

namespace Verif.Props

open Spec

/-! ### C43: dictionaries at any depth -/

/-- C43: in a dictionary, an entry with no plain counterpart is shown under its label. -/
theorem shown_kept {d d' : Dict} (h : ShownEntries Shown d d') (k : String) (v : PyVal) (hk : (k, v) ∈ d)
    (hs : ¬ Shadowed d k) : ∃ v', d'.get? (label k) = some v' ∧ Shown v v' := by
  obtain ⟨out, h1, h2, h3, h4⟩ := h
  exact ⟨out k, Dict.get?_of_mem h1 (h3 k v hk hs), h4 k v hk hs⟩

/-- C43: of `r_k` and `k`, the plain `k` is shown. -/
theorem plain_wins {d d' : Dict} (h : ShownEntries Shown d d') (k : String) (v : PyVal)
    (hp : (k, v) ∈ d) (hk : ¬ "r_".toList <+: k.toList) : ∃ v', d'.get? (label k) = some v' ∧ Shown v v' := by
  refine shown_kept h k v hp ?_
  rintro ⟨p, rfl, -⟩
  exact hk (by rw [String.toList_append]; exact List.prefix_append _ _)

/-- C43: every documented tree (C49: all sections of `get_json` are) is shown. -/
theorem documented_shown (v : PyVal) (h : Documented v) : Shown v (LnkFile.niceVal v) := LnkFile.shown_niceVal v h

end Verif.Props

namespace Verif.LnkFile

open Spec

theorem shown_more {d d' : Dict} {k : String} (hs : Shadowed d k)
    (h : ShownEntries Shown (d.filter fun kv => kv.1 ≠ k) d') : ShownEntries Shown d d' := by
  obtain ⟨out, h1, h2, h3, h4⟩ := h
  have hf : ∀ k' v, (k', v) ∈ d → ¬ Shadowed d k' → (k', v) ∈ d.filter (fun kv => kv.1 ≠ k) ∧
      ¬ Shadowed (d.filter fun kv => kv.1 ≠ k) k' := by
    intro k' v hkv hns
    refine ⟨List.mem_filter.2 ⟨hkv, ?_⟩, ?_⟩
    · have : k' ≠ k := fun e => hns (e ▸ hs)
      simpa using this
    · rintro ⟨p, e, hp⟩
      exact hns ⟨p, e, (keys_filter_sublist d k).subset hp⟩
  refine .intro out h1 (h2.trans ((keys_filter_sublist d k).map _)) ?_ ?_
  · exact fun k' v hkv hns => h3 k' v (hf k' v hkv hns).1 (hf k' v hkv hns).2
  · exact fun k' v hkv hns => h4 k' v (hf k' v hkv hns).1 (hf k' v hkv hns).2

/-- The header the readable output starts from. -/
def editHeader (h : Dict) (lf ff : Str) : Dict :=
  Dict.set (Dict.set (Dict.erase h "r_hotkey") "link_flags" (.str lf)) "file_flags" (.str ff)

theorem header_keys {f : LnkFile} {h : Dict} (hh : f.jsonHeader.res = .ok h) (all : Bool) :
    ∃ h', h' = (if all then h else pruneHeader h) ∧
      (∀ lf ff, editHeader h' lf ff = (withSummaries h' lf ff).filter (fun kv => kv.1 ≠ "r_hotkey") ∧
      Shadowed (withSummaries h' lf ff) "r_hotkey") ∧ (Dict.keys h').Sublist headerKeys ∧
      ∃ (v w : Nat), f.header.rLinkFlags.Returns v ∧ f.header.rFileFlags.Returns w ∧
        Dict.get? h' "r_link_flags" = some (.int v) ∧ Dict.get? h' "r_file_flags" = some (.int w) := by
  unfold jsonHeader at hh
  simp only [Py.bind_ok_iff, Py.pure_res, Except.ok.injEq] at hh
  obtain ⟨guid, -, v, hv, w, hw, _, -, _, -, _, -, _, -, _, -, _, -, _, -, _, -, _, -, _, -, _, -, _, -, _, -, _, -, rfl⟩ := hh
  refine ⟨_, rfl, ?_⟩
  cases all
  · refine ⟨fun lf ff => ⟨by rfl, "hotkey", by decide, ?_⟩, ?_, v, w, hv, hw, by rfl, by rfl⟩
    · exact List.mem_map.2 ⟨_, List.mem_of_getElem? (i := 9) rfl, rfl⟩
    · have : List.Sublist ["guid", "r_link_flags", "r_file_flags", "creation_time", "accessed_time", "modified_time",
          "file_size", "icon_index", "windowstyle", "hotkey", "r_hotkey", "link_flags", "file_flags"] headerKeys := by
        decide +kernel
      exact this
  · refine ⟨fun lf ff => ⟨by rfl, "hotkey", by decide, ?_⟩, ?_, v, w, hv, hw, by rfl, by rfl⟩
    · exact List.mem_map.2 ⟨_, List.mem_of_getElem? (i := 9) rfl, rfl⟩
    · exact List.Sublist.refl _

theorem header_labels : ∀ k ∈ headerKeys, k ≠ "" ∧ k ≠ "class" ∧ niceId k false = label k ∧
    ¬ "EMPTY_LINE_PLACEHOLDER".toList <+: (label k).toList := by decide +kernel

theorem header_apart : Apart (headerKeys.filter (· ≠ "r_hotkey")) := by
  unfold Apart
  decide +kernel

theorem keys_withSummaries (h : Dict) (lf ff : Str) : Dict.keys (withSummaries h lf ff) = h.keys := by
  unfold withSummaries Dict.keys
  rw [List.map_map]
  apply List.map_congr_left
  intro kv _
  simp only [Function.comp_apply]
  split
  · rfl
  · split <;> rfl

/-- The header, shown. -/
theorem shown_header (h : Dict) (lf ff : Str) (hk : (Dict.keys h).Sublist headerKeys) (hd : ∀ kv ∈ h, Documented kv.2)
    (he : editHeader h lf ff = (withSummaries h lf ff).filter (fun kv => kv.1 ≠ "r_hotkey"))
    (hs : Shadowed (withSummaries h lf ff) "r_hotkey") :
    ∃ top, niceVal (.dict (editHeader h lf ff)) = .dict top ∧ ShownEntries Shown (withSummaries h lf ff) top := by
  have hkw : (Dict.keys (withSummaries h lf ff)).Sublist headerKeys := by rw [keys_withSummaries]; exact hk
  have hkf : (Dict.keys ((withSummaries h lf ff).filter fun kv => kv.1 ≠ "r_hotkey")).Sublist
      (headerKeys.filter (· ≠ "r_hotkey")) := by
    have : Dict.keys ((withSummaries h lf ff).filter fun kv => kv.1 ≠ "r_hotkey") =
        (Dict.keys (withSummaries h lf ff)).filter (· ≠ "r_hotkey") := by
      unfold Dict.keys
      rw [List.filter_map]
      rfl
    rw [this]
    exact hkw.filter _
  have hl : ∀ k ∈ Dict.keys ((withSummaries h lf ff).filter fun kv => kv.1 ≠ "r_hotkey"), k ∈ headerKeys :=
    fun k hk => List.filter_sublist.subset (hkf.subset hk)
  have hv : ∀ kv ∈ (withSummaries h lf ff).filter (fun kv => kv.1 ≠ "r_hotkey"), Shown kv.2 (niceVal kv.2) := by
    intro kv hkv
    apply shown_niceVal
    obtain ⟨x, hx, rfl⟩ := List.mem_map.1 (List.mem_filter.1 hkv).1
    split
    · trivial
    · split
      · trivial
      · exact hd x hx
  refine ⟨niceDictGo (niceEntries ((withSummaries h lf ff).filter fun kv => kv.1 ≠ "r_hotkey")) "" [], ?_, shown_more hs ?_⟩
  · have : Dict.get? ((withSummaries h lf ff).filter fun kv => kv.1 ≠ "r_hotkey") "class" = none := by
      rw [Dict.get?_none_iff]
      exact fun hm => (header_labels _ (hl _ hm)).2.1 rfl
    rw [he, niceVal, this]
  · have := shown_niceDictGo (R := Shown) ((withSummaries h lf ff).filter fun kv => kv.1 ≠ "r_hotkey") "" (header_apart.sublist hkf)
      (fun k hk => (header_labels k (hl k hk)).2.2.1) hv
    rwa [(List.filter_eq_self (l := (withSummaries h lf ff).filter fun kv => kv.1 ≠ "r_hotkey")).2] at this
    intro kv hkv
    simpa using (header_labels kv.1 (hl _ (List.mem_map_of_mem hkv))).1

end Verif.LnkFile

namespace Verif.Props

open Spec

/-- The sections shown. -/
theorem sections_shown (j : Dict) (hdoc : ∀ kv ∈ j, kv.1 ≠ "header" → Documented kv.2) :
    List.Forall₂ (fun kv kv' => kv'.1 = "EMPTY_LINE_PLACEHOLDER" ++ heading kv.1 ∧ Shown kv.2 kv'.2)
      (j.filter fun kv => kv.1 ≠ "header")
      ((j.filter fun kv => kv.1 ≠ "header").map fun kv => ("EMPTY_LINE_PLACEHOLDER" ++ heading kv.1, LnkFile.niceVal kv.2)) := by
  rw [List.forall₂_map_right_iff, List.forall₂_same]
  intro kv hkv
  rw [List.mem_filter] at hkv
  exact ⟨rfl, documented_shown _ (hdoc kv hkv.1 (by simpa using hkv.2))⟩

theorem top_keys_apart {h top : Dict} (lf ff : Str) (hk : (Dict.keys h).Sublist headerKeys)
    (hs : ShownEntries Shown (withSummaries h lf ff) top) (s : String) : "EMPTY_LINE_PLACEHOLDER" ++ s ∉ Dict.keys top := by
  obtain ⟨-, -, h2, -, -⟩ := hs
  intro hm
  have := h2.subset hm
  rw [LnkFile.keys_withSummaries] at this
  obtain ⟨k, hk', e⟩ := List.mem_map.1 this
  refine (LnkFile.header_labels k (hk.subset hk')).2.2.2 ?_
  rw [e, String.toList_append]
  exact List.prefix_append _ _

theorem heading_eqs : LnkFile.niceId "size" true = "SIZE" ∧ LnkFile.niceId "header" true = "HEADER" ∧
    LnkFile.niceId "target" true = "TARGET" ∧ LnkFile.niceId "link_info" true = "LINK INFO" ∧
    LnkFile.niceId "data" true = "DATA" ∧ LnkFile.niceId "extra" true = "EXTRA" := by decide +kernel

theorem heading_eqs' : heading "size" = "SIZE" ∧ heading "target" = "TARGET" ∧ heading "link_info" = "LINK INFO" ∧
    heading "data" = "DATA" ∧ heading "extra" = "EXTRA" := by decide +kernel

/-- The tree of `get_json`, with or without a target. -/
def tree (size header : PyVal) (target : Option PyVal) (info data extra : PyVal) : Dict :=
  [("size", size), ("header", header)] ++ target.toList.map (fun t => ("target", t)) ++
    [("link_info", info), ("data", data), ("extra", extra)]

/-- Its sections under their headings. -/
def shownSections (size : PyVal) (target : Option PyVal) (info data extra : PyVal) : Dict :=
  [("EMPTY_LINE_PLACEHOLDERSIZE", LnkFile.niceVal size)] ++
    target.toList.map (fun t => ("EMPTY_LINE_PLACEHOLDERTARGET", LnkFile.niceVal t)) ++
    [("EMPTY_LINE_PLACEHOLDERLINK INFO", LnkFile.niceVal info), ("EMPTY_LINE_PLACEHOLDERDATA", LnkFile.niceVal data),
      ("EMPTY_LINE_PLACEHOLDEREXTRA", LnkFile.niceVal extra)]

theorem sections_eq (size header : PyVal) (target : Option PyVal) (info data extra : PyVal) :
    ((tree size header target info data extra).filter fun kv => kv.1 ≠ "header").map
      (fun kv => ("EMPTY_LINE_PLACEHOLDER" ++ heading kv.1, LnkFile.niceVal kv.2)) =
      shownSections size target info data extra := by
  obtain ⟨e1, e2, e3, e4, e5⟩ := heading_eqs'
  cases target <;> simp [tree, shownSections, e1, e2, e3, e4, e5]

theorem sections_nodup (size : PyVal) (target : Option PyVal) (info data extra : PyVal) :
    (Dict.keys (shownSections size target info data extra)).Nodup ∧
      ∀ k ∈ Dict.keys (shownSections size target info data extra), ∃ s, k = "EMPTY_LINE_PLACEHOLDER" ++ s := by
  have h : (["EMPTY_LINE_PLACEHOLDERSIZE", "EMPTY_LINE_PLACEHOLDERTARGET", "EMPTY_LINE_PLACEHOLDERLINK INFO",
      "EMPTY_LINE_PLACEHOLDERDATA", "EMPTY_LINE_PLACEHOLDEREXTRA"] : List String).Nodup := by decide +kernel
  have h' : ∀ k ∈ (["EMPTY_LINE_PLACEHOLDERSIZE", "EMPTY_LINE_PLACEHOLDERTARGET", "EMPTY_LINE_PLACEHOLDERLINK INFO",
      "EMPTY_LINE_PLACEHOLDERDATA", "EMPTY_LINE_PLACEHOLDEREXTRA"] : List String), ∃ s, k = "EMPTY_LINE_PLACEHOLDER" ++ s := by
    simp only [List.mem_cons, List.not_mem_nil, or_false, forall_eq_or_imp, forall_eq]
    exact ⟨⟨"SIZE", rfl⟩, ⟨"TARGET", rfl⟩, ⟨"LINK INFO", rfl⟩, ⟨"DATA", rfl⟩, ⟨"EXTRA", rfl⟩⟩
  have hs : (Dict.keys (shownSections size target info data extra)).Sublist ["EMPTY_LINE_PLACEHOLDERSIZE",
      "EMPTY_LINE_PLACEHOLDERTARGET", "EMPTY_LINE_PLACEHOLDERLINK INFO", "EMPTY_LINE_PLACEHOLDERDATA",
      "EMPTY_LINE_PLACEHOLDEREXTRA"] := by
    cases target
    · exact ((List.Sublist.refl _).cons _).cons_cons _
    · exact List.Sublist.refl _
  exact ⟨hs.nodup h, fun k hk => h' k (hs.subset hk)⟩

theorem niceTop_tree (size header : PyVal) (target : Option PyVal) (info data extra : PyVal) :
    LnkFile.placeholder (LnkFile.niceTop (tree size header target info data extra) []) =
      [("EMPTY_LINE_PLACEHOLDERSIZE", LnkFile.niceVal size), ("EMPTY_LINE_PLACEHOLDERHEADER", LnkFile.niceVal header)] ++
        target.toList.map (fun t => ("EMPTY_LINE_PLACEHOLDERTARGET", LnkFile.niceVal t)) ++
      [("EMPTY_LINE_PLACEHOLDERLINK INFO", LnkFile.niceVal info), ("EMPTY_LINE_PLACEHOLDERDATA", LnkFile.niceVal data),
        ("EMPTY_LINE_PLACEHOLDEREXTRA", LnkFile.niceVal extra)] := by
  obtain ⟨e1, e2, e3, e4, e5, e6⟩ := heading_eqs
  cases target <;> simp [tree, LnkFile.niceTop, e1, e2, e3, e4, e5, e6, Dict.set, LnkFile.placeholder]

theorem atKey_tree (g : Dict → Dict) (size : PyVal) (h : Dict) (target : Option PyVal) (info data extra : PyVal) :
    LnkFile.atKey "header" g (tree size (.dict h) target info data extra) = tree size (.dict (g h)) target info data extra := by
  cases target <;> simp [tree, LnkFile.atKey]

/-- C43: when `get_json` returns a tree, the readable output is made, with the same warnings, from a tree that consists of
the header (the flags as texts) and of the other sections under their headings, in order; nothing is missing but `r_` keys
whose plain key is there, and nothing else is there. -/
theorem readable_output (env : Env) (cp : Option String) (hcp : UsableCodePage (TextProc.mk' env cp)) (allow all : Bool)
    (src : Source) (f : LnkFile) (hf : (LnkFile.init env cp allow src).res = .ok f) (j : Dict) (w : List Warn)
    (hj : f.getJson all = ⟨w, .ok j⟩) :
    ∃ (h : Dict) (lf ff : Nat) (top sections : Dict), j.get? "header" = some (.dict h) ∧
      Dict.get? h "r_link_flags" = some (.int lf) ∧ Dict.get? h "r_file_flags" = some (.int ff) ∧
      f.niceJson all = ⟨w, .ok (top ++ sections)⟩ ∧ (Dict.keys (top ++ sections)).Nodup ∧
      ShownEntries Shown (withSummaries h (flagSummary (setBitNames linkFlagNames lf) lf)
        (flagSummary (setBitNames fileFlagNames ff) ff)) top ∧
      List.Forall₂ (fun kv kv' => kv'.1 = "EMPTY_LINE_PLACEHOLDER" ++ heading kv.1 ∧ Shown kv.2 kv'.2)
        (j.filter fun kv => kv.1 ≠ "header") sections := by
  have hres : (f.getJson all).res = .ok j := by rw [hj]
  have hdoc := json_documented env cp hcp allow all src f hf j hres
  obtain ⟨header, target, info, extra, h1, h2, h3, h4, rfl⟩ := LnkFile.getJson_ok_iff.1 hres
  obtain ⟨h, eh, hedit, hk, v, u, hv, hu, g1, g2⟩ := LnkFile.header_keys h1 all
  rw [← eh] at hdoc hj ⊢
  have hd : ∀ kv ∈ h, Documented kv.2 := by
    obtain ⟨h', e, -, hd⟩ := hdoc.2.2 (.dict h) (by simp)
    cases e
    exact hd
  have f1 := (flag_summary_of_raw f).1 v hv
  have f2 := (flag_summary_of_raw f).2 u hu
  obtain ⟨top, ht, hshown⟩ := LnkFile.shown_header h (flagSummary (setBitNames linkFlagNames v) v)
    (flagSummary (setBitNames fileFlagNames u) u) hk hd (hedit _ _).1 (hedit _ _).2
  have hap := top_keys_apart _ _ hk hshown
  have htop : (Dict.keys top).Nodup := by obtain ⟨-, h, -, -, -⟩ := hshown; exact h
  have et : [("size", PyVal.nat f.size), ("header", .dict h)] ++
      ((target.map fun t => if all then t else LnkFile.pruneTarget t).toList.map fun t => ("target", .dict t)) ++
      [("link_info", .dict (if all then info else LnkFile.pruneInfo info)), ("data", .dict f.stringData.asDict),
        ("extra", .dict extra)] = tree (.nat f.size) (.dict h)
        (target.map fun t => .dict (if all then t else LnkFile.pruneTarget t))
        (.dict (if all then info else LnkFile.pruneInfo info)) (.dict f.stringData.asDict) (.dict extra) := by
    cases target <;> rfl
  rw [et] at hj hdoc ⊢
  generalize (target.map fun t => PyVal.dict (if all then t else LnkFile.pruneTarget t)) = t at *
  generalize (PyVal.dict (if all then info else LnkFile.pruneInfo info)) = i at *
  have hss := sections_shown _ hdoc.2.1
  rw [sections_eq] at hss
  have hn := sections_nodup (.nat f.size) t i (.dict f.stringData.asDict) (.dict extra)
  have hdis : ∀ k ∈ Dict.keys (shownSections (.nat f.size) t i (.dict f.stringData.asDict) (.dict extra)), k ∉ Dict.keys top := by
    intro k hk
    obtain ⟨s, rfl⟩ := hn.2 k hk
    exact hap s
  refine ⟨h, v, u, top, _, rfl, g1, g2, ?_, ?_, hshown, hss⟩
  · unfold LnkFile.niceJson
    rw [hj, f1, f2]
    rw [← Dict.update_append top _ hdis hn.1]
    unfold LnkFile.editHeader at ht
    cases t <;> simp [bind, Py.andThen, pure, Py.ret, atKey_tree, niceTop_tree, ht, shownSections, Dict.get?, Dict.erase]
  · unfold Dict.keys
    rw [List.map_append, List.nodup_append]
    exact ⟨htop, hn.1, fun a ha b hb e => hdis b hb (e ▸ ha)⟩

/-- C43: when `get_json` raises, nothing is printed. -/
theorem readable_raises (f : LnkFile) (all : Bool) (w : List Warn) (e : PyErr) (hj : f.getJson all = ⟨w, .error e⟩) :
    f.niceJson all = ⟨w, .error e⟩ := by
  unfold LnkFile.niceJson
  rw [hj]
  rfl

example : label "r_drive_type" = "Drive type" ∧ label "drive_type" = "Drive type" ∧
    label "TERMINAL_BLOCK" = "TERMINAL BLOCK" ∧ heading "link_info" = "LINK INFO" := by decide +kernel

/-- A pair of an `r_` key and its plain key, and a lone `r_` key. -/
example : LnkFile.niceVal (.dict [("r_drive_type", .int 3), ("drive_serial_number", .lit "0x0"),
      ("drive_type", .lit "DRIVE_FIXED")]) =
    .dict [("Drive type", .lit "DRIVE_FIXED"), ("Drive serial number", .lit "0x0")] := by rfl

example : LnkFile.niceVal (.dict [("r_drive_type", .int 3), ("drive_serial_number", .lit "0x0")]) =
    .dict [("Drive type", .int 3), ("Drive serial number", .lit "0x0")] := by rfl

/-- An item of a target. -/
example : LnkFile.niceVal (.list [.dict [("class", .lit "Root Folder"), ("sort_index", .int 80)]]) =
    .list [.dict [("Root Folder", .dict [("Sort index", .int 80)])]] := by rfl

/-- The readable tree of a whole file. -/
example : ((LnkFile.init ⟨fun _ => none, fun _ => []⟩ none false (.indata exampleBytes)).res.toOption.bind fun f =>
    (f.niceJson false).res.toOption.map fun r => (Dict.keys r, Json.dumps ((Dict.get? r "Link flags").getD .none))) =
    some (["Guid", "Link flags", "File flags", "Creation time", "Accessed time", "Modified time", "File size", "Icon index",
      "Windowstyle", "Hotkey", "EMPTY_LINE_PLACEHOLDERSIZE", "EMPTY_LINE_PLACEHOLDERTARGET",
      "EMPTY_LINE_PLACEHOLDERLINK INFO", "EMPTY_LINE_PLACEHOLDERDATA", "EMPTY_LINE_PLACEHOLDEREXTRA"],
      "\"HasTargetIDList | HasLinkInfo | HasName | IsUnicode - (135)\"".toList) := by decide +kernel

end Verif.Props
