import Verif.Lemmas.Brief
import Verif.Props.Printed

/-
C82: what the reduced report (`get_json(False)`, which is the default) tells about a link.
-/

namespace Verif.Props

open Spec

/-! ### the reduced report of a link -/

def briefHeader (hd : Header) (c a w : Option DateTime) : Dict :=
  [("guid", .str hd.linkCLSID.text), ("r_link_flags", .int hd.linkFlags.toNat),
    ("r_file_flags", .int hd.fileAttributes.toNat),
    ("creation_time", PyVal.opt .dt c), ("accessed_time", PyVal.opt .dt a), ("modified_time", PyVal.opt .dt w),
    ("file_size", .int hd.fileSize.toNat), ("icon_index", .int hd.iconIndex.toInt),
    ("windowstyle", .str (showCommandName hd.showCommand.toInt).toList),
    ("hotkey", .str (hotKeyText hd.hotKeyLow hd.hotKeyHigh)),
    ("r_hotkey", .int (hd.hotKeyLow.toNat + 256 * hd.hotKeyHigh.toNat : Nat)),
    ("link_flags", .list ((setBitNames linkFlagNames hd.linkFlags.toNat).map fun s => .str s.toList)),
    ("file_flags", .list ((setBitNames fileFlagNames hd.fileAttributes.toNat).map fun s => .str s.toList))]

theorem briefHeader_eq (hd : Header) (c a w : Option DateTime) :
    without ["header_size", "reserved0", "reserved1", "reserved2"] (headerObject hd c a w) = briefHeader hd c a w := by
  unfold headerObject briefHeader
  iterate 13 rw [without_keep (by decide)]
  iterate 4 rw [without_skip (by decide)]
  rw [without_nil]

def briefTarget (l : List Item) : Dict := [("items", .list (l.map fun it => .dict (briefItem it)))]

def briefReport (s : ShellLink) (c a w : Option DateTime) (size : Nat) (extra : List (String × Dict)) : Dict :=
  [("size", .int size), ("header", .dict (briefHeader s.header c a w))] ++
    (s.items.toList.map fun l => ("target", .dict (briefTarget l))) ++
    [ ("link_info", .dict ((s.info.map briefInfo).getD [])), ("data", .dict (stringsObject s.strings)),
      ("extra", .dict (extraObject extra)) ]

theorem briefTarget_eq (l : List Item) (p : Nat) :
    under "items" (onList (onDict (without ["modification_time"]))) (without ["size", "index"] (targetObject l p)) =
      briefTarget l := by
  unfold targetObject
  rw [without_skip (by decide), without_keep (by decide), without_skip (by decide), without_nil, under_here]
  unfold briefTarget onList under
  simp only [List.map_map, List.map_nil]
  rfl

theorem reduced_link (s : ShellLink) (c a w : Option DateTime) (n : Nat) (x : List (String × Dict)) :
    reduced (linkReport s c a w n x) = briefReport s c a w n x := by
  have hi : (under "location_info" (onDict (without locationKeys)) (without infoKeys ((s.info.map Info.report).getD []))) =
      (s.info.map briefInfo).getD [] := by
    rcases s.info with _ | i
    · rfl
    · exact briefInfo_eq i
  have hh := briefHeader_eq s.header c a w
  unfold reduced linkReport briefReport
  rw [← hi, ← hh]
  generalize headerObject s.header c a w = H
  generalize (s.info.map Info.report).getD [] = I
  generalize extraObject x = X
  generalize stringsObject s.strings = D
  rcases s.items with _ | l
  · simp only [Option.toList_none, List.map_nil, List.append_nil, List.cons_append, List.nil_append]
    rw [under_skip (k := "link_info") (by decide), under_skip (k := "link_info") (by decide), under_here "link_info",
      under_skip (k := "link_info") (by decide), under_skip (k := "link_info") (by decide),
      under_skip (k := "target") (by decide), under_skip (k := "target") (by decide), under_skip (k := "target") (by decide),
      under_skip (k := "target") (by decide), under_skip (k := "target") (by decide),
      under_skip (k := "header") (by decide), under_here "header", under_skip (k := "header") (by decide),
      under_skip (k := "header") (by decide), under_skip (k := "header") (by decide)]
    rfl
  · simp only [Option.toList_some, List.map_cons, List.map_nil, List.cons_append, List.nil_append]
    rw [under_skip (k := "link_info") (by decide), under_skip (k := "link_info") (by decide), under_skip (k := "link_info") (by decide),
      under_here "link_info", under_skip (k := "link_info") (by decide), under_skip (k := "link_info") (by decide),
      under_skip (k := "target") (by decide), under_skip (k := "target") (by decide), under_here "target",
      under_skip (k := "target") (by decide), under_skip (k := "target") (by decide), under_skip (k := "target") (by decide),
      under_skip (k := "header") (by decide), under_here "header", under_skip (k := "header") (by decide),
      under_skip (k := "header") (by decide), under_skip (k := "header") (by decide), under_skip (k := "header") (by decide),
      ← briefTarget_eq l 78]
    rfl

/-- The reduced tree of a well-formed link with the times as they are read. -/
theorem brief_exact {env : Env} {cp : Option String} {s : ShellLink} (hv : s.Valid (TextProc.mk' env cp)) {allow : Bool} {trailer : Bytes}
    {f : LnkFile} (hb : Built (TextProc.mk' env cp) s allow trailer f) {c a w : Option DateTime} {wc wa ww : List Warn}
    (hc : parseFiletime (leI 8 s.header.creationTime.toInt) = ⟨wc, .ok c⟩)
    (ha : parseFiletime (leI 8 s.header.accessTime.toInt) = ⟨wa, .ok a⟩)
    (hw : parseFiletime (leI 8 s.header.writeTime.toInt) = ⟨ww, .ok w⟩) :
    (f.getJson false).res = .ok (briefReport s c a w f.size (seenBlocks env.sha256hex s (appended allow trailer))) := by
  rw [f.getJson_false, Py.map_res, json_exact hv hb hc ha hw, ← reduced_link]

/-! ### parts -/

theorem brief_exact_same {h h' : Header} : h.shown = h'.shown ↔
    h.linkCLSID = h'.linkCLSID ∧ h.linkFlags = h'.linkFlags ∧ h.fileAttributes = h'.fileAttributes ∧ h.fileSize = h'.fileSize ∧
      h.iconIndex = h'.iconIndex ∧ h.hotKeyLow = h'.hotKeyLow ∧ h.hotKeyHigh = h'.hotKeyHigh := by
  unfold Header.shown
  simp only [Header.mk.injEq, true_and, and_true]

theorem show_name_same {v v' : Int32} : showCommandName v.toInt = showCommandName v'.toInt ↔
    v = v' ∨ (v ∉ [3, 7] ∧ v' ∉ [3, 7]) := by
  refine ⟨showCommand_same, ?_⟩
  rintro (h | ⟨h, h'⟩)
  · rw [h]
  · have e : ∀ x : Int32, (x.toInt = 3 ↔ x = 3) ∧ (x.toInt = 7 ↔ x = 7) := fun x =>
      ⟨by rw [← Int32.toInt_inj]; rfl, by rw [← Int32.toInt_inj]; rfl⟩
    simp only [List.mem_cons, List.not_mem_nil, or_false, not_or] at h h'
    unfold showCommandName
    simp only [(e _).1, (e _).2, h.1, h.2, h'.1, h'.2, if_false]

theorem hotKey_same {h h' : Header} : h.hotKeyLow.toNat + 256 * h.hotKeyHigh.toNat = h'.hotKeyLow.toNat + 256 * h'.hotKeyHigh.toNat ↔
    h.hotKeyLow = h'.hotKeyLow ∧ h.hotKeyHigh = h'.hotKeyHigh := by
  have l1 := h.hotKeyLow.toNat_lt
  have l2 := h'.hotKeyLow.toNat_lt
  refine ⟨fun e => ⟨UInt8.toNat_inj.1 (by omega), UInt8.toNat_inj.1 (by omega)⟩, fun ⟨e, e'⟩ => by rw [e, e']⟩

theorem briefHeader_keys (h : Header) (c a w : Option DateTime) : (briefHeader h c a w).map (·.1) = headerKeys.take 13 := by
  unfold briefHeader
  simp only [List.map_cons, List.map_nil]
  rfl

/-- Two headers look the same just when their fields and what is shown of the times are the same. -/
theorem brief_header_shown {h h' : Header} {c a w c' a' w' : Option DateTime} :
    SameShown (.dict (briefHeader h c a w)) (.dict (briefHeader h' c' a' w')) ↔
      h.shown = h'.shown ∧ (h.showCommand = h'.showCommand ∨ (h.showCommand ∉ [3, 7] ∧ h'.showCommand ∉ [3, 7])) ∧
        SameShown (PyVal.opt .dt c) (PyVal.opt .dt c') ∧ SameShown (PyVal.opt .dt a) (PyVal.opt .dt a') ∧
        SameShown (PyVal.opt .dt w) (PyVal.opt .dt w') := by
  rw [brief_exact_same, ← show_name_same]
  constructor
  · intro e
    have e := shown_entries e (by rw [briefHeader_keys]; decide +kernel) (by rw [briefHeader_keys, briefHeader_keys])
    unfold briefHeader at e
    simp only [List.map_cons, List.map_nil, List.forall₂_cons, shown_int, shown_str, Nat.cast_inj, text_inj, UInt32.toNat_inj,
      String.toList_inj, Int32.toInt_inj, hotKey_same] at e
    obtain ⟨e1, e2, e3, hc, ha, hw, e4, e5, e6, -, e7, -⟩ := e
    exact ⟨⟨e1, e2, e3, e4, e5, e7.1, e7.2⟩, e6, hc, ha, hw⟩
  · rintro ⟨⟨e1, e2, e3, e4, e5, e7, e8⟩, e6, hc, ha, hw⟩
    refine .dict (.refl _) (by rw [briefHeader_keys, briefHeader_keys]) ?_
    unfold briefHeader
    simp only [List.map_cons, List.map_nil, List.forall₂_cons, SameShown.refl, hc, ha, hw, true_and, List.Forall₂.nil, e1, e2, e3,
      e4, e5, e6, e7, e8]

theorem brief_header_eq {h h' : Header} {c a w c' a' w' : Option DateTime} :
    briefHeader h c a w = briefHeader h' c' a' w' ↔
      h.shown = h'.shown ∧ (h.showCommand = h'.showCommand ∨ (h.showCommand ∉ [3, 7] ∧ h'.showCommand ∉ [3, 7])) ∧
        c = c' ∧ a = a' ∧ w = w' := by
  rw [brief_exact_same, ← show_name_same]
  constructor
  · intro e
    unfold briefHeader at e
    simp only [List.cons.injEq, Prod.mk.injEq, true_and, and_true, PyVal.str.injEq, PyVal.int.injEq, Nat.cast_inj, text_inj,
      UInt32.toNat_inj, String.toList_inj, Int32.toInt_inj, hotKey_same, opt_dt_inj] at e
    obtain ⟨e1, e2, e3, hc, ha, hw, e4, e5, e6, -, e7, -⟩ := e
    exact ⟨⟨e1, e2, e3, e4, e5, e7.1, e7.2⟩, e6, hc, ha, hw⟩
  · rintro ⟨⟨e1, e2, e3, e4, e5, e7, e8⟩, e6, rfl, rfl, rfl⟩
    unfold briefHeader
    rw [e1, e2, e3, e4, e5, e6, e7, e8]

theorem brief_targets_same {tp tp' : TextProc} {l l' : Option (List Item)} (hv : ∀ x, l = some x → ∀ it ∈ x, it.Valid tp)
    (hv' : ∀ x, l' = some x → ∀ it ∈ x, it.Valid tp') :
    l.map briefTarget = l'.map briefTarget ↔ Option.Rel (List.Forall₂ BriefItem) l l' := by
  rcases l with _ | l <;> rcases l' with _ | l'
  · simp
  · simp
  · simp
  · simp only [Option.map_some, Option.some.injEq, Option.rel_some_some]
    unfold briefTarget
    simp only [List.cons.injEq, Prod.mk.injEq, true_and, and_true, PyVal.list.injEq]
    refine map_same fun a ha b hb => ?_
    rw [PyVal.dict.injEq]
    exact brief_item_same (hv l rfl a ha) (hv' l' rfl b hb)

theorem brief_infos_same {tp tp' : TextProc} {i i' : Option Info} (hv : ∀ x, i = some x → x.Valid tp)
    (hv' : ∀ x, i' = some x → x.Valid tp') :
    (i.map briefInfo).getD [] = (i'.map briefInfo).getD [] ↔ Option.Rel BriefInfo i i' := by
  have hne : ∀ x : Info, briefInfo x ≠ [] := by
    intro x
    unfold briefInfo
    simp
  rcases i with _ | i <;> rcases i' with _ | i'
  · simp
  · simpa using (hne i').symm
  · simpa using hne i
  · simp only [Option.map_some, Option.getD_some, Option.rel_some_some]
    exact brief_info_same (hv i rfl) (hv' i' rfl)

theorem plain_briefTarget (l : List Item) : Plain (.dict (briefTarget l)) := by
  rw [← briefTarget_eq l 78]
  exact plain_under _ (plain_onList (plain_onDict fun d => plain_without _)) (plain_without _ (plain_target l 78))

theorem briefReport_get (s : ShellLink) (c a w : Option DateTime) (n : Nat) (x : List (String × Dict)) :
    (briefReport s c a w n x).get? "size" = some (.int n) ∧
    (briefReport s c a w n x).get? "header" = some (.dict (briefHeader s.header c a w)) ∧
    (briefReport s c a w n x).get? "target" = s.items.map (fun l => .dict (briefTarget l)) ∧
    (briefReport s c a w n x).get? "link_info" = some (.dict ((s.info.map briefInfo).getD [])) ∧
    (briefReport s c a w n x).get? "data" = some (.dict (stringsObject s.strings)) ∧
    (briefReport s c a w n x).get? "extra" = some (.dict (extraObject x)) := by
  unfold briefReport
  generalize briefHeader s.header c a w = H
  generalize extraObject x = X
  generalize stringsObject s.strings = D
  generalize (s.info.map briefInfo).getD [] = I
  rcases s.items with _ | l <;>
    simp [Dict.get?_cons]

theorem briefReport_keys (s : ShellLink) (c a w : Option DateTime) (n : Nat) (x : List (String × Dict)) :
    ((briefReport s c a w n x).map (·.1)).Nodup := by
  unfold briefReport
  rcases s.items with _ | l
  · simp only [Option.toList_none, List.map_nil, List.append_nil, List.cons_append, List.nil_append, List.map_cons]
    decide +kernel
  · simp only [Option.toList_some, List.map_nil, List.cons_append, List.nil_append, List.map_cons]
    decide +kernel

/-- Equal trees: equal parts. -/
theorem briefReport_eq {s s' : ShellLink} {c a w c' a' w' : Option DateTime} {n n' : Nat} {x x' : List (String × Dict)} :
    briefReport s c a w n x = briefReport s' c' a' w' n' x' ↔
      n = n' ∧ briefHeader s.header c a w = briefHeader s'.header c' a' w' ∧
        s.items.map briefTarget = s'.items.map briefTarget ∧
        (s.info.map briefInfo).getD [] = (s'.info.map briefInfo).getD [] ∧
        stringsObject s.strings = stringsObject s'.strings ∧ extraObject x = extraObject x' := by
  unfold briefReport
  generalize briefHeader s.header c a w = H
  generalize briefHeader s'.header c' a' w' = H'
  generalize extraObject x = X
  generalize extraObject x' = X'
  rcases s.items with _ | l <;> rcases s'.items with _ | l' <;>
    simp only [Option.toList_none, Option.toList_some, List.map_cons, List.map_nil, List.append_nil, List.cons_append, List.nil_append,
      List.cons.injEq, Prod.mk.injEq, true_and, and_true, PyVal.int.injEq, PyVal.dict.injEq, Nat.cast_inj, Option.map_none,
      Option.map_some, Option.some.injEq, reduceCtorEq, false_and, and_false]

/-- Trees that look the same: parts that look the same. -/
theorem briefReport_shown (hash : Bytes → Str) {s s' : ShellLink} {c a w c' a' w' : Option DateTime} {n n' : Nat} {t t' : Option Bytes} :
    SameShown (.dict (briefReport s c a w n (seenBlocks hash s t))) (.dict (briefReport s' c' a' w' n' (seenBlocks hash s' t'))) ↔
      n = n' ∧ SameShown (.dict (briefHeader s.header c a w)) (.dict (briefHeader s'.header c' a' w')) ∧
        s.items.map briefTarget = s'.items.map briefTarget ∧
        (s.info.map briefInfo).getD [] = (s'.info.map briefInfo).getD [] ∧
        stringsObject s.strings = stringsObject s'.strings ∧
        ∀ k, (extraObject (seenBlocks hash s t)).get? k = (extraObject (seenBlocks hash s' t')).get? k := by
  constructor
  · intro h
    obtain ⟨a1, a2, a3, a4, a5, a6⟩ := briefReport_get s c a w n (seenBlocks hash s t)
    obtain ⟨b1, b2, b3, b4, b5, b6⟩ := briefReport_get s' c' a' w' n' (seenBlocks hash s' t')
    have hg := shown_get h (briefReport_keys _ _ _ _ _ _)
    have e1 := hg "size"
    have e2 := hg "header"
    have e3 := hg "target"
    have e4 := hg "link_info"
    have e5 := hg "data"
    have e6 := hg "extra"
    rw [a1, b1, Option.rel_some_some, shown_int, Nat.cast_inj] at e1
    rw [a2, b2, Option.rel_some_some] at e2
    rw [a3, b3] at e3
    rw [a4, b4, Option.rel_some_some] at e4
    rw [a5, b5, Option.rel_some_some] at e5
    rw [a6, b6, Option.rel_some_some] at e6
    have hpi : ∀ i : Option Info, Plain (.dict ((i.map briefInfo).getD [])) := by
      intro i
      cases i with
      | none => exact ⟨by simp, trivial⟩
      | some i => exact plain_briefInfo i
    refine ⟨e1, e2, ?_, PyVal.dict.inj (eq_of_shown e4 (hpi _) (hpi _)),
      PyVal.dict.inj (eq_of_shown e5 (plain_strings _) (plain_strings _)), fun k => ?_⟩
    · revert e3
      rcases s.items with _ | l <;> rcases s'.items with _ | l'
      · simp
      · rintro (_ | _)
      · rintro (_ | _)
      · rintro (e | _)
        simpa using eq_of_shown e (plain_briefTarget l) (plain_briefTarget l')
    · have := shown_get e6 (nodup_extra _) k
      have p1 := plain_extra hash s t k
      have p2 := plain_extra hash s' t' k
      revert this p1 p2
      rcases (extraObject (seenBlocks hash s t)).get? k with _ | v <;>
        rcases (extraObject (seenBlocks hash s' t')).get? k with _ | v'
      · simp
      · rintro (_ | _)
      · rintro (_ | _)
      · rintro (e | _) p1 p2
        rw [eq_of_shown e (p1 v rfl) (p2 v' rfl)]
  · rintro ⟨h1, h2, h3, h4, h5, h6⟩
    have h6 := shown_of_get (nodup_extra _) (nodup_extra _) h6
    unfold briefReport
    rw [h1, h4, h5]
    generalize briefHeader s.header c a w = H at *
    generalize briefHeader s'.header c' a' w' = H' at *
    generalize extraObject (seenBlocks hash s t) = X at *
    generalize extraObject (seenBlocks hash s' t') = X' at *
    rcases hi : s.items with _ | l <;> rcases hi' : s'.items with _ | l' <;> rw [hi, hi'] at h3
    · refine .dict (.refl _) rfl ?_
      simp only [Option.toList_none, List.map_nil, List.append_nil, List.cons_append, List.nil_append, List.map_cons,
        List.forall₂_cons, List.forall₂_nil_left_iff, SameShown.refl, h2, h6, and_self]
    · simp at h3
    · simp at h3
    · simp only [Option.map_some, Option.some.injEq] at h3
      refine .dict (.refl _) rfl ?_
      simp only [Option.toList_some, List.map_nil, List.cons_append, List.nil_append, List.map_cons, h3,
        List.forall₂_cons, List.forall₂_nil_left_iff, SameShown.refl, h2, h6, and_self]

/-! ### whole links -/

theorem same_time_iff {v v' : Int64} {r r' : Option DateTime} {w w' : List Warn} (h : TimeRead v r w) (h' : TimeRead v' r' w') :
    r = r' ↔ SameTime v v' := ⟨fun e => by subst e; exact time_same h h', same_time h h'⟩

theorem same_second_iff {v v' : Int64} {r r' : Option DateTime} {w w' : List Warn} (h : TimeRead v r w) (h' : TimeRead v' r' w') :
    SameShown (PyVal.opt .dt r) (PyVal.opt .dt r') ↔ SameSecond v v' := ⟨second_same h h', same_second h h'⟩

/-- C82: two well-formed links have the same reduced report just when they are the same as `BriefLink` says, the names of their
blocks come in the same order, and the links have the same size and are followed by data of the same length and digest. -/
theorem brief_report (env : Env) (cp cp' : Option String) (allow allow' : Bool) (s s' : ShellLink)
    (hv : s.Valid (TextProc.mk' env cp)) (hv' : s'.Valid (TextProc.mk' env cp')) (trailer trailer' : Bytes) (src src' : Source)
    (hs : src.bytes = s.encode ++ trailer) (hs' : src'.bytes = s'.encode ++ trailer') (f f' : LnkFile)
    (hf : (LnkFile.init env cp allow src).Returns f) (hf' : (LnkFile.init env cp' allow' src').Returns f') :
    (f.getJson false).res = (f'.getJson false).res ↔
      BriefLink env.sha256hex SameTime s s' ∧
        firstOccurrences (s.blocks.map fun b => blockName b.1.signature.toNat) =
          firstOccurrences (s'.blocks.map fun b => blockName b.1.signature.toNat) ∧
        SameAppended env.sha256hex (appended allow trailer) (appended allow' trailer') ∧ f.size = f'.size := by
  obtain ⟨g, ⟨h1, -⟩, hb⟩ := parses_link env cp allow s hv trailer src hs
  obtain ⟨g', ⟨h1', -⟩, hb'⟩ := parses_link env cp' allow' s' hv' trailer' src' hs'
  unfold Py.Returns at hf hf'
  rw [h1] at hf
  rw [h1'] at hf'
  simp only [Py.pure_res, Except.ok.injEq] at hf hf'
  subst hf hf'
  obtain ⟨c, wc, rc, tc⟩ := time_read s.header.creationTime
  obtain ⟨a, wa, ra, ta⟩ := time_read s.header.accessTime
  obtain ⟨w, ww, rw', tw⟩ := time_read s.header.writeTime
  obtain ⟨c', wc', rc', tc'⟩ := time_read s'.header.creationTime
  obtain ⟨a', wa', ra', ta'⟩ := time_read s'.header.accessTime
  obtain ⟨w', ww', rw'', tw'⟩ := time_read s'.header.writeTime
  rw [brief_exact hv hb rc ra rw', brief_exact hv' hb' rc' ra' rw'', Except.ok.injEq]
  refine briefReport_eq.trans ?_
  rw [brief_header_eq, same_time_iff tc tc', same_time_iff ta ta', same_time_iff tw tw',
    brief_targets_same (fun x hx => (hv.items x hx).1) (fun x hx => (hv'.items x hx).1), brief_infos_same hv.info hv'.info,
    strings_object_same, extra_same _ _ _ s s' (fun b hb => (hv.blocks b hb).1) (fun b hb => (hv'.blocks b hb).1)]
  exact ⟨fun ⟨e0, ⟨e1, e2, e3, e4, e5⟩, e6, e7, e8, e9, e10, e11, e12⟩ =>
      ⟨⟨⟨e1, e3, e4, e5, e2⟩, e6, e7, e8, e10, e11⟩, e9, e12, e0⟩,
    fun ⟨⟨⟨e1, e3, e4, e5, e2⟩, e6, e7, e8, e10, e11⟩, e9, e12, e0⟩ =>
      ⟨e0, ⟨e1, e2, e3, e4, e5⟩, e6, e7, e8, e9, e10, e11, e12⟩⟩

/-- C82: the same for what `print_json` prints by default: times to the second, and blocks of different kinds in any order. -/
theorem brief_printed (env : Env) (cp cp' : Option String) (allow allow' : Bool) (s s' : ShellLink)
    (hv : s.Valid (TextProc.mk' env cp)) (hv' : s'.Valid (TextProc.mk' env cp')) (trailer trailer' : Bytes) (src src' : Source)
    (hs : src.bytes = s.encode ++ trailer) (hs' : src'.bytes = s'.encode ++ trailer') (f f' : LnkFile)
    (hf : (LnkFile.init env cp allow src).Returns f) (hf' : (LnkFile.init env cp' allow' src').Returns f') :
    (f.printJson false).res = (f'.printJson false).res ↔
      BriefLink env.sha256hex SameSecond s s' ∧
        SameAppended env.sha256hex (appended allow trailer) (appended allow' trailer') ∧ f.size = f'.size := by
  obtain ⟨g, ⟨h1, -⟩, hb⟩ := parses_link env cp allow s hv trailer src hs
  obtain ⟨g', ⟨h1', -⟩, hb'⟩ := parses_link env cp' allow' s' hv' trailer' src' hs'
  unfold Py.Returns at hf hf'
  rw [h1] at hf
  rw [h1'] at hf'
  simp only [Py.pure_res, Except.ok.injEq] at hf hf'
  subst hf hf'
  obtain ⟨c, wc, rc, tc⟩ := time_read s.header.creationTime
  obtain ⟨a, wa, ra, ta⟩ := time_read s.header.accessTime
  obtain ⟨w, ww, rw', tw⟩ := time_read s.header.writeTime
  obtain ⟨c', wc', rc', tc'⟩ := time_read s'.header.creationTime
  obtain ⟨a', wa', ra', ta'⟩ := time_read s'.header.accessTime
  obtain ⟨w', ww', rw'', tw'⟩ := time_read s'.header.writeTime
  have hj := brief_exact hv hb rc ra rw'
  have hj' := brief_exact hv' hb' rc' ra' rw''
  rw [printed_of_json hj, printed_of_json hj', Except.ok.injEq]
  refine (dumps_same (v := .dict (briefReport s c a w g.size _)) (v' := .dict (briefReport s' c' a' w' g'.size _))
    ((g.dated_getJson false (string_keys hb)).out _ hj) ((g'.dated_getJson false (string_keys hb')).out _ hj')
    (distinct_documentedFile _ ((g.doc_getJson false (string_keys hb)).out _ hj))).trans ?_
  rw [briefReport_shown, brief_header_shown, same_second_iff tc tc', same_second_iff ta ta', same_second_iff tw tw',
    brief_targets_same (fun x hx => (hv.items x hx).1) (fun x hx => (hv'.items x hx).1), brief_infos_same hv.info hv'.info,
    strings_object_same, extra_values_same _ _ _ s s' (fun b hb => (hv.blocks b hb).1) (fun b hb => (hv'.blocks b hb).1)]
  exact ⟨fun ⟨e0, ⟨e1, e2, e3, e4, e5⟩, e6, e7, e8, e10, e11, e12⟩ =>
      ⟨⟨⟨e1, e3, e4, e5, e2⟩, e6, e7, e8, e10, e11⟩, e12, e0⟩,
    fun ⟨⟨⟨e1, e3, e4, e5, e2⟩, e6, e7, e8, e10, e11⟩, e12, e0⟩ =>
      ⟨e0, ⟨e1, e2, e3, e4, e5⟩, e6, e7, e8, e10, e11, e12⟩⟩

/-! ### examples -/

/-- `exampleLink` with other reserved fields and another date of the file. -/
def undatedLink : ShellLink :=
  { exampleLink with
    header := { exampleLink.header with reserved1 := 7 }
    items := some
      [ .root 0x1F 0x50 ⟨0x20D04FE0, 0x3AEA, 0x1069, 0xA2, 0xD8, 0x08, 0x00, 0x2B, 0x30, 0x30, 0x9D⟩ [],
        .file ⟨0x36, 0xFF, 1234, 0x5A22, 0x6000, 0x20, ⟨utf16 "Größe.txt".toList, "Größe.txt".toList⟩, [9, 8, 7]⟩,
        .other 0x98 [6, 6] ] }

theorem undatedLink_valid (env : Env) : undatedLink.Valid (TextProc.mk' env none) := by
  have h := otherBytesLink_valid env
  refine ⟨h.headerSize, h.hasItems, fun l hl => ?_, h.hasInfo, h.info, h.announced, h.strings, h.blocks⟩
  obtain rfl := Option.some.inj hl
  have h1 := h.items _ rfl
  refine ⟨?_, by decide +kernel⟩
  have hr := h1.1 _ List.mem_cons_self
  have hf := h1.1 _ (List.mem_cons_of_mem _ List.mem_cons_self)
  have ho := h1.1 _ (List.mem_cons_of_mem _ (List.mem_cons_of_mem _ List.mem_cons_self))
  simp only [List.mem_cons, List.not_mem_nil, or_false, forall_eq_or_imp, forall_eq]
  exact ⟨hr, hf, ho⟩

/-- The reduced reports of these two links are the same, the full ones are not. -/
example (env : Env) : ∃ f f', LnkFile.init env none true (.indata otherBytesLink.encode) = pure f ∧
    LnkFile.init env none true (.indata undatedLink.encode) = pure f' ∧
    (f.getJson false).res = (f'.getJson false).res ∧ (f.getJson true).res ≠ (f'.getJson true).res := by
  have hv := otherBytesLink_valid env
  have hv' := undatedLink_valid env
  obtain ⟨f, hf, hs, -⟩ := link_roundtrip env none true otherBytesLink hv (.indata _) rfl
  obtain ⟨f', hf', hs', -⟩ := link_roundtrip env none true undatedLink hv' (.indata _) rfl
  refine ⟨f, f', hf, hf', ?_, fun h => ?_⟩
  · refine (brief_report env none none true true _ _ hv hv' [] [] _ _ (List.append_nil _).symm (List.append_nil _).symm
      f f' (by rw [hf]; rfl) (by rw [hf']; rfl)).2 ?_
    have hx := (extra_values_same _ _ env.sha256hex otherBytesLink otherBytesLink (fun b hb => (hv.blocks b hb).1)
      (fun b hb => (hv.blocks b hb).1) none none).1 fun _ => rfl
    refine ⟨⟨⟨rfl, sameTime_refl _, sameTime_refl _, sameTime_refl _, .inl rfl⟩, ?_,
      (brief_infos_same hv.info hv'.info).1 rfl, rfl, hx.1, hx.2.1⟩, rfl, rfl, ?_⟩
    · exact .some (.cons (.same .root) (.cons (.file ⟨.inl rfl, rfl, rfl, rfl⟩) (.cons (.same (.other rfl)) .nil)))
    · rw [hs, hs']
      decide +kernel
  · have := (report_determines env none none true true _ _ hv hv' [] [] _ _ (List.append_nil _).symm (List.append_nil _).symm
      f f' (by rw [hf]; rfl) (by rw [hf']; rfl) h).1.header.exact
    have := congrArg Header.reserved1 this
    revert this
    decide

theorem brief_attributes {e e' : FileEntry} (h : BriefItem (.file e) (.file e')) : e.attributes = e'.attributes := by
  cases h with
  | file h => exact h.attributes
  | same h =>
    cases h with
    | file h => exact h.attributes
    | cpl h => simp [Item.cplParts] at h

/-- Another attribute of the file is seen. -/
example (env : Env) (s' : ShellLink) (hv' : s'.Valid (TextProc.mk' env none)) (e : FileEntry) (he : e.attributes ≠ 0x20) (r o : Item)
    (hi : s'.items = some [r, .file e, o]) : ∃ f f', LnkFile.init env none true (.indata otherBytesLink.encode) = pure f ∧
    LnkFile.init env none true (.indata s'.encode) = pure f' ∧
    (f.printJson false).res ≠ (f'.printJson false).res := by
  have hv := otherBytesLink_valid env
  obtain ⟨f, hf, hs, -⟩ := link_roundtrip env none true otherBytesLink hv (.indata otherBytesLink.encode) rfl
  obtain ⟨f', hf', hs', -⟩ := link_roundtrip env none true s' hv' (.indata s'.encode) rfl
  refine ⟨f, f', hf, hf', fun h => ?_⟩
  have hb : (LnkFile.init env none true (.indata otherBytesLink.encode)).Returns f := by rw [hf]; rfl
  have hb' : (LnkFile.init env none true (.indata s'.encode)).Returns f' := by rw [hf']; rfl
  have h1 := ((brief_printed env none none true true otherBytesLink s' hv hv' [] [] (.indata otherBytesLink.encode)
    (.indata s'.encode) (List.append_nil _).symm (List.append_nil _).symm f f' hb hb').1 h).1.items
  rw [hi, show otherBytesLink.items = some otherBytesItems from rfl, Option.rel_some_some] at h1
  unfold otherBytesItems at h1
  rw [List.forall₂_cons, List.forall₂_cons] at h1
  exact he (brief_attributes h1.2.1).symm

end Verif.Props
