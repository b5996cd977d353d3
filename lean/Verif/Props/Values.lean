import Verif.Lemmas.ValuesExtra
import Verif.Lemmas.ValuesInfo
import Verif.Lemmas.ValuesStrings
import Verif.Props.Blocks
import Verif.Props.Sections

/-
C74: every value of the report, for arbitrary bytes.
-/

namespace Verif.Props

open Spec Py Values

/-! ### the extra data -/

namespace Values

theorem noKeyError {tp : TextProc} (hcp : UsableCodePage tp) : ∀ b, Only (fun e => e ≠ .keyError) (tp.ansiToStr b) :=
  fun b => only_ansiToStr hcp b

theorem unknownReports {tp : TextProc} (hcp : UsableCodePage tp) {l : List Piece} (h : Blocks.Good l) :
    UnknownReports tp ((reportsOf "UNKNOWN_BLOCK" (ExtraData.objects tp l)).map .dict)
      (l.filter fun p => p.signature.map blockName == some "UNKNOWN_BLOCK") := by
  induction l with
  | nil => trivial
  | cons p l ih =>
    have ih := ih (h.mono fun q hq => List.mem_cons_of_mem _ hq)
    rcases hs : p.signature with _ | s
    · rw [Blocks.objects_cons_none hs, List.filter_cons_of_neg (by simp [hs])]
      exact ih
    · by_cases hk : blockName s = "UNKNOWN_BLOCK"
      · obtain ⟨d, h1, h2, h3⟩ := Blocks.reportsOf_cons h hcp "UNKNOWN_BLOCK" hs hk (Blocks.readable_of_unknown hk _)
        rw [h3, List.map_cons, List.filter_cons_of_pos (by simp [hs, hk])]
        exact ⟨⟨s, d, hs, rfl, block_values (noKeyError hcp) (h.size p List.mem_cons_self s hs) (h.length p List.mem_cons_self) h1⟩, ih⟩
      · rw [Blocks.objects_cons_some hs, List.filter_cons_of_neg (by simp [hs, hk])]
        have e : reportsOf "UNKNOWN_BLOCK" (⟨extraKind s, tp, p.bytes⟩ :: ExtraData.objects tp l) =
            reportsOf "UNKNOWN_BLOCK" (ExtraData.objects tp l) := by
          unfold reportsOf
          rw [List.filterMap_cons]
          simp only [extraKind_name, hk, if_false]
        rw [e]
        exact ih

theorem okNames_objects {tp : TextProc} (hcp : UsableCodePage tp) {l : List Piece} (h : Blocks.Good l) :
    okNames (ExtraData.objects tp l) = readableNames l := by
  induction l with
  | nil => rfl
  | cons p l ih =>
    have ih := ih (h.mono fun q hq => List.mem_cons_of_mem _ hq)
    unfold okNames readableNames at ih ⊢
    rcases hs : p.signature with _ | s
    · rw [Blocks.objects_cons_none hs, List.filterMap_cons, hs]
      exact ih
    · rw [Blocks.objects_cons_some hs, List.filterMap_cons, List.filterMap_cons, hs, ih]
      have hok := h.okIff hcp List.mem_cons_self hs
      simp only [Option.bind_some]
      by_cases hr : BlockReadable s p.bytes
      · obtain ⟨d, hd⟩ := hok.2 hr
        rw [hd, if_pos hr]
        simp only [extraKind_name]
      · rcases hd : (Extra.asDict ⟨extraKind s, tp, p.bytes⟩).res with e | d
        · rw [if_neg hr]
        · exact absurd (hok.1 ⟨d, hd⟩) hr

theorem mem_readableNames {l : List Piece} {name : String} : name ∈ readableNames l ↔ ∃ p ∈ l, ReportedAs name p := by
  unfold readableNames ReportedAs
  rw [List.mem_filterMap]
  constructor
  · rintro ⟨p, hp, h⟩
    rcases hs : p.signature with _ | s
    · simp [hs] at h
    · rw [hs, Option.bind_some] at h
      split at h
      · rename_i hr
        exact ⟨p, hp, s, hs, Option.some.inj h, hr⟩
      · cases h
  · rintro ⟨p, hp, s, hs, hk, hr⟩
    exact ⟨p, hp, by rw [hs, Option.bind_some, if_pos hr, hk]⟩

theorem firsts_append_new {l : List String} {a : String} (h : a ∉ l) : firsts (l ++ [a]) = firsts l ++ [a] := by
  induction l with
  | nil => rfl
  | cons b l ih =>
    simp only [List.mem_cons, not_or] at h
    rw [List.cons_append, firsts, firsts, ih h.2, List.filter_append]
    simp [h.1]

theorem extra_mem_names {tp : TextProc} {allow : Bool} {l : List Piece} {last : Bytes} {E : Dict} (h : ExtraReport tp allow l last E)
    (name : String) : name ∈ E.keys ↔ (∃ p ∈ l, ReportedAs name p) ∨ (name = "TERMINAL_BLOCK" ∧ allow = true ∧ 4 < last.length) := by
  rw [h.names, List.mem_append, mem_firsts, mem_readableNames]
  by_cases ht : allow = true ∧ 4 < last.length <;> simp [ht]

theorem extraReport {tp : TextProc} (hcp : UsableCodePage tp) {allow : Bool} {l : List Piece} {last : Bytes} (hg : Blocks.Good l)
    {x : ExtraData} (hx : x = ⟨ExtraData.objects tp l ++ if allow = true ∧ 4 < last.length then [⟨.terminal, tp, last⟩] else []⟩)
    {E : Dict} (hE : x.asDict.res = .ok E) : ExtraReport tp allow l last E := by
  obtain ⟨E', hE', hn, hnamed, hunk⟩ := extra_report x (Blocks.caught_of_ok hE)
  obtain rfl : E' = E := by rw [hE'] at hE; exact Except.ok.inj hE
  generalize hT : (if allow = true ∧ 4 < last.length then [(⟨.terminal, tp, last⟩ : Extra)] else []) = T at hx
  have hdata : x.data = ExtraData.objects tp l ++ T := by rw [hx]
  have hTt : ∀ name, name ≠ "TERMINAL_BLOCK" → reportsOf name T = [] := by
    intro name h
    rw [← hT]
    split
    · unfold reportsOf
      rw [List.filterMap_cons, if_neg (fun h' => h h'.symm)]
      rfl
    · rfl
  have hterm := hnamed "TERMINAL_BLOCK" (by decide)
  have h0 : reportsOf "TERMINAL_BLOCK" (ExtraData.objects tp l) = [] :=
    Blocks.reportsOf_nil hg hcp _ fun p _ ⟨s, _, hk, _⟩ => Blocks.blockName_ne_terminal s hk
  rw [hdata, Blocks.reportsOf_append, h0, List.nil_append, ← hT] at hterm
  rw [hdata, Blocks.reportsOf_append, hTt _ (by decide), List.append_nil] at hunk
  have hiff : (∃ x ∈ ExtraData.objects tp l ++ T, x.cls.name = "UNKNOWN_BLOCK") ↔
      ∃ p ∈ l, ReportedAs "UNKNOWN_BLOCK" p := by
    constructor
    · rintro ⟨x, hx, hk⟩
      rcases List.mem_append.1 hx with hx | hx
      · obtain ⟨p, hp, s, hs, rfl⟩ := Blocks.mem_objects hx
        exact ⟨p, hp, s, hs, by rw [← extraKind_name]; exact hk, Blocks.readable_of_unknown (by rw [← extraKind_name]; exact hk) _⟩
      · rw [← hT] at hx
        split at hx
        · simp only [List.mem_singleton] at hx
          subst hx
          exact absurd (show "TERMINAL_BLOCK" = "UNKNOWN_BLOCK" from hk) (by decide)
        · cases hx
    · rintro ⟨p, hp, s, hs, hk, -⟩
      refine ⟨⟨extraKind s, tp, p.bytes⟩, List.mem_append_left _ ?_, ?_⟩
      · exact List.mem_filterMap.2 ⟨p, hp, by simp [hs]⟩
      · simp only [extraKind_name]
        exact hk
  have hyes : (∃ p ∈ l, ReportedAs "UNKNOWN_BLOCK" p) → Dict.get? E' "UNKNOWN_BLOCK" =
      some (.list ((reportsOf "UNKNOWN_BLOCK" (ExtraData.objects tp l)).map .dict)) := fun hy => by rw [hunk, if_pos (hiff.2 hy)]
  have hno : ¬ (∃ p ∈ l, ReportedAs "UNKNOWN_BLOCK" p) → Dict.get? E' "UNKNOWN_BLOCK" = none :=
    fun hy => by rw [hunk, if_neg fun h => hy (hiff.1 h)]
  clear hunk
  have hlast : ∀ name pre p post s, name ≠ "UNKNOWN_BLOCK" → l = pre ++ p :: post → ReportedAs name p → p.signature = some s →
      (∀ q ∈ post, ¬ ReportedAs name q) → ∃ d, Dict.get? E' name = some (.dict d) ∧ BlockReport tp s p d := by
    rintro name pre p post s hu rfl ⟨s', hs', hk, hr⟩ hs hpost
    obtain rfl : s' = s := Option.some.inj (hs'.symm.trans hs)
    have h2 : name ≠ "TERMINAL_BLOCK" := fun h => Blocks.blockName_ne_terminal s' (hk.trans h)
    obtain ⟨d, e1, e2, e3⟩ := Blocks.reportsOf_cons (hg.mono (l' := p :: post) fun q hq => List.mem_append_right _ hq) hcp name hs hk hr
    rw [Blocks.reportsOf_nil (hg.mono fun q hq => by simp [hq]) hcp name hpost] at e3
    refine ⟨d, ?_, block_values (noKeyError hcp) (hg.size p (by simp) s' hs) (hg.length p (by simp)) e1⟩
    rw [hnamed name hu, hdata, Blocks.reportsOf_append, hTt name h2, List.append_nil, ExtraData.objects_append, Blocks.reportsOf_append, e3]
    simp
  refine ⟨?_, hlast, fun v hv => ?_, fun v hv => ?_⟩
  · have := asDictLoop_keys (xs := x.data) (res := []) ?_ hE
    · simp only [Dict.keys, List.map_nil, List.nil_append, List.not_mem_nil, not_false_eq_true, decide_true, List.filter_true] at this
      have e : okNames x.data = readableNames l ++ okNames T := by
        rw [hdata, ← okNames_objects hcp hg]
        unfold okNames
        rw [List.filterMap_append]
      have e2 : "TERMINAL_BLOCK" ∉ readableNames l := fun hm => by
        obtain ⟨p, -, s, -, hk, -⟩ := mem_readableNames.1 hm
        exact Blocks.blockName_ne_terminal s hk
      show E'.map Prod.fst = _
      rw [this, e, ← hT]
      split
      · exact firsts_append_new e2
      · simp [okNames]
    · intro y hy hc
      rw [hdata] at hy
      rcases List.mem_append.1 hy with hy | hy
      · obtain ⟨p, hp, s, hs, rfl⟩ := Blocks.mem_objects hy
        exact (hg.okIff hcp hp hs).2 (Blocks.readable_of_unknown (by rw [← extraKind_name]; dsimp only at hc; rw [hc]; rfl) _)
      · rw [← hT] at hy
        split at hy
        · simp only [List.mem_singleton] at hy
          subst hy
          cases hc
        · cases hy
  · by_cases hy : ∃ p ∈ l, ReportedAs "UNKNOWN_BLOCK" p
    · rw [hyes hy] at hv
      exact ⟨_, (Option.some.inj hv).symm, unknownReports hcp hg⟩
    · rw [hno hy] at hv
      cases hv
  · split at hterm
    · rw [hterm] at hv
      rw [← Option.some.inj hv]
      refine ⟨_, rfl, rfl, ?_, rfl, rfl, trivial⟩
      have : 4 + (last.drop 4).length = last.length := by rw [List.length_drop]; omega
      show PyVal.nat (4 + (last.drop 4).length) = _
      rw [this]
      rfl
    · rw [hterm] at hv
      cases hv

theorem location_name {b : Bytes} {k : Nat} {kind : String} (h : infoLocation b k = some kind) :
    LnkFile.locationName (LnkFile.classOf kind) = kind := by
  unfold infoLocation at h
  repeat' split at h
  all_goals first
    | (cases h; done)
    | (rw [← Option.some.inj h]; rfl)

end Values

/-! ### C74 -/

/-- C74: the entries of the report of a file, and their values, read off its bytes. -/
theorem report_values (env : Env) (cp : Option String) (hcp : UsableCodePage (TextProc.mk' env cp)) (allow : Bool) (src : Source)
    (f : LnkFile) (hf : (LnkFile.init env cp allow src).res = .ok f) :
    ∃ L l last, layout src.bytes = some L ∧ Cut (src.bytes.drop L.extraAt) l last ∧
      ∀ j, (f.getJson true).res = .ok j → Fits j (reportEntries (TextProc.mk' env cp) src.bytes L allow l last) := by
  obtain ⟨L, l, last, hL, hc, P, h4, hg⟩ := Blocks.pieces env cp hcp allow src f hf
  refine ⟨L, l, last, hL, hc, fun j hj => ?_⟩
  obtain ⟨header, target, info, E, h1, h2, h3, hE, rfl⟩ := LnkFile.getJson_ok_iff.1 hj
  have hE := Values.extraReport hcp hg P.extras hE
  have h1 := header_values P.header h1
  have hd := strings_values (h := f.header) (flags := L.flags) (by rw [P.header]; exact (layout_flags hL).1)
    (StringData.readable_of_usable hcp _) P.strings
  obtain ⟨n, hn, hsize⟩ := P.size
  have ht : Fits ((target.map fun t => if true then t else LnkFile.pruneTarget t).toList.map fun t => ("target", PyVal.dict t))
      (if L.flags.testBit 0 then [("target", fun v => ∃ d, v = PyVal.dict d ∧ Fits d (targetEntries (TextProc.mk' env cp) src.bytes L))]
        else []) := by
    have hT := P.targets
    unfold LnkFile.jsonTarget at h2
    by_cases h0 : L.flags.testBit 0 = true
    · rw [if_pos h0] at hT
      rw [hT] at h2
      rw [if_pos h0]
      obtain ⟨k, e1, h2⟩ := bind_ok_iff.1 h2
      obtain ⟨items, e2, h2⟩ := bind_ok_iff.1 h2
      rw [← Except.ok.inj h2, P.targetIndex]
      refine ⟨rfl, ⟨_, rfl, rfl, ?_, rfl, ⟨items, rfl, items_values (Values.noKeyError hcp) e2⟩, rfl, rfl, trivial⟩, trivial⟩
      have : uAt 2 (src.bytes.drop L.headerSize) 0 = some k := (uAt_iff_ok (by omega)).1 e1
      rw [uAt_drop _ _ _ _ (by omega)] at this
      exact ⟨k, this, rfl⟩
    · rw [if_neg h0] at hT
      rw [hT] at h2
      rw [if_neg h0, ← Except.ok.inj h2]
      trivial
  have hi : Fits info (match if infoAnnounced L.flags then infoLocation src.bytes L.infoAt else none with
      | none => []
      | some kind => infoEntries (TextProc.mk' env cp) (src.bytes.drop L.infoAt) kind) := by
    have hI := P.info
    by_cases h0 : infoAnnounced L.flags = true
    · rw [if_pos h0] at hI ⊢
      rcases hk : infoLocation src.bytes L.infoAt with _ | kind
      · rw [hk] at hI
        unfold LnkFile.jsonInfo at h3
        rw [show f.info = none from hI] at h3
        rw [← Except.ok.inj h3]
        trivial
      · rw [hk] at hI
        have := info_values hI h3
        rw [Values.location_name hk] at this
        exact this
    · rw [if_neg h0] at hI ⊢
      unfold LnkFile.jsonInfo at h3
      rw [hI] at h3
      rw [← Except.ok.inj h3]
      trivial
  unfold reportEntries
  refine fits_append (fits_append ⟨rfl, ?_, rfl, ⟨header, rfl, h1⟩, trivial⟩ ht) ⟨rfl, ⟨info, rfl, hi⟩, rfl, ⟨_, rfl, hd⟩, rfl, ⟨E, rfl, hE⟩, trivial⟩
  show PyVal.nat f.size = _
  rw [hsize, hn]
  rfl

/-- The file with the short console block: what is reported of its code page, of its unknown block and of its header. -/
example (env : Env) (allow : Bool) (f : LnkFile) (hf : (LnkFile.init env none allow (.indata shortConsole)).res = .ok f)
    (j : Dict) (hj : (f.getJson true).res = .ok j) :
    ∃ h E : Dict, j.get? "header" = some (.dict h) ∧ h.get? "header_size" = some (.int 76) ∧
      h.get? "guid" = some (.str "07070707-0707-0707-0707-070707070707".toList) ∧ j.get? "target" = none ∧
      j.get? "link_info" = some (.dict []) ∧ j.get? "data" = some (.dict []) ∧ j.get? "extra" = some (.dict E) ∧
      E.get? "CONSOLE_CODEPAGE_BLOCK" = some (.dict [("size", .int 12), ("code_page", .int 1252)]) ∧
      E.get? "UNKNOWN_BLOCK" = some (.list [.dict [("size", .int 9), ("extra_data_sha256", .str (env.sha256hex (le 4 7 ++ [1])))]]) := by
  obtain ⟨L, l, last, hL, hc, h⟩ := report_values env none (usable_default env) allow _ f hf
  simp only [Source.bytes] at hL hc h
  rw [shortConsole_layout] at hL
  cases hL
  obtain ⟨rfl, rfl⟩ := cut_unique hc shortConsole_cut
  have h := h j hj
  obtain ⟨_, g1, h1, rfl, f1⟩ := fits_get h "header"
  obtain ⟨_, g2, i, rfl, f2⟩ := fits_get h "link_info"
  obtain ⟨_, g3, s, rfl, f3⟩ := fits_get h "data"
  obtain ⟨_, g4, E, rfl, f4⟩ := fits_get h "extra"
  have g5 : j.get? "target" = none := fits_get h "target"
  obtain ⟨_, g6, k, hk, rfl⟩ := fits_get f1 "header_size"
  obtain ⟨_, g7, g, hg, rfl⟩ := fits_get f1 "guid"
  obtain rfl : k = 76 := by
    have : uAt 4 shortConsole 0 = some 76 := by decide +kernel
    exact Option.some.inj (hk.symm.trans this)
  have hg : g.text = "07070707-0707-0707-0707-070707070707".toList := by
    have e1 : between shortConsole 4 (4 + 16) = (⟨0x07070707, 0x0707, 0x0707, 7, 7, 7, 7, 7, 7, 7, 7⟩ : Guid).encode := by decide +kernel
    have := congrArg (fun b => (parseUuid b).res) (hg.symm.trans e1)
    simp only [parseUuid_encode, pure_res, Except.ok.injEq] at this
    rw [this]
    decide +kernel
  rw [hg] at g7
  obtain ⟨d, g8, rest, rfl, f8⟩ := f4.named "CONSOLE_CODEPAGE_BLOCK" [_] _ [_] 0xA0000004 (by decide) rfl
    ⟨_, rfl, by decide, shortConsole_blocks.2.1⟩ rfl (by
      intro q hq
      simp only [List.mem_singleton] at hq
      subst hq
      rintro ⟨s, hs, hk, -⟩
      cases hs
      exact absurd hk (by decide))
  have hu : "UNKNOWN_BLOCK" ∈ E.keys := (Values.extra_mem_names f4 _).2 (.inl ⟨_, .tail _ (.tail _ (.head _)), _, rfl, by decide, shortConsole_blocks.2.2⟩)
  obtain ⟨v, hv⟩ : ∃ v, E.get? "UNKNOWN_BLOCK" = some v := by
    rcases hv : E.get? "UNKNOWN_BLOCK" with _ | v
    · exact absurd hu ((Dict.get?_none_iff _ _).1 hv)
    · exact ⟨v, rfl⟩
  obtain ⟨vs, rfl, f9⟩ := f4.unknown v hv
  have hfil : (shortConsolePieces.filter fun p => p.signature.map blockName == some "UNKNOWN_BLOCK") =
      [⟨9, le 4 9 ++ le 4 7 ++ [1], some 7⟩] := rfl
  rw [hfil] at f9
  have hi : i = [] := by
    rcases i with _ | ⟨kv, i⟩
    · rfl
    · exact f2.elim
  have hs : s = [] := by
    rcases s with _ | ⟨kv, s⟩
    · rfl
    · exact f3.elim
  rw [hi] at g2
  rw [hs] at g3
  refine ⟨h1, E, g1, g6, g7, g5, g2, g3, g4, ?_, ?_⟩
  · rw [g8]
    rcases rest with _ | ⟨⟨k, v⟩, rest⟩
    · exact f8.elim
    obtain ⟨rfl, ⟨n, e, rfl⟩, f8⟩ := f8
    rcases rest with _ | ⟨kv, rest⟩
    · obtain rfl : n = 1252 := by
        have : uAt 4 (le 4 12 ++ le 4 0xA0000004 ++ le 4 1252) 8 = some 1252 := by decide +kernel
        exact Option.some.inj (e.symm.trans this)
      rfl
    · exact f8.elim
  · rw [hv]
    rcases vs with _ | ⟨v, _ | ⟨w, vs⟩⟩
    · exact f9.elim
    · obtain ⟨⟨s, d, e, rfl, rest, rfl, f9⟩, -⟩ := f9
      obtain rfl : 7 = s := Option.some.inj e
      rcases rest with _ | ⟨⟨k, v⟩, _ | ⟨kv, rest⟩⟩
      · exact f9.elim
      · obtain ⟨rfl, rfl, -⟩ := f9
        rfl
      · exact f9.2.2.elim
    · exact f9.2.elim

end Verif.Props
