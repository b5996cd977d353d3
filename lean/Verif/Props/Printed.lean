import Verif.Lemmas.Plain

/-
C69: what the printed report says.
-/

namespace Verif.Props

open Spec LnkHeader

/-- C69: dates are only under the keys for dates, and nothing else is there: in every tree `get_json` returns. -/
theorem json_dated (env : Env) (cp : Option String) (hcp : UsableCodePage (TextProc.mk' env cp)) (allow all : Bool)
    (src : Source) (f : LnkFile) (hf : (LnkFile.init env cp allow src).res = .ok f) (j : Dict)
    (hj : (f.getJson all).res = .ok j) : Dated (.dict j) := by
  obtain ⟨L, l, last, hl, hc, h⟩ := constructed env cp hcp allow src f hf
  exact (f.dated_getJson all h.stringKeys).out j hj

theorem printed_text {f : LnkFile} {all : Bool} {text : Str} (h : (f.printJson all).res = .ok text) :
    ∃ j, (f.getJson all).res = .ok j ∧ text = Json.dumps (.dict j) := by
  unfold LnkFile.printJson at h
  rw [Py.bind_ok_iff] at h
  obtain ⟨j, hj, h⟩ := h
  simp only [Py.pure_res, Except.ok.injEq] at h
  exact ⟨j, hj, h.symm⟩

theorem printed_of_json {f : LnkFile} {all : Bool} {j : Dict} (h : (f.getJson all).res = .ok j) :
    (f.printJson all).res = .ok (Json.dumps (.dict j)) := by
  unfold LnkFile.printJson
  rw [Py.bind_ok_iff]
  exact ⟨j, h, rfl⟩

/-- C69: two files give the same text just when their trees are the same up to the order of entries and parts of seconds:
for all accepted files, with all options. -/
theorem print_json_same (env : Env) (cp cp' : Option String) (hcp : UsableCodePage (TextProc.mk' env cp))
    (hcp' : UsableCodePage (TextProc.mk' env cp')) (allow allow' all all' : Bool) (src src' : Source) (f f' : LnkFile)
    (hf : (LnkFile.init env cp allow src).res = .ok f) (hf' : (LnkFile.init env cp' allow' src').res = .ok f')
    (j j' : Dict) (hj : (f.getJson all).res = .ok j) (hj' : (f'.getJson all').res = .ok j') :
    (f.printJson all).res = (f'.printJson all').res ↔ SameShown (.dict j) (.dict j') := by
  rw [printed_of_json hj, printed_of_json hj', Except.ok.injEq]
  exact dumps_same (json_dated env cp hcp allow all src f hf j hj) (json_dated env cp' hcp' allow' all' src' f' hf' j' hj')
    (distinct_documentedFile j (json_documented env cp hcp allow all src f hf j hj))

/-! ### header -/

theorem shown_refl (n : Nat) : ∀ v : PyVal, sizeOf v < n → SameShown v v := by
  induction n with
  | zero => intro v h; omega
  | succ n ih =>
    intro v hn
    cases v with
    | none => exact .none
    | int i => exact .int i
    | str s => exact .str s
    | dt d => exact .date rfl
    | list l =>
      refine .list (List.forall₂_same.2 fun v hv => ih v ?_)
      have := List.sizeOf_lt_of_mem hv
      simp only [PyVal.list.sizeOf_spec] at hn
      omega
    | dict d =>
      refine .dict (.refl _) rfl (List.forall₂_same.2 fun v hv => ih v ?_)
      obtain ⟨kv, hkv, rfl⟩ := List.mem_map.1 hv
      have := List.sizeOf_lt_of_mem hkv
      obtain ⟨k, v⟩ := kv
      simp only [PyVal.dict.sizeOf_spec, Prod.mk.sizeOf_spec] at *
      omega

theorem SameShown.refl (v : PyVal) : SameShown v v := shown_refl _ v (Nat.lt_succ_self _)


theorem shown_int {i j : Int} : SameShown (.int i) (.int j) ↔ i = j :=
  ⟨fun h => by cases h; rfl, fun h => h ▸ .int i⟩

theorem shown_str {s t : Str} : SameShown (.str s) (.str t) ↔ s = t :=
  ⟨fun h => by cases h; rfl, fun h => h ▸ .str s⟩

theorem filetime_second (d : DateTime) : filetime d = filetime { d with microsecond := 0 } + 10 * d.microsecond := by
  rw [filetime_eq, filetime_eq]
  unfold instant
  push_cast
  ring

theorem second_same {v v' : Int64} {r r' : Option DateTime} {w w' : List Warn} (h : TimeRead v r w) (h' : TimeRead v' r' w')
    (hs : SameShown (PyVal.opt .dt r) (PyVal.opt .dt r')) : SameSecond v v' := by
  rcases r with _ | d <;> rcases r' with _ | d'
  · refine .inr ⟨?_, ?_⟩
    · by_cases h0 : v = 0
      · exact .inl h0
      · exact .inr (h.missing h0 rfl).2
    · by_cases h0 : v' = 0
      · exact .inl h0
      · exact .inr (h'.missing h0 rfl).2
  · cases hs
  · cases hs
  · obtain ⟨v1, h1, -⟩ := h.near d rfl
    obtain ⟨v2, h2, -⟩ := h'.near d' rfl
    have m1 := v1.2.2.2.2.2.2
    have m2 := v2.2.2.2.2.2.2
    have he : ({ d with microsecond := 0 } : DateTime) = { d' with microsecond := 0 } := by
      have : SameShown (.dt d) (.dt d') := hs
      cases this with
      | date h => exact h
    rw [filetime_second, he] at h1
    rw [filetime_second] at h2
    have s1 := h.stamp d rfl
    have s2 := h'.stamp d' rfl
    have z1 : v ≠ 0 := fun h0 => by simpa using (h.zero h0).1
    have z2 : v' ≠ 0 := fun h0 => by simpa using (h'.zero h0).1
    refine .inl ⟨fun hn => hn.elim z1 s1.2, fun hn => hn.elim z2 s2.2, ?_, _, _, s1.1, s2.1, ?_⟩
    swap
    · have hs : ∀ d : DateTime, d.microsecond < 1000000 → instant d / 1000000 = instant { d with microsecond := 0 } / 1000000 := by
        intro d hd
        unfold instant
        dsimp only
        omega
      have := (hs d (by omega)).trans ((congrArg (fun t => instant t / 1000000) he).trans (hs d' (by omega)).symm)
      exact_mod_cast this
    rw [abs_le] at h1 h2
    rw [abs_lt]
    omega

theorem headerObject_keys (h : Header) (c a w : Option DateTime) : (headerObject h c a w).map (·.1) = headerKeys := by
  unfold headerObject
  simp only [List.map_cons, List.map_nil]
  rfl

theorem printed_header_same {h h' : Header} {c a w c' a' w' : Option DateTime} {wc wa ww wc' wa' ww' : List Warn}
    (tc : TimeRead h.creationTime c wc) (ta : TimeRead h.accessTime a wa) (tw : TimeRead h.writeTime w ww)
    (tc' : TimeRead h'.creationTime c' wc') (ta' : TimeRead h'.accessTime a' wa') (tw' : TimeRead h'.writeTime w' ww')
    (e : SameShown (.dict (headerObject h c a w)) (.dict (headerObject h' c' a' w'))) : SamePrintedHeader h h' := by
  have e := shown_entries e (by rw [headerObject_keys]; exact LnkFile.headerKeys_nodup) (by rw [headerObject_keys, headerObject_keys])
  unfold headerObject at e
  simp only [List.map_cons, List.map_nil, List.forall₂_cons, shown_int, shown_str, Nat.cast_inj, text_inj, UInt32.toNat_inj,
    UInt16.toNat_inj, String.toList_inj, Int32.toInt_inj] at e
  obtain ⟨e1, e2, e3, hc, ha, hw, e4, e5, e6, -, e7, -, -, e8, e9, e10, e11, -⟩ := e
  have l1 := h.hotKeyLow.toNat_lt
  have l2 := h'.hotKeyLow.toNat_lt
  have k1 : h.hotKeyLow = h'.hotKeyLow := UInt8.toNat_inj.1 (by omega)
  have k2 : h.hotKeyHigh = h'.hotKeyHigh := UInt8.toNat_inj.1 (by omega)
  exact ⟨by simp only [e1, e2, e3, e4, e5, e8, e9, e10, e11, k1, k2], second_same tc tc' hc, second_same ta ta' ha,
    second_same tw tw' hw, showCommand_same e6⟩

/-! ### whole links -/

/-- All values in the extra data object of a link are seen exactly. -/
theorem plain_extra (hash : Bytes → Str) (s : ShellLink) (t : Option Bytes) (k : String) (v : PyVal)
    (h : (extraObject (seenBlocks hash s t)).get? k = some v) : Plain v := by
  by_cases hT : k = "TERMINAL_BLOCK"
  · rw [hT, get_terminal] at h
    obtain ⟨b, -, rfl⟩ := Option.map_eq_some_iff.1 h
    exact plain_terminal _ _
  · by_cases hu : k = "UNKNOWN_BLOCK"
    · rw [hu, get_unknown] at h
      split at h
      · simp at h
      · rw [Option.some.injEq] at h
        subst h
        rw [plain_list]
        intro v hv
        obtain ⟨b, -, rfl⟩ := List.mem_map.1 hv
        exact plain_block _ _ _
    · rw [get_block hash s t hT hu] at h
      obtain ⟨b, -, rfl⟩ := Option.map_eq_some_iff.1 h
      exact plain_block _ _ _

theorem nodup_extra (l : List (String × Dict)) : ((extraObject l).map (·.1)).Nodup := by
  have := ExtraData.keys_object l
  unfold Dict.keys at this
  rw [this]
  exact ExtraData.first_nodup _

theorem linkReport_keys (s : ShellLink) (c a w : Option DateTime) (n : Nat) (x : List (String × Dict)) :
    ((linkReport s c a w n x).map (·.1)).Nodup := by
  unfold linkReport
  rcases s.items with _ | l
  · simp only [Option.toList_none, List.map_nil, List.append_nil, List.cons_append, List.nil_append, List.map_cons]
    decide +kernel
  · simp only [Option.toList_some, List.map_nil, List.cons_append, List.nil_append, List.map_cons]
    decide +kernel

theorem linkReport_get (s : ShellLink) (c a w : Option DateTime) (n : Nat) (x : List (String × Dict)) :
    (linkReport s c a w n x).get? "size" = some (.int n) ∧
    (linkReport s c a w n x).get? "header" = some (.dict (headerObject s.header c a w)) ∧
    (linkReport s c a w n x).get? "target" = s.items.map (fun l => .dict (targetObject l 78)) ∧
    (linkReport s c a w n x).get? "link_info" = some (.dict ((s.info.map Info.report).getD [])) ∧
    (linkReport s c a w n x).get? "data" = some (.dict (stringsObject s.strings)) ∧
    (linkReport s c a w n x).get? "extra" = some (.dict (extraObject x)) := by
  unfold linkReport
  generalize headerObject s.header c a w = H
  generalize extraObject x = X
  generalize stringsObject s.strings = D
  rcases s.items with _ | l <;>
    simp [Dict.get?_cons]

theorem string_keys {tp : TextProc} {s : ShellLink} {allow : Bool} {trailer : Bytes} {f : LnkFile} (hb : Built tp s allow trailer f) :
    (f.stringData.data.map Prod.fst).Sublist
      ["description", "relative_path", "working_directory", "command_line_arguments", "icon_location"] := by
  have : f.stringData = ⟨fieldTexts s.strings.fields, f.stringData.size⟩ := by rw [← hb.strings]
  rw [this]
  rcases s.strings with ⟨a, b, c, d, e⟩
  cases a <;> cases b <;> cases c <;> cases d <;> cases e <;>
    (simp [fieldTexts, Strings.fields]; try decide)

theorem built_same {tp tp' : TextProc} {s s' : ShellLink} {allow allow' : Bool} {trailer trailer' : Bytes} {f f' : LnkFile}
    (hb : Built tp s allow trailer f) (hb' : Built tp' s' allow' trailer' f') {j j' : Dict}
    (hj : (f.getJson true).res = .ok j) (hj' : (f'.getJson true).res = .ok j') :
    (f.printJson true).res = (f'.printJson true).res ↔ SameShown (.dict j) (.dict j') := by
  rw [printed_of_json hj, printed_of_json hj', Except.ok.injEq]
  exact dumps_same ((f.dated_getJson true (string_keys hb)).out j hj) ((f'.dated_getJson true (string_keys hb')).out j' hj')
    (distinct_documentedFile j ((f.doc_getJson true (string_keys hb)).out j hj))

theorem shown_of_parts {s s' : ShellLink} {c a w c' a' w' : Option DateTime} {n n' : Nat} {x x' : List (String × Dict)}
    (h1 : n = n') (h2 : SameShown (.dict (headerObject s.header c a w)) (.dict (headerObject s'.header c' a' w')))
    (h3 : s.items.map (targetObject · 78) = s'.items.map (targetObject · 78))
    (h4 : (s.info.map Info.report).getD [] = (s'.info.map Info.report).getD [])
    (h5 : stringsObject s.strings = stringsObject s'.strings)
    (h6 : SameShown (.dict (extraObject x)) (.dict (extraObject x'))) :
    SameShown (.dict (linkReport s c a w n x)) (.dict (linkReport s' c' a' w' n' x')) := by
  unfold linkReport
  rw [h1, h4, h5]
  generalize headerObject s.header c a w = H at *
  generalize headerObject s'.header c' a' w' = H' at *
  rcases hi : s.items with _ | l <;> rcases hi' : s'.items with _ | l' <;> rw [hi, hi'] at h3
  · refine .dict (.refl _) rfl ?_
    simp only [Option.toList_none, List.map_nil, List.append_nil, List.cons_append, List.nil_append, List.map_cons,
      List.forall₂_cons, List.forall₂_nil_left_iff, SameShown.refl, h2, h6, and_self]
  · simp at h3
  · simp at h3
  · simp only [Option.map_some, Option.some.injEq] at h3
    refine .dict (.refl _) rfl ?_
    simp only [Option.toList_some, List.map_nil, List.cons_append, List.nil_append, List.map_cons, h3,
      List.forall₂_cons, List.forall₂_nil_left_iff, SameShown.refl, h2, h6, and_self]

/-- C69: the printed report determines a well-formed link up to what `SamePrinted` leaves out, the sizes of ID list
and file, and the data after it up to length and digest. -/
theorem print_determines (env : Env) (cp cp' : Option String) (allow allow' : Bool) (s s' : ShellLink)
    (hv : s.Valid (TextProc.mk' env cp)) (hv' : s'.Valid (TextProc.mk' env cp')) (trailer trailer' : Bytes) (src src' : Source)
    (hs : src.bytes = s.encode ++ trailer) (hs' : src'.bytes = s'.encode ++ trailer') (f f' : LnkFile)
    (hf : (LnkFile.init env cp allow src).Returns f) (hf' : (LnkFile.init env cp' allow' src').Returns f')
    (h : (f.printJson true).res = (f'.printJson true).res) :
    SamePrinted env.sha256hex s s' ∧ SameAppended env.sha256hex (appended allow trailer) (appended allow' trailer') ∧
      s.items.map (fun x => (encodeItems x).length) = s'.items.map (fun x => (encodeItems x).length) ∧ f.size = f'.size := by
  obtain ⟨g, ⟨h1, -, c, a, w, wc, wa, ww, tc, ta, tw, h2⟩, hb⟩ := parses_link env cp allow s hv trailer src hs
  obtain ⟨g', ⟨h1', -, c', a', w', wc', wa', ww', tc', ta', tw', h2'⟩, hb'⟩ := parses_link env cp' allow' s' hv' trailer' src' hs'
  unfold Py.Returns at hf hf'
  rw [h1] at hf
  rw [h1'] at hf'
  simp only [Py.pure_res, Except.ok.injEq] at hf hf'
  subst hf hf'
  have hx : ∀ (s : ShellLink) (allow : Bool) (trailer : Bytes), (s.blockReports env.sha256hex ++
      if allow = true ∧ trailer ≠ [] then [("TERMINAL_BLOCK", terminalReport env.sha256hex trailer)] else []) =
      seenBlocks env.sha256hex s (appended allow trailer) := by
    intro s allow trailer
    unfold seenBlocks appended
    split <;> rfl
  rw [hx, ← hb.size] at h2
  rw [hx, ← hb'.size] at h2'
  have hsh := (built_same hb hb' (congrArg Py.res h2) (congrArg Py.res h2')).1 h
  have hn := linkReport_keys s c a w g.size (seenBlocks env.sha256hex s (appended allow trailer))
  obtain ⟨a1, a2, a3, a4, a5, a6⟩ := linkReport_get s c a w g.size (seenBlocks env.sha256hex s (appended allow trailer))
  obtain ⟨b1, b2, b3, b4, b5, b6⟩ := linkReport_get s' c' a' w' g'.size (seenBlocks env.sha256hex s' (appended allow' trailer'))
  have hg := shown_get hsh hn
  have e1 := hg "size"
  have e2 := hg "header"
  have e3 := hg "target"
  have e4 := hg "link_info"
  have e5 := hg "data"
  have e6 := hg "extra"
  rw [a1, b1, Option.rel_some_some, shown_int, Nat.cast_inj] at e1
  rw [a2, b2, Option.rel_some_some] at e2
  rw [a3, b3] at e3
  rw [a4, b4, Option.rel_some_some] at e4
  rw [a5, b5, Option.rel_some_some] at e5
  rw [a6, b6, Option.rel_some_some] at e6
  have e3 : s.items.map (targetObject · 78) = s'.items.map (targetObject · 78) := by
    revert e3
    rcases s.items with _ | l <;> rcases s'.items with _ | l'
    · simp
    · rintro (_ | _)
    · rintro (_ | _)
    · rintro (e | _)
      simpa using eq_of_shown e (plain_target l 78) (plain_target l' 78)
  have hpi : ∀ i : Option Info, Plain (.dict ((i.map Info.report).getD [])) := by
    intro i
    cases i with
    | none => exact ⟨by simp, trivial⟩
    | some i => exact plain_info i
  have e4 := PyVal.dict.inj (eq_of_shown e4 (hpi _) (hpi _))
  have e5 := PyVal.dict.inj (eq_of_shown e5 (plain_strings _) (plain_strings _))
  have e6 : ∀ k, (extraObject (seenBlocks env.sha256hex s (appended allow trailer))).get? k =
      (extraObject (seenBlocks env.sha256hex s' (appended allow' trailer'))).get? k := by
    intro k
    have := shown_get e6 (nodup_extra _) k
    have p1 := plain_extra env.sha256hex s (appended allow trailer) k
    have p2 := plain_extra env.sha256hex s' (appended allow' trailer') k
    revert this p1 p2
    rcases (extraObject (seenBlocks env.sha256hex s (appended allow trailer))).get? k with _ | v <;>
      rcases (extraObject (seenBlocks env.sha256hex s' (appended allow' trailer'))).get? k with _ | v'
    · simp
    · rintro (_ | _)
    · rintro (_ | _)
    · rintro (e | _) p1 p2
      rw [eq_of_shown e (p1 v rfl) (p2 v' rfl)]
  obtain ⟨e6, e7, e8⟩ := (extra_values_same _ _ _ s s' (fun b hb => (hv.blocks b hb).1) (fun b hb => (hv'.blocks b hb).1) _ _).1 e6
  have e3 := (target_objects_same (fun x hx => (hv.items x hx).1) (fun x hx => (hv'.items x hx).1)).1 e3
  exact ⟨⟨printed_header_same tc ta tw tc' ta' tw' e2, e3.2, (info_objects_same hv.info hv'.info).1 e4, strings_same e5, e6, e7⟩,
    e8, e3.1, e1⟩

/-! ### the other direction -/

/-- Dictionaries with the same values under every key. -/
theorem shown_of_get {d d' : Dict} (hn : (d.map (·.1)).Nodup) (hn' : (d'.map (·.1)).Nodup) (h : ∀ k, d.get? k = d'.get? k) :
    SameShown (.dict d) (.dict d') := by
  have hp : d.Perm d' := by
    refine (List.perm_ext_iff_of_nodup hn.of_map hn'.of_map).2 fun kv => ?_
    obtain ⟨k, v⟩ := kv
    have := h k
    rw [Dict.get?_eq_lookup, Dict.get?_eq_lookup] at this
    rw [← lookup_mem _ hn, ← lookup_mem _ hn', this]
  exact .dict hp rfl (List.forall₂_same.2 fun v _ => SameShown.refl v)

theorem sameSecond_refl (v : Int64) : SameSecond v v := by
  by_cases h : SameTime.NoDate v
  · exact .inr ⟨h, h⟩
  · exact .inl ⟨h, h, by simp, _, _, filetimeMicros_stamp _, filetimeMicros_stamp _, rfl⟩

theorem instant_second {d : DateTime} (h : d.microsecond < 1000000) :
    instant { d with microsecond := 0 } = instant d / 1000000 * 1000000 := by
  unfold instant
  dsimp only
  omega

/-- What is printed for values of the same second. -/
theorem same_second {v v' : Int64} {r r' : Option DateTime} {w w' : List Warn} (h : TimeRead v r w) (h' : TimeRead v' r' w')
    (e : SameSecond v v') : SameShown (PyVal.opt .dt r) (PyVal.opt .dt r') := by
  rcases e with ⟨h1, h2, -, n, n', s1, s2, hn⟩ | e
  · rcases r with _ | d
    · exact absurd (h.missing (fun h0 => h1 (.inl h0)) rfl).2 (fun hc => h1 (.inr hc))
    rcases r' with _ | d'
    · exact absurd (h'.missing (fun h0 => h2 (.inl h0)) rfl).2 (fun hc => h2 (.inr hc))
    have e1 := stamp_unique (h.stamp d rfl).1 s1
    have e2 := stamp_unique (h'.stamp d' rfl).1 s2
    have v1 := (h.near d rfl).1
    have v2 := (h'.near d' rfl).1
    have z : ∀ {d : DateTime}, ValidDateTime d → ValidDateTime { d with microsecond := 0 } := fun h =>
      ⟨h.1, h.2.1, h.2.2.1, h.2.2.2.1, h.2.2.2.2.1, h.2.2.2.2.2.1, Nat.zero_le _⟩
    refine .date (instant_inj (z v1) (z v2) ?_)
    have m1 := v1.2.2.2.2.2.2
    have m2 := v2.2.2.2.2.2.2
    rw [instant_second (d := d) (by omega), instant_second (d := d') (by omega)]
    have : instant d / 1000000 = instant d' / 1000000 := by
      subst e1 e2
      exact_mod_cast hn
    rw [this]
  · rw [same_time h h' (.inr e)]
    exact SameShown.refl _

theorem header_shown {h h' : Header} {c a w c' a' w' : Option DateTime} (e : SamePrintedHeader h h')
    (hc : SameShown (PyVal.opt .dt c) (PyVal.opt .dt c')) (ha : SameShown (PyVal.opt .dt a) (PyVal.opt .dt a'))
    (hw : SameShown (PyVal.opt .dt w) (PyVal.opt .dt w')) :
    SameShown (.dict (headerObject h c a w)) (.dict (headerObject h' c' a' w')) := by
  rw [header_object_same e.exact e.showCommand]
  refine .dict (.refl _) (by rw [headerObject_keys, headerObject_keys]) ?_
  unfold headerObject
  simp only [List.map_cons, List.map_nil, List.forall₂_cons, SameShown.refl, hc, ha, hw, true_and, List.Forall₂.nil]

/-- C69, the other direction: links with the same contents and sizes have the same printed report, in whatever order
blocks of different kinds come. -/
theorem print_determined (env : Env) (cp cp' : Option String) (allow allow' : Bool) (s s' : ShellLink)
    (hv : s.Valid (TextProc.mk' env cp)) (hv' : s'.Valid (TextProc.mk' env cp')) (trailer trailer' : Bytes) (src src' : Source)
    (hs : src.bytes = s.encode ++ trailer) (hs' : src'.bytes = s'.encode ++ trailer') (f f' : LnkFile)
    (hf : (LnkFile.init env cp allow src).Returns f) (hf' : (LnkFile.init env cp' allow' src').Returns f')
    (h : SamePrinted env.sha256hex s s') (ht : SameAppended env.sha256hex (appended allow trailer) (appended allow' trailer'))
    (hl : s.items.map (fun x => (encodeItems x).length) = s'.items.map fun x => (encodeItems x).length)
    (hn : f.size = f'.size) : (f.printJson true).res = (f'.printJson true).res := by
  obtain ⟨g, ⟨h1, h2, -⟩, hb⟩ := parses_link env cp allow s hv trailer src hs
  obtain ⟨g', ⟨h1', h2', -⟩, hb'⟩ := parses_link env cp' allow' s' hv' trailer' src' hs'
  unfold Py.Returns at hf hf'
  rw [h1] at hf
  rw [h1'] at hf'
  simp only [Py.pure_res, Except.ok.injEq] at hf hf'
  subst hf hf'
  obtain ⟨c, wc, rc, tc⟩ := time_read s.header.creationTime
  obtain ⟨a, wa, ra, ta⟩ := time_read s.header.accessTime
  obtain ⟨w, ww, rw', tw⟩ := time_read s.header.writeTime
  obtain ⟨c', wc', rc', tc'⟩ := time_read s'.header.creationTime
  obtain ⟨a', wa', ra', ta'⟩ := time_read s'.header.accessTime
  obtain ⟨w', ww', rw'', tw'⟩ := time_read s'.header.writeTime
  refine (built_same hb hb' (json_exact hv hb rc ra rw') (json_exact hv' hb' rc' ra' rw'')).2 ?_
  refine shown_of_parts hn (header_shown h.header (same_second tc tc' h.header.creation) (same_second ta ta' h.header.access)
      (same_second tw tw' h.header.write))
    ((target_objects_same (fun x hx => (hv.items x hx).1) (fun x hx => (hv'.items x hx).1)).2 ⟨hl, h.items⟩)
    ((info_objects_same hv.info hv'.info).2 h.info) (strings_object_same.2 h.strings) ?_
  exact shown_of_get (nodup_extra _) (nodup_extra _) ((extra_values_same _ _ _ s s' (fun b hb => (hv.blocks b hb).1)
    (fun b hb => (hv'.blocks b hb).1) _ _).2 ⟨h.blocks, h.unknown, ht⟩)

/-! ### examples -/

/-- `exampleLink` with the extra blocks in the other order. -/
def swappedLink : ShellLink := { exampleLink with blocks := [(.other 0xA0000042 [9, 9], []), (.tracker exampleTracker, [])] }

theorem swappedLink_valid (env : Env) : swappedLink.Valid (TextProc.mk' env none) := by
  have h := exampleLink_valid env
  refine ⟨h.headerSize, h.hasItems, h.items, h.hasInfo, h.info, h.announced, h.strings, fun b hb => h.blocks b ?_⟩
  simp only [swappedLink, exampleLink, List.mem_cons, List.not_mem_nil, or_false] at hb ⊢
  exact hb.symm

/-- Links with blocks in another order: `get_json` gives different trees, but the printed reports are the same. -/
example (env : Env) : ∃ f f', LnkFile.init env none true (.indata exampleLink.encode) = pure f ∧
    LnkFile.init env none true (.indata swappedLink.encode) = pure f' ∧ (f.getJson true).res ≠ (f'.getJson true).res ∧
    (f.printJson true).res = (f'.printJson true).res := by
  have hv := exampleLink_valid env
  have hv' := swappedLink_valid env
  obtain ⟨f, hf, hs, -⟩ := link_roundtrip env none true exampleLink hv (.indata exampleLink.encode) rfl
  obtain ⟨f', hf', hs', -⟩ := link_roundtrip env none true swappedLink hv' (.indata swappedLink.encode) rfl
  have n1 : blockName (Block.signature (.tracker exampleTracker)).toNat = "DISTRIBUTED_LINK_TRACKER_BLOCK" := by decide +kernel
  have n2 : blockName (Block.signature (.other 0xA0000042 [9, 9])).toNat = "UNKNOWN_BLOCK" := by decide +kernel
  refine ⟨f, f', hf, hf', fun h => ?_, ?_⟩
  · have := (report_determines env none none true true _ _ hv hv' [] [] _ _ (List.append_nil _).symm (List.append_nil _).symm
      f f' (by rw [hf]; rfl) (by rw [hf']; rfl) h).1.blockNames
    revert this
    decide +kernel
  · have hx := (extra_values_same _ _ env.sha256hex exampleLink exampleLink (fun b hb => (hv.blocks b hb).1)
      (fun b hb => (hv.blocks b hb).1) none none).1 fun _ => rfl
    have hl : ∀ name, name ≠ "UNKNOWN_BLOCK" → swappedLink.lastBlock name = exampleLink.lastBlock name := by
      intro name hn
      unfold ShellLink.lastBlock swappedLink exampleLink
      simp only [List.filter_cons, List.filter_nil, n1, n2, hn.symm, decide_false]
      rfl
    refine print_determined env none none true true _ _ hv hv' [] [] _ _ (List.append_nil _).symm (List.append_nil _).symm
      f f' (by rw [hf]; rfl) (by rw [hf']; rfl)
      ⟨⟨rfl, sameSecond_refl _, sameSecond_refl _, sameSecond_refl _, .inl rfl⟩, ?_,
        (info_objects_same hv.info hv'.info).1 rfl, rfl, fun name hn => ?_, ?_⟩ rfl rfl ?_
    · exact ((target_objects_same (fun x hx => (hv.items x hx).1) (fun x hx => (hv'.items x hx).1)).1 rfl).2
    · rw [hl name hn]
      exact hx.1 name hn
    · have : swappedLink.unknownBlocks = exampleLink.unknownBlocks := by
        unfold ShellLink.unknownBlocks swappedLink exampleLink
        simp only [List.filter_cons, List.filter_nil, n1, n2]
        rfl
      rw [this]
      exact hx.2.1
    · rw [hs, hs']
      decide +kernel

/-- A creation date one minute later: another text. -/
example (env : Env) : ∃ f f', LnkFile.init env none true (.indata exampleLink.encode) = pure f ∧
    LnkFile.init env none true (.indata { exampleLink with header :=
      { exampleLink.header with creationTime := 128920197120000000 } }.encode) = pure f' ∧
    (f.printJson true).res ≠ (f'.printJson true).res := by
  have hv := exampleLink_valid env
  have hv' : ShellLink.Valid (TextProc.mk' env none) { exampleLink with header :=
      { exampleLink.header with creationTime := 128920197120000000 } } :=
    ⟨hv.headerSize, hv.hasItems, hv.items, hv.hasInfo, hv.info, hv.announced, hv.strings, hv.blocks⟩
  obtain ⟨f, hf, -⟩ := link_roundtrip env none true exampleLink hv (.indata exampleLink.encode) rfl
  obtain ⟨f', hf', -⟩ := link_roundtrip env none true _ hv' (.indata _) rfl
  refine ⟨f, f', hf, hf', fun h => ?_⟩
  have := (print_determines env none none true true _ _ hv hv' [] [] _ _ (List.append_nil _).symm (List.append_nil _).symm
    f f' (by rw [hf]; rfl) (by rw [hf']; rfl) h).1.header.creation
  rcases this with ⟨-, -, h, -⟩ | ⟨h | h, -⟩
  · revert h
    decide
  · revert h
    decide
  · unfold OutOfCalendar at h
    rw [filetime_first, filetime_last] at h
    revert h
    decide

end Verif.Props
