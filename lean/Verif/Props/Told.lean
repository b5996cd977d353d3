import Verif.Lemmas.Told
import Verif.Props.Link

/-
C84: what the readable output tells about a file.
-/

namespace Verif.Props

open Spec

namespace Told

theorem hexLower2_inj {a b : UInt8} (h : hexFixedLower 2 a.toNat = hexFixedLower 2 b.toNat) : a = b := by
  simp only [hexFixedLower, List.nil_append, List.cons_append, List.cons.injEq, and_true] at h
  have h1 := hexDigitLower_inj (Nat.mod_lt _ (by decide)) (Nat.mod_lt _ (by decide)) h.1
  have h2 := hexDigitLower_inj (Nat.mod_lt _ (by decide)) (Nat.mod_lt _ (by decide)) h.2
  have l1 := a.toNat_lt
  have l2 := b.toNat_lt
  exact UInt8.toNat_inj.1 (by omega)

theorem hexDigitLower_brace (n : Nat) (h : n < 16) : hexDigitLower n ≠ '}' := by
  revert h
  revert n
  decide +kernel

/-- The hot key can be read back from its text. -/
theorem hotKeyText_inj {l h l' h' : UInt8} (e : hotKeyText l h = hotKeyText l' h') : l = l' ∧ h = h' := by
  have key : ∀ l h, ∃ p : List Char, hotKeyText l h = p ++ hotKeyHex l h ∨ hotKeyText l h = p ++ hotKeyHex l h ++ ['}'] := by
    intro l h
    unfold hotKeyText
    split
    · exact ⟨_, .inr rfl⟩
    · exact ⟨[], .inl rfl⟩
  have hlen : ∀ l h, (hotKeyHex l h).length = 4 := by
    intro l h
    unfold hotKeyHex
    rw [List.length_append, hexFixedLower_length, hexFixedLower_length]
  have hlast : ∀ (p : List Char) (l h : UInt8), (p ++ hotKeyHex l h).getLast? ≠ some '}' := by
    intro p l h e
    have hx : p ++ hotKeyHex l h = (p ++ (hexFixedLower 2 l.toNat ++ hexFixedLower 1 (h.toNat / 16))) ++ [hexDigitLower (h.toNat % 16)] := by
      simp only [hotKeyHex, hexFixedLower, List.append_assoc]
    rw [hx, List.getLast?_concat, Option.some.injEq] at e
    exact hexDigitLower_brace _ (Nat.mod_lt _ (by decide)) e
  have fin : hotKeyHex l h = hotKeyHex l' h' → l = l' ∧ h = h' := by
    intro e
    obtain ⟨e1, e2⟩ := List.append_inj e (by rw [hexFixedLower_length, hexFixedLower_length])
    exact ⟨hexLower2_inj e1, hexLower2_inj e2⟩
  obtain ⟨p, hp⟩ := key l h
  obtain ⟨p', hp'⟩ := key l' h'
  rcases hp with hp | hp <;> rcases hp' with hp' | hp' <;> rw [hp, hp'] at e
  · exact fin (List.append_inj' e (by rw [hlen, hlen])).2
  · exact absurd (by rw [e, List.getLast?_concat]) (hlast p l h)
  · exact absurd (by rw [← e, List.getLast?_concat]) (hlast p' l' h')
  · exact fin (List.append_inj' (List.append_inj' e rfl).1 (by rw [hlen, hlen])).2

example : hotKeyText 0x74 0x04 = "ALT - F5 {0x7404}".toList ∧ hotKeyText 0x74 0x03 = "7403".toList := by decide +kernel

/-- The header of the tree. -/
def headerTree (g : Str) (rl rf : Nat) (c a m : Option DateTime) (fs : Nat) (ii : Int) (ws : String) (l h : UInt8) (rest : Dict) : Dict :=
  [("guid", .str g), ("r_link_flags", .nat rl), ("r_file_flags", .nat rf), ("creation_time", PyVal.opt .dt c),
    ("accessed_time", PyVal.opt .dt a), ("modified_time", PyVal.opt .dt m), ("file_size", .nat fs), ("icon_index", .int ii),
    ("windowstyle", .lit ws), ("hotkey", .str (hotKeyText l h)), ("r_hotkey", .nat (l.toNat + 256 * h.toNat)),
    ("link_flags", .list ((setBitNames linkFlagNames rl).map .lit)),
    ("file_flags", .list ((setBitNames fileFlagNames rf).map .lit))] ++ rest

/-- The rest of the header in the full report. -/
def headerRest (all : Bool) (hs r0 r1 r2 : Nat) : Dict :=
  if all then [("header_size", .nat hs), ("reserved0", .nat r0), ("reserved1", .nat r1), ("reserved2", .nat r2)] else []

/-- The header as it is shown. -/
def shownHeader (all : Bool) (g : Str) (rl rf : Nat) (c a m : Option DateTime) (fs : Nat) (ii : Int) (ws : String) (l h : UInt8)
    (hs r0 r1 r2 : Nat) : Dict :=
  [("Guid", .str g), ("Link flags", .str (flagSummary (setBitNames linkFlagNames rl) rl)),
    ("File flags", .str (flagSummary (setBitNames fileFlagNames rf) rf)), ("Creation time", PyVal.opt .dt c),
    ("Accessed time", PyVal.opt .dt a), ("Modified time", PyVal.opt .dt m), ("File size", .nat fs), ("Icon index", .int ii),
    ("Windowstyle", .lit ws), ("Hotkey", .str (hotKeyText l h))] ++
  if all then [("Header size", .nat hs), ("Reserved0", .nat r0), ("Reserved1", .nat r1), ("Reserved2", .nat r2)] else []

theorem nice_date (o : Option DateTime) : LnkFile.niceVal (PyVal.opt .dt o) = PyVal.opt .dt o := by cases o <;> rfl

/-- Whatever the values are. -/
theorem nice_header_any (all : Bool) (g rl rf c a m fs ii ws hk rh lf ff : PyVal) (hs r0 r1 r2 : Nat) (sl sf : Str) :
    LnkFile.niceVal (.dict (LnkFile.editHeader ([("guid", g), ("r_link_flags", rl), ("r_file_flags", rf),
      ("creation_time", c), ("accessed_time", a), ("modified_time", m), ("file_size", fs), ("icon_index", ii),
      ("windowstyle", ws), ("hotkey", hk), ("r_hotkey", rh), ("link_flags", lf), ("file_flags", ff)] ++ headerRest all hs r0 r1 r2) sl sf)) =
    .dict ([("Guid", LnkFile.niceVal g), ("Link flags", .str sl), ("File flags", .str sf), ("Creation time", LnkFile.niceVal c),
      ("Accessed time", LnkFile.niceVal a), ("Modified time", LnkFile.niceVal m), ("File size", LnkFile.niceVal fs),
      ("Icon index", LnkFile.niceVal ii), ("Windowstyle", LnkFile.niceVal ws), ("Hotkey", LnkFile.niceVal hk)] ++
      if all then [("Header size", .nat hs), ("Reserved0", .nat r0), ("Reserved1", .nat r1), ("Reserved2", .nat r2)] else []) := by
  cases all <;> rfl

theorem nice_headerTree (g : Str) (rl rf : Nat) (c a m : Option DateTime) (fs : Nat) (ii : Int) (ws : String) (l h : UInt8)
    (all : Bool) (hs r0 r1 r2 : Nat) :
    LnkFile.niceVal (.dict (LnkFile.editHeader (headerTree g rl rf c a m fs ii ws l h (headerRest all hs r0 r1 r2))
      (flagSummary (setBitNames linkFlagNames rl) rl) (flagSummary (setBitNames fileFlagNames rf) rf))) =
    .dict (shownHeader all g rl rf c a m fs ii ws l h hs r0 r1 r2) := by
  unfold headerTree
  rw [nice_header_any, nice_date, nice_date, nice_date]
  rfl

/-- No heading of a section is a label of the header. -/
theorem shownHeader_apart (all : Bool) (g : Str) (rl rf : Nat) (c a m : Option DateTime) (fs : Nat) (ii : Int) (ws : String)
    (l h : UInt8) (hs r0 r1 r2 : Nat) (s : String) :
    "EMPTY_LINE_PLACEHOLDER" ++ s ∉ Dict.keys (shownHeader all g rl rf c a m fs ii ws l h hs r0 r1 r2) := by
  have hl : ∀ k ∈ ["Guid", "Link flags", "File flags", "Creation time", "Accessed time", "Modified time", "File size",
      "Icon index", "Windowstyle", "Hotkey", "Header size", "Reserved0", "Reserved1", "Reserved2"],
      ¬ "EMPTY_LINE_PLACEHOLDER".toList <+: k.toList := by decide +kernel
  have hsub : (Dict.keys (shownHeader all g rl rf c a m fs ii ws l h hs r0 r1 r2)).Sublist ["Guid", "Link flags", "File flags",
      "Creation time", "Accessed time", "Modified time", "File size", "Icon index", "Windowstyle", "Hotkey", "Header size",
      "Reserved0", "Reserved1", "Reserved2"] := by
    cases all
    · exact List.sublist_append_left ["Guid", "Link flags", "File flags", "Creation time", "Accessed time", "Modified time",
        "File size", "Icon index", "Windowstyle", "Hotkey"] _
    · exact List.Sublist.refl _
  intro hm
  refine hl _ (hsub.subset hm) ?_
  rw [String.toList_append]
  exact List.prefix_append _ _

theorem header_parts {f : LnkFile} {d : Dict} (hh : f.jsonHeader.res = .ok d) (all : Bool) :
    ∃ g rl rf c a m fs ii ws l h hs r0 r1 r2,
      (if all then d else LnkFile.pruneHeader d) = headerTree g rl rf c a m fs ii ws l h (headerRest all hs r0 r1 r2) ∧
      f.formatLinkFlags = pure (flagSummary (setBitNames linkFlagNames rl) rl) ∧
      f.formatFileFlags = pure (flagSummary (setBitNames fileFlagNames rf) rf) := by
  unfold LnkFile.jsonHeader at hh
  simp only [Py.bind_ok_iff, Py.pure_res, Except.ok.injEq] at hh
  obtain ⟨g, -, rl, hrl, rf, hrf, c, -, a, -, m, -, fs, -, ii, -, ws, -, hk, hhk, rh, hrh, lf, hlf, ff, hff, hs, -, r0, -, r1, -,
    r2, -, rfl⟩ := hh
  have e1 : lf = setBitNames linkFlagNames rl := by
    rw [(link_flags_of_raw f.header).1 rl hrl] at hlf
    simpa using hlf.symm
  have e2 : ff = setBitNames fileFlagNames rf := by
    rw [(file_flags_of_raw f.header).1 rf hrf] at hff
    simpa using hff.symm
  subst e1 e2
  obtain ⟨l, h, hlh⟩ : ∃ l h, slice f.header.raw 64 66 = [l, h] := by
    unfold LnkHeader.hotKey at hhk
    dsimp only at hhk
    split at hhk
    · rename_i l h e
      exact ⟨l, h, e⟩
    · simp [Py.raise] at hhk
  have e3 : hk = hotKeyText l h := by
    rw [hot_key f.header l h hlh] at hhk
    simpa using hhk.symm
  have e4 : rh = l.toNat + 256 * h.toNat := by
    unfold LnkHeader.rawHotKey at hrh
    rw [hlh, unpackU, if_pos (show [l, h].length = 2 from rfl)] at hrh
    simpa [leNat] using hrh.symm
  subst e3 e4
  refine ⟨g, rl, rf, c, a, m, fs, ii, ws, l, h, hs, r0, r1, r2, ?_, (flag_summary_of_raw f).1 rl hrl, (flag_summary_of_raw f).2 rf hrf⟩
  cases all <;> rfl

/-- What the readable form of the header tells: all of it. -/
theorem header_same {f f' : LnkFile} {d d' : Dict} (hh : f.jsonHeader.res = .ok d) (hh' : f'.jsonHeader.res = .ok d') (all : Bool) :
    ∃ lf ff lf' ff' b b', f.formatLinkFlags = pure lf ∧ f.formatFileFlags = pure ff ∧ f'.formatLinkFlags = pure lf' ∧
      f'.formatFileFlags = pure ff' ∧
      LnkFile.niceVal (.dict (LnkFile.editHeader (if all then d else LnkFile.pruneHeader d) lf ff)) = .dict b ∧
      LnkFile.niceVal (.dict (LnkFile.editHeader (if all then d' else LnkFile.pruneHeader d') lf' ff')) = .dict b' ∧
      b.length = b'.length ∧ (∀ s, "EMPTY_LINE_PLACEHOLDER" ++ s ∉ Dict.keys b) ∧
      (∀ s, "EMPTY_LINE_PLACEHOLDER" ++ s ∉ Dict.keys b') ∧
      (b = b' ↔ (if all then d else LnkFile.pruneHeader d) = (if all then d' else LnkFile.pruneHeader d')) := by
  obtain ⟨g, rl, rf, c, a, m, fs, ii, ws, l, h, hs, r0, r1, r2, e, h1, h2⟩ := header_parts hh all
  obtain ⟨g', rl', rf', c', a', m', fs', ii', ws', l', h', hs', r0', r1', r2', e', h1', h2'⟩ := header_parts hh' all
  rw [e, e']
  refine ⟨_, _, _, _, _, _, h1, h2, h1', h2', nice_headerTree .., nice_headerTree .., ?_, shownHeader_apart _ _ _ _ _ _ _ _ _ _ _ _ _ _ _ _,
    shownHeader_apart _ _ _ _ _ _ _ _ _ _ _ _ _ _ _ _, ?_⟩
  · cases all <;> rfl
  · unfold shownHeader headerTree headerRest
    constructor
    · intro e
      obtain ⟨e1, e2⟩ := List.append_inj e rfl
      simp only [List.cons.injEq, Prod.mk.injEq, true_and, and_true, PyVal.str.injEq] at e1
      obtain ⟨e3, e4, e5, e6, e7, e8, e9, e10, e11, e12⟩ := e1
      obtain ⟨e12, e13⟩ := hotKeyText_inj e12
      rw [e3, flag_summary_inj _ _ _ _ e4, flag_summary_inj _ _ _ _ e5, e6, e7, e8, e9, e10, e11, e12, e13]
      cases all
      · rfl
      · simp only [if_true, List.cons.injEq, Prod.mk.injEq, true_and, and_true] at e2
        obtain ⟨e14, e15, e16, e17⟩ := e2
        simp only [if_true, e14, e15, e16, e17]
    · intro e
      obtain ⟨e1, e2⟩ := List.append_inj e rfl
      simp only [List.cons.injEq, Prod.mk.injEq, true_and, and_true, PyVal.str.injEq] at e1
      obtain ⟨e3, e4, e5, e6, e7, e8, e9, e10, e11, e12, -⟩ := e1
      obtain ⟨e12, e13⟩ := hotKeyText_inj e12
      have e4 : rl = rl' := by simpa [PyVal.nat] using e4
      have e5 : rf = rf' := by simpa [PyVal.nat] using e5
      rw [e3, e4, e5, e6, e7, e8, e9, e10, e11, e12, e13]
      cases all
      · rfl
      · simp only [if_true, List.cons.injEq, Prod.mk.injEq, true_and, and_true] at e2
        obtain ⟨e14, e15, e16, e17⟩ := e2
        simp only [if_true, e14, e15, e16, e17]

/-- The readable tree: the header, then the sections. -/
theorem nice_exact {f : LnkFile} {all : Bool} {size : PyVal} {h : Dict} {t : Option PyVal} {i data extra : PyVal} {lf ff : Str}
    {b : Dict} (hj : (f.getJson all).res = .ok (tree size (.dict h) t i data extra)) (h1 : f.formatLinkFlags = pure lf)
    (h2 : f.formatFileFlags = pure ff) (hb : LnkFile.niceVal (.dict (LnkFile.editHeader h lf ff)) = .dict b)
    (hap : ∀ s, "EMPTY_LINE_PLACEHOLDER" ++ s ∉ Dict.keys b) :
    (f.niceJson all).res = .ok (b ++ shownSections size t i data extra) := by
  have hn := sections_nodup size t i data extra
  have hdis : ∀ k ∈ Dict.keys (shownSections size t i data extra), k ∉ Dict.keys b := by
    intro k hk
    obtain ⟨s, rfl⟩ := hn.2 k hk
    exact hap s
  obtain ⟨w, hw⟩ : ∃ w, f.getJson all = ⟨w, .ok (tree size (.dict h) t i data extra)⟩ :=
    ⟨(f.getJson all).warns, by rw [← hj]⟩
  unfold LnkFile.niceJson
  rw [hw, h1, h2, ← Dict.update_append b _ hdis hn.1]
  unfold LnkFile.editHeader at hb
  cases t <;> simp [bind, Py.andThen, pure, Py.ret, atKey_tree, niceTop_tree, hb, shownSections, Dict.get?, Dict.erase]

theorem readableTree_tree (size header : PyVal) (t : Option PyVal) (i : Dict) (data extra : PyVal) :
    readableTree (tree size header t (.dict i) data extra) =
      tree size header t (.dict (under "location_info" (onDict toldLocation) i)) data extra := by
  cases t <;> rfl

theorem getJson_tree {f : LnkFile} {all : Bool} {j : Dict} (h : (f.getJson all).res = .ok j) :
    ∃ header target info extra, f.jsonHeader.res = .ok header ∧ f.jsonTarget.res = .ok target ∧ f.jsonInfo.res = .ok info ∧
      f.extras.asDict.res = .ok extra ∧
      j = tree (.nat f.size) (.dict (if all then header else LnkFile.pruneHeader header))
        (target.map fun t => .dict (if all then t else LnkFile.pruneTarget t))
        (.dict (if all then info else LnkFile.pruneInfo info)) (.dict f.stringData.asDict) (.dict extra) := by
  obtain ⟨header, target, info, extra, h1, h2, h3, h4, rfl⟩ := LnkFile.getJson_ok_iff.1 h
  exact ⟨header, target, info, extra, h1, h2, h3, h4, by cases target <;> rfl⟩

theorem tree_inj {s s' h h' : PyVal} {t t' : Option PyVal} {i i' d d' e e' : PyVal} :
    tree s h t i d e = tree s' h' t' i' d' e' ↔ s = s' ∧ h = h' ∧ t = t' ∧ i = i' ∧ d = d' ∧ e = e' := by
  cases t <;> cases t' <;> simp [tree]

theorem shownSections_inj {s s' : PyVal} {t t' : Option PyVal} {i i' d d' e e' : PyVal} :
    shownSections s t i d e = shownSections s' t' i' d' e' ↔ LnkFile.niceVal s = LnkFile.niceVal s' ∧
      t.map LnkFile.niceVal = t'.map LnkFile.niceVal ∧ LnkFile.niceVal i = LnkFile.niceVal i' ∧
      LnkFile.niceVal d = LnkFile.niceVal d' ∧ LnkFile.niceVal e = LnkFile.niceVal e' := by
  cases t <;> cases t' <;> simp [shownSections]

end Told

open Told

/-- C84: two files have the same readable output just when they have the same tree up to the numbers of drive types without
a name. -/
theorem readable_tells (env env' : Env) (cp cp' : Option String) (hcp : UsableCodePage (TextProc.mk' env cp))
    (hcp' : UsableCodePage (TextProc.mk' env' cp')) (allow allow' all : Bool) (src src' : Source) (f f' : LnkFile)
    (hf : (LnkFile.init env cp allow src).res = .ok f) (hf' : (LnkFile.init env' cp' allow' src').res = .ok f') (j j' : Dict)
    (hj : (f.getJson all).res = .ok j) (hj' : (f'.getJson all).res = .ok j') :
    (f.niceJson all).res = (f'.niceJson all).res ↔ readableTree j = readableTree j' := by
  obtain ⟨header, target, info, extra, h1, h2, h3, h4, rfl⟩ := getJson_tree hj
  obtain ⟨header', target', info', extra', h1', h2', h3', h4', rfl⟩ := getJson_tree hj'
  obtain ⟨lf, ff, lf', ff', b, b', f1, f2, f1', f2', e, e', hlen, hap, hap', hb⟩ := header_same h1 h1' all
  rw [nice_exact hj f1 f2 e hap, nice_exact hj' f1' f2' e' hap', readableTree_tree, readableTree_tree, tree_inj, Except.ok.injEq]
  have key : b ++ shownSections (.nat f.size) (target.map fun t => .dict (if all then t else LnkFile.pruneTarget t))
        (.dict (if all then info else LnkFile.pruneInfo info)) (.dict f.stringData.asDict) (.dict extra) =
      b' ++ shownSections (.nat f'.size) (target'.map fun t => .dict (if all then t else LnkFile.pruneTarget t))
        (.dict (if all then info' else LnkFile.pruneInfo info')) (.dict f'.stringData.asDict) (.dict extra') ↔
      b = b' ∧ shownSections (.nat f.size) (target.map fun t => .dict (if all then t else LnkFile.pruneTarget t))
        (.dict (if all then info else LnkFile.pruneInfo info)) (.dict f.stringData.asDict) (.dict extra) =
      shownSections (.nat f'.size) (target'.map fun t => .dict (if all then t else LnkFile.pruneTarget t))
        (.dict (if all then info' else LnkFile.pruneInfo info')) (.dict f'.stringData.asDict) (.dict extra') :=
    ⟨fun h => List.append_inj h hlen, fun h => by rw [h.1, h.2]⟩
  rw [key, hb, shownSections_inj, LnkFile.info_same (LnkFile.info_shown h3 all) (LnkFile.info_shown h3' all)]
  obtain ⟨_, _, _, -, -, hp⟩ := constructed env cp hcp allow src f hf
  obtain ⟨_, _, _, -, -, hp'⟩ := constructed env' cp' hcp' allow' src' f' hf'
  have hd := LnkFile.bare_data f hp.stringKeys
  have hd' := LnkFile.bare_data f' hp'.stringKeys
  have hx : Bare (.dict extra) := (ExtraData.bare_asDict f.extras).out extra h4
  have hx' : Bare (.dict extra') := (ExtraData.bare_asDict f'.extras).out extra' h4'
  have ht := (LnkFile.bare_target f all).out target h2
  have ht' := (LnkFile.bare_target f' all).out target' h2'
  have same : ∀ {v v' : PyVal}, Bare v → Bare v' → (LnkFile.niceVal v = LnkFile.niceVal v' ↔ v = v') :=
    fun h h' => ⟨LnkFile.niceVal_inj _ _ h h', fun e => by rw [e]⟩
  have et : (target.map fun t => PyVal.dict (if all then t else LnkFile.pruneTarget t)).map LnkFile.niceVal =
      (target'.map fun t => PyVal.dict (if all then t else LnkFile.pruneTarget t)).map LnkFile.niceVal ↔
      (target.map fun t => PyVal.dict (if all then t else LnkFile.pruneTarget t)) =
        target'.map fun t => PyVal.dict (if all then t else LnkFile.pruneTarget t) := by
    rcases target with _ | t <;> rcases target' with _ | t'
    · simp
    · simp
    · simp
    · simp only [Option.map_some, Option.some.injEq]
      exact same (ht t rfl) (ht' t' rfl)
  rw [same hd hd', same hx hx', et]
  simp only [PyVal.dict.injEq]
  constructor
  · rintro ⟨e1, e2, e3⟩
    exact ⟨e2, e1, e3⟩
  · rintro ⟨e2, e1, e3⟩
    exact ⟨e1, e2, e3⟩

theorem under_self (k : String) (g : PyVal → PyVal) (d : Dict) (h : ∀ v, (k, v) ∈ d → g v = v) : under k g d = d := by
  unfold under
  conv_rhs => rw [← List.map_id d]
  apply List.map_congr_left
  rintro ⟨k', v⟩ hm
  dsimp only [id]
  split
  · rename_i e
    rw [h v (by rw [← e]; exact hm)]
  · rfl

theorem readableTree_self (j : Dict) (h : DriveTypesNamed j) : readableTree j = j := by
  refine under_self _ _ _ fun v hv => ?_
  rcases v with _ | _ | _ | _ | _ | i <;> try rfl
  show PyVal.dict _ = _
  rw [under_self]
  intro v hv'
  rcases v with _ | _ | _ | _ | _ | l <;> try rfl
  show PyVal.dict _ = _
  unfold toldLocation
  split
  · rename_i e
    exact absurd e (h i l hv hv')
  · rfl

/-- C84: when the drive types have names, the readable output tells the whole tree. -/
theorem readable_tells_all (env env' : Env) (cp cp' : Option String) (hcp : UsableCodePage (TextProc.mk' env cp))
    (hcp' : UsableCodePage (TextProc.mk' env' cp')) (allow allow' all : Bool) (src src' : Source) (f f' : LnkFile)
    (hf : (LnkFile.init env cp allow src).res = .ok f) (hf' : (LnkFile.init env' cp' allow' src').res = .ok f') (j j' : Dict)
    (hj : (f.getJson all).res = .ok j) (hj' : (f'.getJson all).res = .ok j') (h : DriveTypesNamed j) (h' : DriveTypesNamed j') :
    (f.niceJson all).res = (f'.niceJson all).res ↔ j = j' := by
  rw [readable_tells env env' cp cp' hcp hcp' allow allow' all src src' f f' hf hf' j j' hj hj', readableTree_self j h,
    readableTree_self j' h']

namespace Told

/-- A link to a drive of the given type. -/
def driveLink (n : UInt32) : ShellLink :=
  let x : LocalInfo := { exampleLocal with driveType := n }
  { exampleLink with info := some ⟨x.encode, x.header, x.texts, .volume x.volume⟩ }

/-- What is printed for a link, in either form. -/
def printed (s : ShellLink) : Option (Str × Str) :=
  ((LnkFile.init ⟨fun _ => none, fun _ => []⟩ none false (.indata s.encode)).res.toOption.bind fun f =>
    (f.getJson false).res.toOption.bind fun j => (f.niceJson false).res.toOption.map fun r =>
      (Json.dumps (.dict j), Json.dumps (.dict r)))

/-- The number of a drive type without a name is not in the readable output. -/
example : (printed (driveLink 7)).isSome ∧ (printed (driveLink 7)).map (·.2) = (printed (driveLink 8)).map (·.2) ∧
    (printed (driveLink 7)).map (·.1) ≠ (printed (driveLink 8)).map (·.1) := by decide +kernel

/-- The others are. -/
example : (printed (driveLink 3)).map (·.2) ≠ (printed (driveLink 2)).map (·.2) ∧
    (printed (driveLink 3)).map (·.2) ≠ (printed (driveLink 7)).map (·.2) := by decide +kernel

end Told

end Verif.Props
