import Verif.Lemmas.Visible

namespace Verif

open Spec

/-! ### LinkInfo -/

theorem textAt_isSome {tp : TextProc} {raw : List UInt8} {u : Bool} {off shift : Nat} {t : Option Text}
    (h : TextAt tp raw u off shift t) : t.isSome = decide (off ≠ 0) := by
  unfold TextAt at h
  split at h
  · rename_i h0; simp [h, h0]
  · rename_i h0
    obtain ⟨x, rfl, -⟩ := h
    simp [h0]

theorem wideAt_isSome {tp : TextProc} {raw : List UInt8} {base off : Nat} {t : Option Text}
    (h : WideNameAt tp raw base off t) : t.isSome = decide (off ≠ 0) := by
  unfold WideNameAt at h
  split at h
  · rename_i h0; simp [h, h0]
  · rename_i h0
    obtain ⟨x, rfl, -⟩ := h
    simp [h0]

/-- What follows the offsets. -/
theorem textEntry_append {key : String} {t t' : Option Text} {d d' : Dict} (hs : t.isSome = t'.isSome) :
    (textEntry key t ++ d = textEntry key t' ++ d') ↔ SameOptText t t' ∧ d = d' := by
  cases t <;> cases t' <;> simp_all [textEntry, SameOptText]

theorem wideEntry_append {k1 k2 : String} {o o' : Nat} {t t' : Option Text} {d d' : Dict}
    (h1 : t.isSome = decide (o ≠ 0)) (h1' : t'.isSome = decide (o' ≠ 0))
    (hd : d.head?.map (·.1) ≠ some k1) (hd' : d'.head?.map (·.1) ≠ some k1) :
    (wideEntry k1 k2 o t ++ d = wideEntry k1 k2 o' t' ++ d') ↔ o = o' ∧ SameOptText t t' ∧ d = d' := by
  rcases t with _ | t <;> rcases t' with _ | t'
  · have : o = 0 := by simpa using h1
    have : o' = 0 := by simpa using h1'
    simp_all [wideEntry, SameOptText]
  · have e : o = 0 := by simpa using h1
    have e' : ¬ o' = 0 := by simpa using h1'
    simp only [wideEntry, SameOptText, Option.toList_none, List.flatMap_nil, List.nil_append, Option.toList_some,
      List.flatMap_cons, List.append_nil, Option.map_none, Option.map_some, reduceCtorEq, false_and, and_false, iff_false]
    rintro rfl
    simp at hd
  · have e : ¬ o = 0 := by simpa using h1
    have e' : o' = 0 := by simpa using h1'
    simp only [wideEntry, SameOptText, Option.toList_none, List.flatMap_nil, List.nil_append, Option.toList_some,
      List.flatMap_cons, List.append_nil, Option.map_none, Option.map_some, reduceCtorEq, false_and, and_false, iff_false]
    rintro rfl
    simp at hd'
  · simp only [wideEntry, SameOptText, Option.toList_some, List.flatMap_cons, List.flatMap_nil, List.append_nil,
      List.cons_append, List.nil_append, List.cons.injEq, Prod.mk.injEq, true_and, PyVal.int.injEq, Nat.cast_inj,
      PyVal.str.injEq, Option.map_some, Option.some.injEq]

theorem wideEntry_head {k1 k2 k : String} {o : Nat} {t : Option Text} {d : Dict} (hk : k1 ≠ k)
    (hd : d.head?.map (·.1) ≠ some k) : (wideEntry k1 k2 o t ++ d).head?.map (·.1) ≠ some k := by
  cases t <;> simp_all [wideEntry]

theorem wide_eq {w w' : Option (UInt32 × UInt32)} (h : w.isSome = w'.isSome)
    (h1 : (w.map (·.1.toNat)).getD 0 = (w'.map (·.1.toNat)).getD 0)
    (h2 : (w.map (·.2.toNat)).getD 0 = (w'.map (·.2.toNat)).getD 0) : w = w' := by
  rcases w with _ | ⟨a, b⟩ <;> rcases w' with _ | ⟨a', b'⟩ <;> simp_all [UInt32.toNat_inj]

theorem fields_same {tp tp' : TextProc} {raw raw' : List UInt8} {h h' : InfoHeader} {t t' : InfoTexts} {l l' : String} {d d' : Dict}
    (hi : InfoIn tp raw h t) (hi' : InfoIn tp' raw' h' t') :
    infoReport h t l d = infoReport h' t' l' d' ↔
      h = h' ∧ SameOptText t.base t'.base ∧ SameOptText t.suffix t'.suffix ∧ SameOptText t.wideBase t'.wideBase ∧
        SameOptText t.wideSuffix4 t'.wideSuffix4 ∧ l = l' ∧ d = d' := by
  have b1 := textAt_isSome hi.base
  have b2 := textAt_isSome hi'.base
  have s1 := textAt_isSome hi.suffix
  have s2 := textAt_isSome hi'.suffix
  have w1 := textAt_isSome hi.wideBase
  have w2 := textAt_isSome hi'.wideBase
  have u1 := textAt_isSome hi.wideSuffix
  have u2 := textAt_isSome hi'.wideSuffix
  unfold infoReport
  simp only [List.cons_append, List.nil_append, List.append_assoc, List.cons.injEq, Prod.mk.injEq, true_and, PyVal.int.injEq,
    Nat.cast_inj]
  have key : h.localBasePathOffset.toNat = h'.localBasePathOffset.toNat → h.suffixOffset.toNat = h'.suffixOffset.toNat → _ :=
    fun e1 e2 => (textEntry_append (key := "local_base_path") (t := t.base) (t' := t'.base) (by rw [b1, b2, e1])).trans
      (and_congr_right' ((textEntry_append (key := "common_path_suffix") (t := t.suffix) (t' := t'.suffix) (by rw [s1, s2, e2])).trans
        (and_congr_right' ((wideEntry_append w1 w2 (k1 := "local_base_path_offset_unicode") (k2 := "local_base_path_unicode")
          (wideEntry_head (by decide) (by simp)) (wideEntry_head (by decide) (by simp))).trans
          (and_congr_right' (and_congr_right' (wideEntry_append u1 u2 (k1 := "common_path_suffix_offset_unicode")
            (k2 := "common_path_suffix_unicode") (d := [("location_info", .dict d), ("location", .str l.toList)])
            (d' := [("location_info", .dict d'), ("location", .str l'.toList)]) (by simp) (by simp))))))))
  constructor
  · rintro ⟨e1, e2, e3, e4, e5, e6, e7, e⟩
    obtain ⟨e8, e9, e10, e11, e12, e13, e14⟩ := (key e5 e7).1 e
    simp only [List.cons.injEq, Prod.mk.injEq, true_and, and_true, PyVal.dict.injEq, PyVal.str.injEq] at e14
    refine ⟨?_, e8, e9, e11, e13, String.toList_inj.1 e14.2, e14.1⟩
    have := wide_eq (by rw [show _ = _ from hi.valid, show _ = _ from hi'.valid, e2]) e10 e12
    rw [UInt32.toNat_inj] at e1 e2 e3 e4 e5 e6 e7
    cases h; cases h'; simp_all
  · rintro ⟨rfl, e1, e2, e3, e4, rfl, rfl⟩
    exact ⟨rfl, rfl, rfl, rfl, rfl, rfl, rfl, (key rfl rfl).2 ⟨e1, e2, rfl, e3, rfl, e4, rfl⟩⟩

theorem volume_same {tp tp' : TextProc} {raw raw' : List UInt8} {off off' : Nat} {v v' : Volume}
    (hv : VolumeIn tp raw off v) (hv' : VolumeIn tp' raw' off' v') :
    v.report = v'.report ↔ SameLocation (.volume v) (.volume v') := by
  have w := hv.wide
  have w' := hv'.wide
  unfold Volume.report
  constructor
  · intro h
    simp only [List.cons_append, List.nil_append, List.cons.injEq, Prod.mk.injEq, true_and, PyVal.int.injEq,
      Nat.cast_inj, PyVal.str.injEq, hex0x_inj, UInt32.toNat_inj] at h
    obtain ⟨e1, e2, e3, e4, -, e5, e6⟩ := h
    rw [e3] at w
    rw [← w'] at w
    rcases ho : v.wideLabelOffset with _ | o <;> rcases ho' : v'.wideLabelOffset with _ | o' <;>
      simp only [ho, ho', Option.isSome_none, Option.isSome_some, reduceCtorEq, Bool.false_eq_true, if_false, if_true,
        List.cons.injEq, Prod.mk.injEq, true_and, and_true, PyVal.int.injEq, Nat.cast_inj, PyVal.str.injEq, UInt32.toNat_inj] at w e5 e6
    · exact .volume e1 e2 e4 e3 (ho.trans ho'.symm) e5
    · exact .volume e1 e2 e4 e3 (by rw [ho, ho', e6.1]) e6.2
  · intro h
    cases h with | volume e1 e2 e3 e4 e5 e6 =>
    rw [e1, e2, e3, e4, e5, show v.label.text = v'.label.text from e6]

theorem nameEntry_append {k : String} {t t' : Text} {d d' : Dict} 
    (hd : d.head?.map (·.1) ≠ some k) (hd' : d'.head?.map (·.1) ≠ some k) :
    (nameEntry k (some t) ++ d = nameEntry k (some t') ++ d') ↔ SameText t t' ∧ d = d' := by
  unfold nameEntry SameText
  simp only [Option.toList_some, List.flatMap_cons, List.flatMap_nil, List.append_nil]
  by_cases h : t.text = [] <;> by_cases h' : t'.text = []
  · simp [h, h']
  · rw [if_pos h, if_neg h', h]
    simp only [List.nil_append, List.cons_append, Ne.symm h', false_and, iff_false]
    rintro rfl
    simp at hd
  · rw [if_neg h, if_pos h', h']
    simp only [List.nil_append, List.cons_append, h, false_and, iff_false]
    rintro rfl
    simp at hd'
  · rw [if_neg h, if_neg h']
    simp

theorem netLink_same {tp tp' : TextProc} {raw raw' : List UInt8} {off off' : Nat} {n n' : NetLink}
    (hn : NetLinkIn tp raw off n) (hn' : NetLinkIn tp' raw' off' n') :
    n.report = n'.report ↔ SameLocation (.network n) (.network n') := by
  have w := hn.wide
  have w' := hn'.wide
  have names := hn.names
  have names' := hn'.names
  unfold NetLink.report
  constructor
  · intro h
    simp only [List.cons_append, List.nil_append, List.cons.injEq, Prod.mk.injEq, true_and, PyVal.int.injEq,
      Nat.cast_inj, PyVal.str.injEq, hex0x_inj, UInt32.toNat_inj] at h
    obtain ⟨e1, e2, e3, e4, e5, e6⟩ := h
    have hp : n.providerName = n'.providerName := by unfold NetLink.providerName; rw [e2, e5]
    rw [hp, List.append_cancel_left_eq] at e6
    rw [e3] at w
    rw [← w'] at w
    rcases ho : n.wide with _ | ⟨a, b⟩ <;> rcases ho' : n'.wide with _ | ⟨a', b'⟩ <;>
      simp only [ho, ho', Option.isSome_none, Option.isSome_some, reduceCtorEq, Bool.false_eq_true] at w e6 names names'
    · obtain ⟨⟨x, hx, -⟩, ⟨y, hy, -⟩⟩ := names
      obtain ⟨⟨x', hx', -⟩, ⟨y', hy', -⟩⟩ := names'
      rw [hx, hy, hx', hy'] at e6
      have hne : ∀ z : Text, (nameEntry "device_name" (some z)).head?.map (·.1) ≠ some "net_name" := by
        intro z
        unfold nameEntry
        by_cases hz : z.text = [] <;> simp [hz]
      obtain ⟨f1, f2⟩ := (nameEntry_append (hne y) (hne y')).1 e6
      rw [← List.append_nil (nameEntry _ _), ← List.append_nil (nameEntry _ (some y'))] at f2
      obtain ⟨f2, -⟩ := (nameEntry_append (by simp) (by simp)).1 f2
      exact .network e1 e2 e3 e4 e5 (ho.trans ho'.symm) (by rw [hx, hx']; exact congrArg some f1)
        (by rw [hy, hy']; exact congrArg some f2)
    · have hne : ∀ (o : Nat) (z : Option Text), (wideEntry "device_name_offset_unicode" "device_name_unicode" o z).head?.map (·.1) ≠
          some "net_name_offset_unicode" := by
        intro o z
        cases z <;> simp [wideEntry]
      obtain ⟨f1, f2, f3⟩ := (wideEntry_append (wideAt_isSome names.1) (wideAt_isSome names'.1) (hne _ _) (hne _ _)).1 e6
      rw [← List.append_nil (wideEntry _ _ _ _), ← List.append_nil (wideEntry _ _ _ n'.deviceName)] at f3
      obtain ⟨f3, f4, -⟩ := (wideEntry_append (wideAt_isSome names.2) (wideAt_isSome names'.2) (by simp) (by simp)).1 f3
      rw [UInt32.toNat_inj] at f1 f3
      exact .network e1 e2 e3 e4 e5 (by rw [ho, ho', f1, f3]) f2 f4
  · intro h
    cases h with | network e1 e2 e3 e4 e5 e6 e7 e8 =>
    have hp : n.providerName = n'.providerName := by unfold NetLink.providerName; rw [e2, e5]
    have hw : ∀ (k1 k2 : String) (o : Nat) {t t' : Option Text}, SameOptText t t' → wideEntry k1 k2 o t = wideEntry k1 k2 o t' := by
      intro k1 k2 o t t' e
      cases t <;> cases t' <;> simp_all [wideEntry, SameOptText]
    have hnm : ∀ (k : String) {t t' : Option Text}, SameOptText t t' → nameEntry k t = nameEntry k t' := by
      intro k t t' e
      cases t <;> cases t' <;> simp_all [nameEntry, SameOptText]
    rw [e1, e2, e3, e4, e5, e6, hp]
    rcases n'.wide with _ | w
    · simp only [hnm _ e7, hnm _ e8]
    · simp only [hw _ _ _ e7, hw _ _ _ e8]

theorem info_same {tp tp' : TextProc} {i i' : Info} (hv : i.Valid tp) (hv' : i'.Valid tp') :
    i.report = i'.report ↔ SameInfo i i' := by
  have l := hv.location
  have l' := hv'.location
  unfold Info.report
  rcases hl : i.location with v | n <;> rcases hl' : i'.location with v' | n' <;> simp only [hl, hl'] at l l' ⊢ <;>
    rw [fields_same hv.parts hv'.parts]
  · rw [volume_same l.2 l'.2]
    exact ⟨fun ⟨h1, h2, h3, h4, h5, _, h6⟩ => ⟨h1, h2, h3, h4, h5, by rw [hl, hl']; exact h6⟩,
      fun ⟨h1, h2, h3, h4, h5, h6⟩ => ⟨h1, h2, h3, h4, h5, rfl, by rw [hl, hl'] at h6; exact h6⟩⟩
  · refine ⟨fun h => absurd h.2.2.2.2.2.1 (by decide), fun h => ?_⟩
    have := h.location
    rw [hl, hl'] at this
    cases this
  · refine ⟨fun h => absurd h.2.2.2.2.2.1 (by decide), fun h => ?_⟩
    have := h.location
    rw [hl, hl'] at this
    cases this
  · rw [netLink_same l.2.2 l'.2.2]
    exact ⟨fun ⟨h1, h2, h3, h4, h5, _, h6⟩ => ⟨h1, h2, h3, h4, h5, by rw [hl, hl']; exact h6⟩,
      fun ⟨h1, h2, h3, h4, h5, h6⟩ => ⟨h1, h2, h3, h4, h5, rfl, by rw [hl, hl'] at h6; exact h6⟩⟩

end Verif
