import Verif.Spec.Brief
import Verif.Spec.Shape
import Verif.Lemmas.VisibleInfo
import Verif.Lemmas.Plain

/-
The parts of the reduced report, and what they determine.
-/

namespace Verif

open Spec

theorem without_nil (ks : List String) : without ks [] = [] := rfl

theorem without_append (ks : List String) (d e : Dict) : without ks (d ++ e) = without ks d ++ without ks e := List.filter_append ..

theorem without_skip {ks : List String} {k : String} (h : k ∈ ks) (v : PyVal) (d : Dict) : without ks ((k, v) :: d) = without ks d := by
  unfold without
  rw [List.filter_cons_of_neg]
  simpa using h

theorem without_keep {ks : List String} {k : String} (h : k ∉ ks) (v : PyVal) (d : Dict) :
    without ks ((k, v) :: d) = (k, v) :: without ks d := by
  unfold without
  rw [List.filter_cons_of_pos]
  simpa using h

theorem without_id {ks : List String} {d : Dict} (h : ∀ kv ∈ d, kv.1 ∉ ks) : without ks d = d := by
  unfold without
  rw [List.filter_eq_self]
  simpa using h

theorem without_text {ks : List String} {k : String} (h : k ∉ ks) (t : Option Text) : without ks (textEntry k t) = textEntry k t := by
  refine without_id fun kv hkv => ?_
  unfold textEntry at hkv
  obtain ⟨x, -, rfl⟩ := List.mem_map.1 hkv
  exact h

theorem without_wide {ks : List String} {k k' : String} (h : k ∉ ks) (h' : k' ∉ ks) (n : Nat) (t : Option Text) :
    without ks (wideEntry k k' n t) = wideEntry k k' n t := by
  refine without_id fun kv hkv => ?_
  unfold wideEntry at hkv
  obtain ⟨x, -, hx⟩ := List.mem_flatMap.1 hkv
  simp only [List.mem_cons, List.not_mem_nil, or_false] at hx
  rcases hx with rfl | rfl
  · exact h
  · exact h'

theorem without_name {ks : List String} {k : String} (h : k ∉ ks) (t : Option Text) : without ks (nameEntry k t) = nameEntry k t := by
  refine without_id fun kv hkv => ?_
  unfold nameEntry at hkv
  obtain ⟨x, -, hx⟩ := List.mem_flatMap.1 hkv
  split at hx
  · simp at hx
  · simp only [List.mem_cons, List.not_mem_nil, or_false] at hx
    subst hx
    exact h

/-! ### plain trees -/

theorem plain_without {d : Dict} (ks : List String) (h : Plain (.dict d)) : Plain (.dict (without ks d)) :=
  ⟨(List.Sublist.map _ List.filter_sublist).trans h.1, (PlainEntries_iff _).2 fun kv hkv =>
    (PlainEntries_iff d).1 h.2 kv (List.mem_of_mem_filter hkv)⟩

theorem plain_under {d : Dict} (k : String) {g : PyVal → PyVal} (hg : ∀ v, Plain v → Plain (g v)) (h : Plain (.dict d)) :
    Plain (.dict (under k g d)) := by
  refine ⟨?_, (PlainEntries_iff _).2 fun kv hkv => ?_⟩
  · have : (under k g d).map (·.1) = d.map (·.1) := by
      unfold under
      rw [List.map_map]
      refine List.map_congr_left fun kv _ => ?_
      simp only [Function.comp]
      split <;> rfl
    rw [this]
    exact h.1
  · obtain ⟨x, hx, rfl⟩ := List.mem_map.1 hkv
    have := (PlainEntries_iff d).1 h.2 x hx
    split
    · exact hg _ this
    · exact this

theorem plain_onDict {g : Dict → Dict} (hg : ∀ d, Plain (.dict d) → Plain (.dict (g d))) (v : PyVal) (h : Plain v) :
    Plain (onDict g v) := by
  cases v with
  | dict d => exact hg d h
  | _ => exact h

theorem plain_onList {g : PyVal → PyVal} (hg : ∀ v, Plain v → Plain (g v)) (v : PyVal) (h : Plain v) : Plain (onList g v) := by
  cases v with
  | list l =>
    refine (plain_list _).2 fun v hv => ?_
    obtain ⟨x, hx, rfl⟩ := List.mem_map.1 hv
    exact hg x ((plain_list l).1 h x hx)
  | _ => exact h

/-! ### items -/

def briefItem (it : Item) : Dict := without ["modification_time"] it.report

theorem briefItem_file (e : FileEntry) : briefItem (.file e) =
    [ ("class", .str "File entry".toList), ("flags", .str (fsKindText e.typ).toList), ("file_size", .int e.fileSize.toNat),
      ("file_attribute_flags", .int e.attributes.toNat), ("primary_name", .str e.name.text) ] := by
  unfold briefItem Item.report FileEntry.report
  rw [without_keep (by decide), without_keep (by decide), without_keep (by decide), without_skip (by decide),
    without_keep (by decide), without_keep (by decide), without_nil]

theorem briefItem_other {it : Item} (h : ∀ e, it ≠ .file e) : briefItem it = it.report := by
  have : "modification_time" ∉ it.report.map Prod.fst := by
    cases it with
    | file e => exact absurd rfl (h e)
    | _ => simp [Item.report]
  refine without_id fun kv hkv hk => this ?_
  rw [List.mem_singleton] at hk
  exact hk ▸ List.mem_map_of_mem hkv

theorem brief_class (it : Item) : ∃ r, briefItem it = ("class", .str (itemHead it).toList) :: r := by
  obtain ⟨r, hr⟩ := report_class it
  unfold briefItem
  rw [hr, without_keep (by decide)]
  exact ⟨_, rfl⟩

theorem brief_file_ne {tp : TextProc} {e : FileEntry} {it : Item} (hv : it.Valid tp) (h : ∀ e, it ≠ .file e) :
    briefItem (.file e) ≠ briefItem it := by
  obtain ⟨r, hr⟩ := brief_class (.file e)
  obtain ⟨r', hr'⟩ := brief_class it
  refine class_same hr hr' ?_
  cases it with
  | file e => exact absurd rfl (h e)
  | classOnly typ b => exact (classOnly_ne (s := "File entry") hv (by simp)).symm
  | _ => simp [itemHead]

theorem brief_item_same {tp tp' : TextProc} {it it' : Item} (hv : it.Valid tp) (hv' : it'.Valid tp') :
    briefItem it = briefItem it' ↔ BriefItem it it' := by
  by_cases h : ∃ e, it = .file e
  · obtain ⟨e, rfl⟩ := h
    by_cases h' : ∃ e', it' = .file e'
    · obtain ⟨e', rfl⟩ := h'
      rw [briefItem_file, briefItem_file]
      simp only [List.cons.injEq, Prod.mk.injEq, true_and, and_true, PyVal.str.injEq, PyVal.int.injEq, toList_inj, kind_same,
        Nat.cast_inj, UInt32.toNat_inj, UInt16.toNat_inj]
      refine ⟨fun ⟨a, b, c, d⟩ => .file ⟨a, b, c, d⟩, fun hb => ?_⟩
      cases hb with
      | file h => exact ⟨h.kind, h.fileSize, h.attributes, h.name⟩
      | same h =>
        cases h with
        | file h => exact ⟨h.kind, h.fileSize, h.attributes, h.name⟩
        | cpl h => simp [Item.cplParts] at h
    · refine iff_of_false (brief_file_ne hv' fun e he => h' ⟨e, he⟩) fun hb => ?_
      cases hb with
      | file h => exact h' ⟨_, rfl⟩
      | same h =>
        cases h with
        | file h => exact h' ⟨_, rfl⟩
        | cpl h => simp [Item.cplParts] at h
  · by_cases h' : ∃ e', it' = .file e'
    · obtain ⟨e', rfl⟩ := h'
      refine iff_of_false (brief_file_ne hv fun e he => h ⟨e, he⟩).symm fun hb => ?_
      cases hb with
      | file h1 => exact h ⟨_, rfl⟩
      | same h1 =>
        cases h1 with
        | file h1 => exact h ⟨_, rfl⟩
        | cpl _ h1 => simp [Item.cplParts] at h1
    · rw [briefItem_other fun e he => h ⟨e, he⟩, briefItem_other fun e he => h' ⟨e, he⟩, item_same tp tp' _ _ hv hv']
      refine ⟨.same, fun hb => ?_⟩
      cases hb with
      | file h1 => exact absurd ⟨_, rfl⟩ h
      | same h1 => exact h1

/-! ### LinkInfo -/

def briefVolume (v : Volume) : Dict :=
  [ ("r_drive_type", .int v.driveType.toNat), ("drive_serial_number", .str (hex0x v.serial.toNat)),
    ("drive_type", optName (driveTypeName v.driveType.toNat)),
    ("volume_label", if v.wideLabelOffset.isSome then .none else .str v.label.text) ] ++
    match v.wideLabelOffset with
    | none => []
    | some o => [("volume_label_unicode_offset", .int o.toNat), ("volume_label_unicode", .str v.label.text)]

def briefNetwork (n : NetLink) : Dict :=
  [ ("common_network_relative_link_flags", .int n.flags.toNat), ("r_network_provider_type", .str (hex0x n.provider.toNat)) ] ++
    (n.providerName.toList.map fun s => ("network_provider_type", .str s.toList)) ++
    match n.wide with
    | none => nameEntry "net_name" n.netName ++ nameEntry "device_name" n.deviceName
    | some w =>
      wideEntry "net_name_offset_unicode" "net_name_unicode" w.1.toNat n.netName ++
        wideEntry "device_name_offset_unicode" "device_name_unicode" w.2.toNat n.deviceName

abbrev locationKeys : List String :=
  ["volume_id_size", "volume_label_offset", "common_network_relative_link_size", "net_name_offset", "device_name_offset"]

abbrev infoKeys : List String :=
  ["link_info_size", "link_info_header_size", "volume_id_offset", "local_base_path_offset",
    "common_network_relative_link_offset", "common_path_suffix_offset"]

theorem briefVolume_eq (v : Volume) : without locationKeys v.report = briefVolume v := by
  unfold Volume.report briefVolume
  cases v.wideLabelOffset <;>
    simp only [List.cons_append, List.nil_append] <;>
    rw [without_skip (by decide), without_keep (by decide), without_skip (by decide), without_keep (by decide),
      without_keep (by decide), without_keep (by decide)]
  · rfl
  · rw [without_keep (by decide), without_keep (by decide), without_nil]

theorem briefNetwork_eq (n : NetLink) : without locationKeys n.report = briefNetwork n := by
  have hp : without locationKeys (n.providerName.toList.map fun s => ("network_provider_type", PyVal.str s.toList)) =
      n.providerName.toList.map fun s => ("network_provider_type", PyVal.str s.toList) := by
    refine without_id fun kv hkv => ?_
    obtain ⟨x, -, rfl⟩ := List.mem_map.1 hkv
    show "network_provider_type" ∉ locationKeys
    decide
  unfold NetLink.report briefNetwork
  cases n.wide <;>
    simp only [List.cons_append, List.nil_append] <;>
    rw [without_skip (by decide), without_keep (by decide), without_skip (by decide), without_skip (by decide),
      without_keep (by decide), without_append, without_append, hp]
  · rw [without_name (by decide), without_name (by decide)]
  · rw [without_wide (by decide) (by decide), without_wide (by decide) (by decide)]

/-- What is left of the object for LinkInfo. -/
def briefInfo (i : Info) : Dict :=
  [("link_info_flags", .int i.header.flags.toNat)] ++
    textEntry "local_base_path" i.texts.base ++ textEntry "common_path_suffix" i.texts.suffix ++
    wideEntry "local_base_path_offset_unicode" "local_base_path_unicode" ((i.header.wide.map (·.1.toNat)).getD 0) i.texts.wideBase ++
    wideEntry "common_path_suffix_offset_unicode" "common_path_suffix_unicode" ((i.header.wide.map (·.2.toNat)).getD 0)
      i.texts.wideSuffix4 ++
    match i.location with
    | .volume v => [("location_info", .dict (briefVolume v)), ("location", .str "Local".toList)]
    | .network n => [("location_info", .dict (briefNetwork n)), ("location", .str "Network".toList)]

theorem under_skip {k k' : String} (h : k' ≠ k) (g : PyVal → PyVal) (v : PyVal) (d : Dict) :
    under k g ((k', v) :: d) = (k', v) :: under k g d := by
  unfold under
  rw [List.map_cons, if_neg h]

theorem under_here (k : String) (g : PyVal → PyVal) (v : PyVal) (d : Dict) : under k g ((k, v) :: d) = (k, g v) :: under k g d := by
  unfold under
  rw [List.map_cons, if_pos rfl]

theorem under_append (k : String) (g : PyVal → PyVal) (d e : Dict) : under k g (d ++ e) = under k g d ++ under k g e := List.map_append

theorem under_id {k : String} (g : PyVal → PyVal) {d : Dict} (h : ∀ kv ∈ d, kv.1 ≠ k) : under k g d = d := by
  unfold under
  conv_rhs => rw [← List.map_id d]
  refine List.map_congr_left fun kv hkv => ?_
  rw [if_neg (h kv hkv)]
  rfl

theorem under_text {k k' : String} (h : k' ≠ k) (g : PyVal → PyVal) (t : Option Text) : under k g (textEntry k' t) = textEntry k' t := by
  refine under_id _ fun kv hkv => ?_
  unfold textEntry at hkv
  obtain ⟨x, -, rfl⟩ := List.mem_map.1 hkv
  exact h

theorem under_wide {k k1 k2 : String} (h : k1 ≠ k) (h' : k2 ≠ k) (g : PyVal → PyVal) (n : Nat) (t : Option Text) :
    under k g (wideEntry k1 k2 n t) = wideEntry k1 k2 n t := by
  refine under_id _ fun kv hkv => ?_
  unfold wideEntry at hkv
  obtain ⟨x, -, hx⟩ := List.mem_flatMap.1 hkv
  simp only [List.mem_cons, List.not_mem_nil, or_false] at hx
  rcases hx with rfl | rfl
  · exact h
  · exact h'

theorem briefInfo_eq (i : Info) :
    under "location_info" (onDict (without locationKeys)) (without infoKeys i.report) = briefInfo i := by
  have key : ∀ (h : InfoHeader) (t : InfoTexts) (l : String) (d : Dict),
      under "location_info" (onDict (without locationKeys)) (without infoKeys (infoReport h t l d)) =
      [("link_info_flags", .int h.flags.toNat)] ++
        textEntry "local_base_path" t.base ++ textEntry "common_path_suffix" t.suffix ++
        wideEntry "local_base_path_offset_unicode" "local_base_path_unicode" ((h.wide.map (·.1.toNat)).getD 0) t.wideBase ++
        wideEntry "common_path_suffix_offset_unicode" "common_path_suffix_unicode" ((h.wide.map (·.2.toNat)).getD 0)
          t.wideSuffix4 ++ [("location_info", .dict (without locationKeys d)), ("location", .str l.toList)] := by
    intro h t l d
    unfold infoReport
    simp only [List.append_assoc]
    simp only [List.cons_append, List.nil_append]
    rw [without_skip (by decide), without_skip (by decide), without_keep (by decide), without_skip (by decide),
      without_skip (by decide), without_skip (by decide), without_skip (by decide), without_append, without_text (by decide),
      without_append, without_text (by decide), without_append, without_wide (by decide) (by decide), without_append,
      without_wide (by decide) (by decide), without_keep (by decide), without_keep (by decide), without_nil,
      under_skip (by decide), under_append, under_text (by decide), under_append, under_text (by decide), under_append,
      under_wide (by decide) (by decide), under_append, under_wide (by decide) (by decide), under_here, under_skip (by decide)]
    rfl
  unfold Info.report briefInfo
  cases i.location with
  | volume v => simp only [key, briefVolume_eq]
  | network n => simp only [key, briefNetwork_eq]

theorem plain_briefInfo (i : Info) : Plain (.dict (briefInfo i)) := by
  rw [← briefInfo_eq]
  exact plain_under _ (plain_onDict fun d => plain_without _) (plain_without _ (plain_info i))

theorem brief_volume_same {v v' : Volume} : briefVolume v = briefVolume v' ↔ BriefLocation (.volume v) (.volume v') := by
  unfold briefVolume
  constructor
  · intro h
    simp only [List.cons_append, List.nil_append, List.cons.injEq, Prod.mk.injEq, true_and, PyVal.int.injEq,
      Nat.cast_inj, PyVal.str.injEq, hex0x_inj, UInt32.toNat_inj] at h
    obtain ⟨e2, e4, -, e5, e6⟩ := h
    rcases ho : v.wideLabelOffset with _ | o <;> rcases ho' : v'.wideLabelOffset with _ | o' <;>
      simp only [ho, ho', Option.isSome_none, Option.isSome_some, reduceCtorEq, Bool.false_eq_true, if_false, if_true,
        List.cons.injEq, Prod.mk.injEq, true_and, and_true, PyVal.int.injEq, Nat.cast_inj, PyVal.str.injEq, UInt32.toNat_inj] at e5 e6
    · exact .volume e2 e4 (ho.trans ho'.symm) e5
    · exact .volume e2 e4 (by rw [ho, ho', e6.1]) e6.2
  · intro h
    cases h with | volume e2 e3 e5 e6 =>
    rw [e2, e3, e5, show v.label.text = v'.label.text from e6]

/-- The entries for the names of a network link. -/
def nameEntries (n : NetLink) : Dict :=
  match n.wide with
  | none => nameEntry "net_name" n.netName ++ nameEntry "device_name" n.deviceName
  | some w =>
    wideEntry "net_name_offset_unicode" "net_name_unicode" w.1.toNat n.netName ++
      wideEntry "device_name_offset_unicode" "device_name_unicode" w.2.toNat n.deviceName

theorem nameless_nil {tp : TextProc} {raw : List UInt8} {off : Nat} {n : NetLink} (hn : NetLinkIn tp raw off n) :
    n.Nameless ↔ nameEntries n = [] := by
  have names := hn.names
  unfold NetLink.Nameless nameEntries
  rcases ho : n.wide with _ | w <;> simp only [ho] at names
  · obtain ⟨⟨x, hx, -⟩, ⟨y, hy, -⟩⟩ := names
    simp [hx, hy, nameEntry]
  · rcases n.netName with _ | x <;> rcases n.deviceName with _ | y <;> simp [wideEntry]
    exact ⟨y, fun _ => rfl⟩

theorem name_key {k : String} {t : Option Text} {kv : String × PyVal} (h : kv ∈ nameEntry k t) : kv.1 = k := by
  unfold nameEntry at h
  obtain ⟨x, -, hx⟩ := List.mem_flatMap.1 h
  split at hx
  · simp at hx
  · simp only [List.mem_cons, List.not_mem_nil, or_false] at hx
    rw [hx]

theorem wide_key {k k' : String} {n : Nat} {t : Option Text} {kv : String × PyVal} (h : kv ∈ wideEntry k k' n t) : kv.1 = k ∨ kv.1 = k' := by
  unfold wideEntry at h
  obtain ⟨x, -, hx⟩ := List.mem_flatMap.1 h
  simp only [List.mem_cons, List.not_mem_nil, or_false] at hx
  rcases hx with rfl | rfl
  · exact .inl rfl
  · exact .inr rfl

/-- Names in code page form and Unicode names have different keys. -/
theorem names_disjoint {n n' : NetLink} {w : UInt32 × UInt32} (h : n.wide = none) (h' : n'.wide = some w)
    (e : nameEntries n = nameEntries n') : nameEntries n = [] := by
  by_contra hne
  obtain ⟨kv, hkv⟩ := List.exists_mem_of_ne_nil _ hne
  have hkv' := hkv
  rw [e] at hkv'
  unfold nameEntries at hkv hkv'
  rw [h] at hkv
  rw [h'] at hkv'
  rcases List.mem_append.1 hkv with h1 | h1 <;> rcases List.mem_append.1 hkv' with h2 | h2 <;>
    rcases wide_key h2 with h3 | h3 <;> rw [name_key h1] at h3 <;> exact absurd h3 (by decide)

theorem names_same {tp tp' : TextProc} {raw raw' : List UInt8} {off off' : Nat} {n n' : NetLink}
    (hn : NetLinkIn tp raw off n) (hn' : NetLinkIn tp' raw' off' n') : nameEntries n = nameEntries n' ↔
      (n.wide = n'.wide ∧ SameOptText n.netName n'.netName ∧ SameOptText n.deviceName n'.deviceName) ∨ (n.Nameless ∧ n'.Nameless) := by
  have names := hn.names
  have names' := hn'.names
  constructor
  · intro e6
    rcases ho : n.wide with _ | ⟨a, b⟩ <;> rcases ho' : n'.wide with _ | ⟨a', b'⟩
    · unfold nameEntries at e6
      simp only [ho, ho'] at names names' e6
      obtain ⟨⟨x, hx, -⟩, ⟨y, hy, -⟩⟩ := names
      obtain ⟨⟨x', hx', -⟩, ⟨y', hy', -⟩⟩ := names'
      rw [hx, hy, hx', hy'] at e6
      have hne : ∀ z : Text, (nameEntry "device_name" (some z)).head?.map (·.1) ≠ some "net_name" := by
        intro z
        unfold nameEntry
        by_cases hz : z.text = [] <;> simp [hz]
      obtain ⟨f1, f2⟩ := (nameEntry_append (hne y) (hne y')).1 e6
      rw [← List.append_nil (nameEntry _ _), ← List.append_nil (nameEntry _ (some y'))] at f2
      obtain ⟨f2, -⟩ := (nameEntry_append (by simp) (by simp)).1 f2
      exact .inl ⟨rfl, by rw [hx, hx']; exact congrArg some f1, by rw [hy, hy']; exact congrArg some f2⟩
    · have h0 := names_disjoint ho ho' e6
      exact .inr ⟨(nameless_nil hn).2 h0, (nameless_nil hn').2 (e6 ▸ h0)⟩
    · have h0 := names_disjoint ho' ho e6.symm
      exact .inr ⟨(nameless_nil hn).2 (e6.symm ▸ h0), (nameless_nil hn').2 h0⟩
    · unfold nameEntries at e6
      simp only [ho, ho'] at names names' e6
      have hne : ∀ (o : Nat) (z : Option Text), (wideEntry "device_name_offset_unicode" "device_name_unicode" o z).head?.map (·.1) ≠
          some "net_name_offset_unicode" := by
        intro o z
        cases z <;> simp [wideEntry]
      obtain ⟨f1, f2, f3⟩ := (wideEntry_append (wideAt_isSome names.1) (wideAt_isSome names'.1) (hne _ _) (hne _ _)).1 e6
      rw [← List.append_nil (wideEntry _ _ _ _), ← List.append_nil (wideEntry _ _ _ n'.deviceName)] at f3
      obtain ⟨f3, f4, -⟩ := (wideEntry_append (wideAt_isSome names.2) (wideAt_isSome names'.2) (by simp) (by simp)).1 f3
      rw [UInt32.toNat_inj] at f1 f3
      exact .inl ⟨by rw [f1, f3], f2, f4⟩
  · rintro (⟨e6, e7, e8⟩ | ⟨h, h'⟩)
    · have hw : ∀ (k1 k2 : String) (o : Nat) {t t' : Option Text}, SameOptText t t' → wideEntry k1 k2 o t = wideEntry k1 k2 o t' := by
        intro k1 k2 o t t' e
        cases t <;> cases t' <;> simp_all [wideEntry, SameOptText]
      have hnm : ∀ (k : String) {t t' : Option Text}, SameOptText t t' → nameEntry k t = nameEntry k t' := by
        intro k t t' e
        cases t <;> cases t' <;> simp_all [nameEntry, SameOptText]
      unfold nameEntries
      rw [e6]
      rcases n'.wide with _ | w
      · simp only [hnm _ e7, hnm _ e8]
      · simp only [hw _ _ _ e7, hw _ _ _ e8]
    · rw [(nameless_nil hn).1 h, (nameless_nil hn').1 h']

theorem brief_network_same {tp tp' : TextProc} {raw raw' : List UInt8} {off off' : Nat} {n n' : NetLink}
    (hn : NetLinkIn tp raw off n) (hn' : NetLinkIn tp' raw' off' n') :
    briefNetwork n = briefNetwork n' ↔ BriefLocation (.network n) (.network n') := by
  have e : briefNetwork n = briefNetwork n' ↔ n.flags = n'.flags ∧ n.provider = n'.provider ∧ nameEntries n = nameEntries n' := by
    have u : ∀ n, briefNetwork n = [ ("common_network_relative_link_flags", .int n.flags.toNat),
        ("r_network_provider_type", .str (hex0x n.provider.toNat)) ] ++
        (n.providerName.toList.map fun s => ("network_provider_type", .str s.toList)) ++ nameEntries n := fun n => rfl
    rw [u, u]
    simp only [List.cons_append, List.nil_append, List.cons.injEq, Prod.mk.injEq, true_and, PyVal.int.injEq,
      Nat.cast_inj, PyVal.str.injEq, hex0x_inj, UInt32.toNat_inj]
    refine and_congr_right fun e1 => and_congr_right fun e2 => ?_
    have hp : n.providerName = n'.providerName := by unfold NetLink.providerName; rw [e1, e2]
    rw [hp, List.append_cancel_left_eq]
  rw [e, names_same hn hn']
  constructor
  · rintro ⟨h1, h2, ⟨h3, h4, h5⟩ | ⟨h3, h4⟩⟩
    · exact .network h1 h2 h3 h4 h5
    · exact .nameless h1 h2 h3 h4
  · rintro (_ | ⟨h1, h2, h3, h4, h5⟩ | ⟨h1, h2, h3, h4⟩)
    · exact ⟨h1, h2, .inl ⟨h3, h4, h5⟩⟩
    · exact ⟨h1, h2, .inr ⟨h3, h4⟩⟩

theorem wide_getD {w w' : Option (UInt32 × UInt32)} : w.getD (0, 0) = w'.getD (0, 0) ↔
    (w.map (·.1.toNat)).getD 0 = (w'.map (·.1.toNat)).getD 0 ∧ (w.map (·.2.toNat)).getD 0 = (w'.map (·.2.toNat)).getD 0 := by
  rcases w with _ | ⟨a, b⟩ <;> rcases w' with _ | ⟨a', b'⟩ <;> simp [← UInt32.toNat_inj]

theorem textEntry_before {key : String} {t t' : Option Text} {d d' : Dict}
    (hd : d.head?.map (·.1) ≠ some key) (hd' : d'.head?.map (·.1) ≠ some key) :
    (textEntry key t ++ d = textEntry key t' ++ d') ↔ SameOptText t t' ∧ d = d' := by
  rcases t with _ | t <;> rcases t' with _ | t'
  · simp [textEntry, SameOptText]
  · simp only [textEntry, SameOptText, Option.toList_none, List.map_nil, List.nil_append, Option.toList_some, List.map_cons,
      List.cons_append, Option.map_none, Option.map_some, reduceCtorEq, false_and, iff_false]
    rintro rfl
    simp at hd
  · simp only [textEntry, SameOptText, Option.toList_none, List.map_nil, List.nil_append, Option.toList_some, List.map_cons,
      List.cons_append, Option.map_none, Option.map_some, reduceCtorEq, false_and, iff_false]
    rintro rfl
    simp at hd'
  · simp [textEntry, SameOptText]

theorem textEntry_head {k k' : String} {t : Option Text} {d : Dict} (hk : k' ≠ k) (hd : d.head?.map (·.1) ≠ some k) :
    (textEntry k' t ++ d).head?.map (·.1) ≠ some k := by
  cases t <;> simp_all [textEntry]

/-- The object for the location. -/
def briefLocation : Location → Dict
  | .volume v => [("location_info", .dict (briefVolume v)), ("location", .str "Local".toList)]
  | .network n => [("location_info", .dict (briefNetwork n)), ("location", .str "Network".toList)]

theorem briefLocation_head (l : Location) : (briefLocation l).head?.map (·.1) = some "location_info" := by cases l <;> rfl

theorem brief_info_same {tp tp' : TextProc} {i i' : Info} (hv : i.Valid tp) (hv' : i'.Valid tp') :
    briefInfo i = briefInfo i' ↔ BriefInfo i i' := by
  have hi := hv.parts
  have hi' := hv'.parts
  have w1 := textAt_isSome hi.wideBase
  have w2 := textAt_isSome hi'.wideBase
  have u1 := textAt_isSome hi.wideSuffix
  have u2 := textAt_isSome hi'.wideSuffix
  have hl : briefLocation i.location = briefLocation i'.location ↔ BriefLocation i.location i'.location := by
    have l := hv.location
    have l' := hv'.location
    rcases hl : i.location with v | n <;> rcases hl' : i'.location with v' | n' <;> simp only [hl, hl'] at l l'
    · simp only [briefLocation, List.cons.injEq, Prod.mk.injEq, true_and, and_true, PyVal.dict.injEq]
      exact brief_volume_same
    · refine iff_of_false ?_ (fun h => by cases h)
      simp only [briefLocation, List.cons.injEq, Prod.mk.injEq, true_and, and_true, PyVal.str.injEq, toList_inj]
      exact fun h => absurd h.2 (by decide)
    · refine iff_of_false ?_ (fun h => by cases h)
      simp only [briefLocation, List.cons.injEq, Prod.mk.injEq, true_and, and_true, PyVal.str.injEq, toList_inj]
      exact fun h => absurd h.2 (by decide)
    · simp only [briefLocation, List.cons.injEq, Prod.mk.injEq, true_and, and_true, PyVal.dict.injEq]
      exact brief_network_same l.2.2 l'.2.2
  have u : ∀ i : Info, briefInfo i = ("link_info_flags", .int i.header.flags.toNat) ::
      (textEntry "local_base_path" i.texts.base ++ (textEntry "common_path_suffix" i.texts.suffix ++
      (wideEntry "local_base_path_offset_unicode" "local_base_path_unicode" ((i.header.wide.map (·.1.toNat)).getD 0) i.texts.wideBase ++
      (wideEntry "common_path_suffix_offset_unicode" "common_path_suffix_unicode" ((i.header.wide.map (·.2.toNat)).getD 0)
        i.texts.wideSuffix4 ++ briefLocation i.location)))) := by
    intro i
    unfold briefInfo briefLocation
    cases i.location <;> simp only [List.append_assoc, List.cons_append, List.nil_append]
  have h0 : ∀ {k : String} (l : Location), k ≠ "location_info" → (briefLocation l).head?.map (·.1) ≠ some k := by
    intro k l hk
    rw [briefLocation_head]
    exact fun h => hk (Option.some.inj h).symm
  rw [u, u, List.cons.injEq, Prod.mk.injEq, PyVal.int.injEq, Nat.cast_inj, UInt32.toNat_inj,
    textEntry_before (textEntry_head (by decide) (wideEntry_head (by decide) (wideEntry_head (by decide) (h0 _ (by decide)))))
      (textEntry_head (by decide) (wideEntry_head (by decide) (wideEntry_head (by decide) (h0 _ (by decide))))),
    textEntry_before (wideEntry_head (by decide) (wideEntry_head (by decide) (h0 _ (by decide))))
      (wideEntry_head (by decide) (wideEntry_head (by decide) (h0 _ (by decide)))),
    wideEntry_append w1 w2 (wideEntry_head (by decide) (h0 _ (by decide))) (wideEntry_head (by decide) (h0 _ (by decide))),
    wideEntry_append u1 u2 (h0 _ (by decide)) (h0 _ (by decide)), hl]
  exact ⟨fun ⟨⟨_, h1⟩, h2, h3, h4, h5, h6, h7, h8⟩ => ⟨h1, wide_getD.2 ⟨h4, h6⟩, h2, h3, h5, h7, h8⟩,
    fun ⟨h1, h4, h2, h3, h5, h7, h8⟩ => ⟨⟨rfl, h1⟩, h2, h3, (wide_getD.1 h4).1, h5, (wide_getD.1 h4).2, h7, h8⟩⟩

end Verif
