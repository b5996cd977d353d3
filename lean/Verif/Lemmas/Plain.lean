import Verif.Lemmas.Dated
import Verif.Props.Determined

namespace Verif

open Spec

/-! ### what the shown tree says about entries -/

theorem keys_eq_filter {order l : List String} (h : l.Sublist order) (hn : order.Nodup) : l = order.filter (· ∈ l) := by
  induction h with
  | slnil => rfl
  | @cons l o a hs ih =>
    rw [List.nodup_cons] at hn
    have hl : a ∉ l := fun hm => hn.1 (hs.subset hm)
    rw [List.filter_cons_of_neg (by simpa using hl)]
    exact ih hn.2
  | @cons_cons l o a hs ih =>
    rw [List.nodup_cons] at hn
    rw [List.filter_cons_of_pos (by simp)]
    congr 1
    rw [ih hn.2]
    conv => rhs; arg 1; ext x; rw [← ih hn.2]
    refine List.filter_congr fun x hx => ?_
    have : x ≠ a := fun e => hn.1 (e ▸ hx)
    simp [this]

theorem keys_eq_of_sublist {order l l' : List String} (hn : order.Nodup) (h : l.Sublist order) (h' : l'.Sublist order)
    (hp : l.Perm l') : l = l' := by
  rw [keys_eq_filter h hn, keys_eq_filter h' hn]
  refine List.filter_congr fun x _ => ?_
  simp [hp.mem_iff]

theorem Dict.get?_perm {d d' : Dict} (hp : d.Perm d') (hn : (d.map (·.1)).Nodup) (k : String) : d.get? k = d'.get? k := by
  apply Option.ext
  intro v
  rw [Dict.get?_eq_lookup, Dict.get?_eq_lookup, Props.lookup_mem _ hn, Props.lookup_mem _ ((hp.map _).nodup_iff.1 hn), hp.mem_iff]

/-- Entries with the same keys in the same order. -/
theorem shown_entries {d d' : Dict} (h : SameShown (.dict d) (.dict d')) (hn : (d'.map (·.1)).Nodup)
    (hk : d.map (·.1) = d'.map (·.1)) : List.Forall₂ SameShown (d.map (·.2)) (d'.map (·.2)) := by
  cases h with
  | @dict _ e _ hp hke hv =>
    have he : (e.map (·.1)).Nodup := by rw [← hke, hk]; exact hn
    have : e = d' := Dict.ext_get? (hke.symm.trans hk) he fun k => Dict.get?_perm hp he k
    rw [← this]
    exact hv

theorem shown_keys {d d' : Dict} (h : SameShown (.dict d) (.dict d')) : (d.map (·.1)).Perm (d'.map (·.1)) := by
  cases h with
  | @dict _ e _ hp hke hv => rw [hke]; exact hp.map _

/-- Every key: both without, or both with values that look the same. -/
theorem shown_get {d d' : Dict} (h : SameShown (.dict d) (.dict d')) (hn : (d.map (·.1)).Nodup) (k : String) :
    Option.Rel SameShown (d.get? k) (d'.get? k) := by
  cases h with
  | @dict _ e _ hp hke hv =>
    have he : (e.map (·.1)).Nodup := hke ▸ hn
    rw [← Dict.get?_perm hp he]
    clear hp he hn d'
    induction d generalizing e with
    | nil =>
      obtain rfl : e = [] := by simpa using hke.symm
      exact .none
    | cons a d ih =>
      rcases e with _ | ⟨a', e⟩
      · simp at hke
      · obtain ⟨k1, v1⟩ := a
        obtain ⟨k2, v2⟩ := a'
        simp only [List.map_cons, List.cons.injEq, List.forall₂_cons] at hke hv
        obtain ⟨rfl, hke⟩ := hke
        unfold Dict.get?
        by_cases hk : k1 = k
        · rw [if_pos hk, if_pos hk]
          exact .some hv.1
        · rw [if_neg hk, if_neg hk]
          exact ih hke hv.2

/-! ### trees that are seen exactly -/

/-- All keys but those of the header and the names of blocks, so that every kind of dictionary lists its keys in this order. -/
def keyOrder : List String :=
  [ "class", "link_info_size", "volume_id_size", "common_network_relative_link_size", "storage_size", "value_size",
    "size", "signature", "category_id", "sort_index", "flags", "item_identifier", "link_info_header_size",
    "r_drive_type", "common_network_relative_link_flags", "id", "name_size", "items", "code_page", "special_folder_id",
    "known_folder_id", "target_ansi", "layer_name", "extra_data_sha256", "appended_data_sha256", "fill_attributes",
    "length", "darwin_data_ansi", "id_list", "property_store", "cpl_file_path", "file_entry", "category",
    "sort_index_value", "volume_name", "volume_identifier", "file_size", "content_flags", "link_info_flags",
    "volume_label_offset", "net_name_offset", "index", "offset", "target_unicode", "popup_fill_attributes", "version",
    "darwin_data_unicode", "name", "delegate_class_id", "guid", "modification_time", "volume_id_offset",
    "drive_serial_number", "device_name_offset", "screen_buffer_size_x", "machine_identifier", "format_id",
    "product_code_id", "value", "delegate_folder_id", "file_attribute_flags", "local_base_path_offset", "drive_type",
    "r_network_provider_type", "screen_buffer_size_y", "droid_volume_identifier", "serialized_property_values",
    "feature_name", "value_type", "primary_name", "common_network_relative_link_offset", "volume_label",
    "network_provider_type", "window_size_x", "droid_file_identifier", "component_id", "common_path_suffix_offset",
    "volume_label_unicode_offset", "net_name_offset_unicode", "window_size_y", "birth_droid_volume_identifier",
    "local_base_path", "volume_label_unicode", "net_name_unicode", "window_origin_x", "birth_droid_file_identifier",
    "common_path_suffix", "device_name_offset_unicode", "window_origin_y", "local_base_path_offset_unicode",
    "device_name_unicode", "font_size", "local_base_path_unicode", "net_name", "font_family",
    "common_path_suffix_offset_unicode", "device_name", "font_weight", "common_path_suffix_unicode", "face_name",
    "location_info", "cursor_size", "location", "full_screen", "description", "quick_edit", "comments", "relative_path",
    "insert_mode", "working_directory", "auto_position", "command_line_arguments", "history_buffer_size",
    "icon_location", "number_of_history_buffers", "history_no_dup", "color_table" ]

theorem keyOrder_nodup : keyOrder.Nodup := by decide +kernel

theorem keyOrder_schemas : ∀ s ∈ schemas, s.Sublist keyOrder := by decide +kernel

mutual
/-- Keys in the usual order, and no parts of seconds. -/
def Plain : PyVal → Prop
  | .dt d => d.microsecond = 0
  | .list l => PlainList l
  | .dict d => (d.map (·.1)).Sublist keyOrder ∧ PlainEntries d
  | _ => True
def PlainList : List PyVal → Prop
  | [] => True
  | v :: l => Plain v ∧ PlainList l
def PlainEntries : List (String × PyVal) → Prop
  | [] => True
  | (_, v) :: d => Plain v ∧ PlainEntries d
end

theorem PlainList_iff (l : List PyVal) : PlainList l ↔ ∀ v ∈ l, Plain v := by
  induction l with
  | nil => simp [PlainList]
  | cons v l ih => simp [PlainList, ih]

theorem PlainEntries_iff (d : Dict) : PlainEntries d ↔ ∀ kv ∈ d, Plain kv.2 := by
  induction d with
  | nil => simp [PlainEntries]
  | cons kv d ih => obtain ⟨k, v⟩ := kv; simp [PlainEntries, ih]

/-- Plain trees that look the same are the same. -/
theorem plain_eq (n : Nat) : ∀ v v' : PyVal, sizeOf v < n → Plain v → Plain v' → SameShown v v' → v = v' := by
  induction n with
  | zero => intro v v' h; omega
  | succ n ih =>
    intro v v' hn hp hp' h
    cases h with
    | none => rfl
    | int i => rfl
    | str s => rfl
    | @date d d' h =>
      have h1 : d.microsecond = 0 := hp
      have h2 : d'.microsecond = 0 := hp'
      obtain ⟨a, b, c, e, f, g, m⟩ := d
      obtain ⟨a', b', c', e', f', g', m'⟩ := d'
      simp only at h1 h2
      subst h1 h2
      rw [h]
    | @list l l' h =>
      rw [Plain, PlainList_iff] at hp hp'
      simp only [PyVal.list.sizeOf_spec] at hn
      have hs : ∀ v ∈ l, sizeOf v < n := fun v hv => by have := List.sizeOf_lt_of_mem hv; omega
      clear hn
      congr 1
      induction h with
      | nil => rfl
      | @cons a b l l' hab _ ihl =>
        rw [ih a b (hs a (by simp)) (hp a (by simp)) (hp' b (by simp)) hab,
          ihl (fun v hv => hp v (by simp [hv])) (fun v hv => hp' v (by simp [hv])) fun v hv => hs v (by simp [hv])]
    | @dict d e d' hpe hk hv =>
      obtain ⟨h1, h2⟩ := hp
      obtain ⟨h1', h2'⟩ := hp'
      rw [PlainEntries_iff] at h2 h2'
      have hs : ∀ kv ∈ d, sizeOf kv.2 < n := by
        intro kv hkv
        have := List.sizeOf_lt_of_mem hkv
        obtain ⟨k, v⟩ := kv
        simp only [PyVal.dict.sizeOf_spec, Prod.mk.sizeOf_spec] at *
        omega
      have hkk : d.map (·.1) = d'.map (·.1) :=
        keys_eq_of_sublist keyOrder_nodup h1 h1' (by rw [hk]; exact hpe.map _)
      have := shown_entries (.dict hpe hk hv) (h1'.nodup keyOrder_nodup) hkk
      clear hpe hk hv hn h1 h1'
      congr 1
      induction d generalizing d' with
      | nil =>
        obtain rfl : d' = [] := by simpa using hkk.symm
        rfl
      | cons a d ihd =>
        rcases d' with _ | ⟨a', d'⟩
        · simp at hkk
        · simp only [List.map_cons, List.cons.injEq, List.forall₂_cons] at hkk this
          have e1 := ih a.2 a'.2 (hs a (by simp)) (h2 a (by simp)) (h2' a' (by simp)) this.1
          have e2 := ihd (fun v hv => h2 v (by simp [hv])) (fun v hv => h2' v (by simp [hv])) (fun v hv => hs v (by simp [hv]))
            hkk.2 this.2
          rw [e2, Prod.ext hkk.1 e1]

theorem eq_of_shown {v v' : PyVal} (h : SameShown v v') (hp : Plain v) (hp' : Plain v') : v = v' :=
  plain_eq _ v v' (Nat.lt_succ_self _) hp hp' h

@[simp] theorem plain_int (i : Int) : Plain (.int i) := trivial
@[simp] theorem plain_str (s : Str) : Plain (.str s) := trivial
@[simp] theorem plain_none : Plain .none := trivial
@[simp] theorem plain_opt_str (o : Option Str) : Plain (PyVal.opt .str o) := by cases o <;> trivial
@[simp] theorem plain_optText (o : Option Text) : Plain (optText o) := plain_opt_str _
@[simp] theorem plain_optName (o : Option String) : Plain (optName o) := plain_opt_str _
@[simp] theorem plain_ite {c : Prop} [Decidable c] (v w : PyVal) (hv : Plain v) (hw : Plain w) : Plain (if c then v else w) := by
  split
  · exact hv
  · exact hw
@[simp] theorem plain_list (l : List PyVal) : Plain (.list l) ↔ ∀ v ∈ l, Plain v := PlainList_iff l

theorem PlainEntries_append (d e : Dict) : PlainEntries (d ++ e) ↔ PlainEntries d ∧ PlainEntries e := by
  simp only [PlainEntries_iff, List.mem_append]
  constructor
  · exact fun h => ⟨fun kv hk => h kv (.inl hk), fun kv hk => h kv (.inr hk)⟩
  · rintro ⟨h1, h2⟩ kv (hk | hk)
    · exact h1 kv hk
    · exact h2 kv hk

macro "plain" : tactic => `(tactic|
  (refine ⟨?_, ?_⟩
   · simp only [List.map_cons, List.map_nil]
     decide +kernel
   · simp [PlainEntries]))

theorem plain_entry (e : FileEntry) : Plain (.dict e.report) := by
  unfold FileEntry.report
  have : Plain (PyVal.opt .dt e.modified) := by
    unfold FileEntry.modified
    split
    · trivial
    · split
      · show DateTime.microsecond _ = 0
        rfl
      · trivial
  refine ⟨by simp only [List.map_cons, List.map_nil]; decide +kernel, ?_⟩
  simp [PlainEntries, this]

theorem plain_item (it : Item) : Plain (.dict it.report) := by
  cases it with
  | file e => exact plain_entry e
  | usersFiles u sig e c f tr =>
    unfold Item.report
    refine ⟨by simp only [List.map_cons, List.map_nil]; decide +kernel, ?_⟩
    simp [PlainEntries, plain_entry e]
  | _ =>
    unfold Item.report
    plain

theorem plain_items (l : List Item) : Plain (.list (l.map fun it => .dict it.report)) := by
  rw [plain_list]
  intro v hv
  obtain ⟨it, -, rfl⟩ := List.mem_map.1 hv
  exact plain_item it

theorem plain_target (l : List Item) (p : Nat) : Plain (.dict (targetObject l p)) := by
  unfold targetObject
  refine ⟨by simp only [List.map_cons, List.map_nil]; decide +kernel, ?_⟩
  exact ⟨trivial, plain_items l, trivial, trivial⟩

theorem plain_value (v : TypedValue) : Plain v.value := by cases v <;> trivial

theorem plain_property (p : Property) : Plain (.dict p.report) := by
  cases p with
  | int id r v =>
    unfold Property.report TypedValue.report
    refine ⟨by simp only [List.map_append, List.map_cons, List.map_nil]; decide +kernel, ?_⟩
    simp [PlainEntries, plain_value]
  | str n r v =>
    unfold Property.report TypedValue.report
    refine ⟨by simp only [List.map_append, List.map_cons, List.map_nil]; decide +kernel, ?_⟩
    simp [PlainEntries, plain_value]

theorem plain_storage (s : Storage) : Plain (.dict s.report) := by
  unfold Storage.report
  refine ⟨by simp only [List.map_cons, List.map_nil]; decide +kernel, ?_⟩
  simp [PlainEntries, plain_property]

theorem plain_block (hash : Bytes → Str) (b : Block) (more : Bytes) : Plain (.dict (b.report hash more)) := by
  unfold Block.report Block.fields
  cases b with
  | metadata l =>
    refine ⟨by simp only [List.map_cons, List.map_nil]; decide +kernel, ?_⟩
    simp [PlainEntries, plain_storage]
  | shellItem l =>
    refine ⟨by simp only [List.map_cons, List.map_nil]; decide +kernel, ?_⟩
    exact ⟨trivial, plain_items l, trivial⟩
  | console c =>
    unfold ConsoleBlock.report
    plain
  | tracker t =>
    unfold TrackerBlock.report
    plain
  | _ => plain

theorem plain_terminal (hash : Bytes → Str) (b : Bytes) : Plain (.dict (Props.terminalReport hash b)) := by
  unfold Props.terminalReport
  plain

/-- Some of the keys, plain values. -/
def PlainSome (keys : List String) (d : Dict) : Prop := (d.map (·.1)).Sublist keys ∧ PlainEntries d

theorem PlainSome.append {k l : List String} {d e : Dict} (hd : PlainSome k d) (he : PlainSome l e) : PlainSome (k ++ l) (d ++ e) :=
  ⟨by rw [List.map_append]; exact hd.1.append he.1, (PlainEntries_append _ _).2 ⟨hd.2, he.2⟩⟩

theorem PlainSome.plain {k : List String} {d : Dict} (h : PlainSome k d) (hk : k.Sublist keyOrder) : Plain (.dict d) :=
  ⟨h.1.trans hk, h.2⟩

theorem plainSome_text (k : String) (t : Option Text) : PlainSome [k] (textEntry k t) := by
  unfold textEntry
  cases t
  · exact ⟨by simp, trivial⟩
  · exact ⟨by simp, by simp [PlainEntries]⟩

theorem plainSome_wide (k k' : String) (n : Nat) (t : Option Text) : PlainSome [k, k'] (wideEntry k k' n t) := by
  unfold wideEntry
  cases t
  · exact ⟨by simp, trivial⟩
  · exact ⟨by simp, by simp [PlainEntries]⟩

theorem plainSome_name (k : String) (t : Option Text) : PlainSome [k] (nameEntry k t) := by
  unfold nameEntry
  cases t with
  | none => exact ⟨by simp, trivial⟩
  | some t => by_cases h : t.text = [] <;> simp [PlainSome, PlainEntries, h]

theorem plain_volume (v : Volume) : Plain (.dict v.report) := by
  unfold Volume.report
  cases v.wideLabelOffset with
  | none =>
    refine ⟨by simp only [List.append_nil, List.map_cons, List.map_nil]; decide +kernel, ?_⟩
    simp [PlainEntries]
  | some o =>
    refine ⟨by simp only [List.map_append, List.map_cons, List.map_nil]; decide +kernel, ?_⟩
    simp [PlainEntries]

theorem plain_network (n : NetLink) : Plain (.dict n.report) := by
  unfold NetLink.report
  have h1 : PlainSome ["common_network_relative_link_size", "common_network_relative_link_flags", "net_name_offset",
      "device_name_offset", "r_network_provider_type"] [("common_network_relative_link_size", .int n.size.toNat),
      ("common_network_relative_link_flags", .int n.flags.toNat), ("net_name_offset", .int n.netNameOffset.toNat),
      ("device_name_offset", .int n.deviceNameOffset.toNat), ("r_network_provider_type", .str (hex0x n.provider.toNat))] :=
    ⟨List.Sublist.refl _, by simp [PlainEntries]⟩
  have h2 : PlainSome ["network_provider_type"] (n.providerName.toList.map fun s => ("network_provider_type", .str s.toList)) := by
    cases n.providerName with
    | none => exact ⟨by simp, trivial⟩
    | some s => exact ⟨by simp, by simp [PlainEntries]⟩
  cases n.wide with
  | none =>
    exact ((h1.append h2).append ((plainSome_name "net_name" _).append (plainSome_name "device_name" _))).plain (by decide +kernel)
  | some w =>
    exact ((h1.append h2).append ((plainSome_wide "net_name_offset_unicode" "net_name_unicode" _ _).append
      (plainSome_wide "device_name_offset_unicode" "device_name_unicode" _ _))).plain (by decide +kernel)

theorem plain_infoReport (h : InfoHeader) (t : InfoTexts) (loc : String) {info : Dict} (hi : Plain (.dict info)) :
    Plain (.dict (infoReport h t loc info)) := by
  unfold infoReport
  refine PlainSome.plain ((((((PlainSome.append (k := ["link_info_size", "link_info_header_size", "link_info_flags",
    "volume_id_offset", "local_base_path_offset", "common_network_relative_link_offset", "common_path_suffix_offset"]) ?_
    (plainSome_text _ _)).append (plainSome_text _ _)).append (plainSome_wide _ _ _ _)).append (plainSome_wide _ _ _ _)).append
    (l := ["location_info", "location"]) ?_)) (by decide +kernel)
  · exact ⟨List.Sublist.refl _, by simp [PlainEntries]⟩
  · exact ⟨List.Sublist.refl _, hi, trivial, trivial⟩

theorem plain_info (i : Info) : Plain (.dict i.report) := by
  unfold Info.report
  split
  · exact plain_infoReport _ _ _ (plain_volume _)
  · exact plain_infoReport _ _ _ (plain_network _)

theorem plain_strings (s : Strings) : Plain (.dict (stringsObject s)) := by
  obtain ⟨a, b, c, d, e⟩ := s
  cases a <;> cases b <;> cases c <;> cases d <;> cases e <;>
    exact ⟨by simp only [stringsObject, Strings.fields, List.filterMap_cons, List.filterMap_nil, Option.map_none, Option.map_some,
      List.map_cons, List.map_nil]; decide +kernel, by simp [stringsObject, Strings.fields, PlainEntries]⟩

end Verif
