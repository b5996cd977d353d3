import Verif.Props.Readable
import Verif.Spec.Told

/-
Trees that can be read back from their readable form: no `r_` keys, classes first and with a fixed name.
-/

namespace Verif

open Spec

/-- The keys without `r_`. -/
def bareKeys : List String := (schemas.flatten ++ headerKeys).filter (fun k => k ∉ ["r_drive_type", "r_network_provider_type",
  "r_link_flags", "r_file_flags", "r_hotkey"]) ++ sectionNames

/-- The classes of items. -/
def classNames : List String :=
  ["Control panel CPL file", "Control panel category", "Root Folder", "Volume Item", "File entry", "Network location",
    "Compressed folder", "Internet", "Control panel", "Printers", "Common places folder", "Users files folder", "Unknown"]

theorem class_named (c : TargetClass) : c.name ∈ classNames := by
  cases c <;> simp [TargetClass.name, classNames]

/-- Keys in a dictionary that can be read back. -/
def BareKeys (ks : List String) : Prop :=
  ks.Nodup ∧ (∀ k ∈ ks, k ∈ bareKeys) ∧ "class" ∉ ks.tail ∧ ("file_entry" ∈ ks → "class" ∈ ks)

instance (ks : List String) : Decidable (BareKeys ks) := inferInstanceAs (Decidable (_ ∧ _ ∧ _ ∧ _))

def ClassOk (k : String) (v : PyVal) : Prop := k = "class" → ∃ c ∈ classNames, v = .lit c

mutual
def Bare : PyVal → Prop
  | .list l => BareList l
  | .dict d => BareKeys (d.map Prod.fst) ∧ BareEntries d
  | _ => True
def BareList : List PyVal → Prop
  | [] => True
  | v :: l => Bare v ∧ BareList l
def BareEntries : List (String × PyVal) → Prop
  | [] => True
  | (k, v) :: d => Bare v ∧ ClassOk k v ∧ BareEntries d
end

theorem BareList_iff (l : List PyVal) : BareList l ↔ ∀ v ∈ l, Bare v := by
  induction l with
  | nil => simp [BareList]
  | cons v l ih => simp [BareList, ih]

theorem BareEntries_iff (d : Dict) : BareEntries d ↔ ∀ kv ∈ d, Bare kv.2 ∧ ClassOk kv.1 kv.2 := by
  induction d with
  | nil => simp [BareEntries]
  | cons kv d ih => obtain ⟨k, v⟩ := kv; simp [BareEntries, ih, and_assoc]

theorem BareEntries_append (d e : Dict) : BareEntries (d ++ e) ↔ BareEntries d ∧ BareEntries e := by
  simp only [BareEntries_iff, List.mem_append]
  constructor
  · exact fun h => ⟨fun kv hk => h kv (.inl hk), fun kv hk => h kv (.inr hk)⟩
  · rintro ⟨h1, h2⟩ kv (hk | hk)
    · exact h1 kv hk
    · exact h2 kv hk

@[simp] theorem bare_int (i : Int) : Bare (.int i) := trivial
@[simp] theorem bare_nat (i : Nat) : Bare (.nat i) := trivial
@[simp] theorem bare_str (s : Str) : Bare (.str s) := trivial
@[simp] theorem bare_lit (s : String) : Bare (.lit s) := trivial
@[simp] theorem bare_none : Bare .none := trivial
@[simp] theorem bare_dt (d : DateTime) : Bare (.dt d) := trivial
@[simp] theorem bare_opt_nat (o : Option Nat) : Bare (PyVal.opt .nat o) := by cases o <;> trivial
@[simp] theorem bare_opt_str (o : Option Str) : Bare (PyVal.opt .str o) := by cases o <;> trivial
@[simp] theorem bare_opt_lit (o : Option String) : Bare (PyVal.opt .lit o) := by cases o <;> trivial
@[simp] theorem bare_opt_dt (o : Option DateTime) : Bare (PyVal.opt .dt o) := by cases o <;> trivial
@[simp] theorem bare_dict (d : Dict) : Bare (.dict d) ↔ BareKeys (d.map Prod.fst) ∧ BareEntries d := Iff.rfl
@[simp] theorem bare_list (l : List PyVal) : Bare (.list l) ↔ ∀ v ∈ l, Bare v := BareList_iff l
@[simp] theorem bare_strList (l : List String) : Bare (LnkFile.strList l) := by
  show BareList _
  rw [BareList_iff]
  simp

@[simp] theorem classOk_name (k : String) (c : TargetClass) : ClassOk k (.lit c.name) := fun _ => ⟨_, class_named c, rfl⟩

theorem classOk_ne {k : String} {v : PyVal} (h : k ≠ "class") : ClassOk k v := fun e => absurd e h

/-- Solves `Bare (.dict [...])` for literal keys. -/
macro "bare" : tactic => `(tactic|
  (refine ⟨?_, ?_⟩
   · simp only [List.map_cons, List.map_nil]
     decide +kernel
   · simp [BareEntries, classOk_ne]))

namespace Target

theorem bare_fsAsItem (t : Target) : Py.Ret (fun d => Bare (.dict d)) t.fsAsItem := by
  unfold fsAsItem
  ret
  bare

theorem bare_asItem (t : Target) : Py.Ret (fun d => Bare (.dict d)) t.asItem := by
  unfold asItem
  split
  case h_5 => exact t.bare_fsAsItem
  case h_8 =>
    refine Py.ret_bind fun fe _ => Py.ret_bind fun item hi => Py.ret_bind fun _ _ => Py.ret_bind fun _ _ => Py.ret_pure ?_
    have := fe.bare_fsAsItem.out item hi
    refine ⟨?_, ?_⟩
    · simp only [List.map_cons, List.map_nil]
      decide +kernel
    · simp only [BareEntries, this]
      simp [classOk_ne]
  all_goals
    ret
    all_goals bare

end Target

namespace LnkTargets

theorem bare_itemOf (t : Target) : Py.Ret (fun o => ∀ v ∈ o, Bare v) (itemOf t) := by
  constructor
  intro o ho
  unfold itemOf Py.tryExcept at ho
  have hw : ∀ w : Warn, ((do Py.warn w; pure none : Py (Option PyVal))).res = .ok none := fun _ => rfl
  split at ho
  · split at ho
    · simp only [hw, Except.ok.injEq] at ho
      subst ho
      simp
    · rename_i h _
      rw [h] at ho
      simp at ho
  · rename_i h
    rw [h, Except.ok.injEq] at ho
    subst ho
    rw [Py.bind_ok_iff] at h
    obtain ⟨d, hd, h⟩ := h
    simp only [Py.pure_res, Except.ok.injEq] at h
    subst h
    intro v hv
    simp only [Option.mem_def, Option.some.injEq] at hv
    subst hv
    exact t.bare_asItem.out d hd

theorem bare_asListLoop (xs : List (Py Target)) : Py.Ret (fun l => ∀ v ∈ l, Bare v) (asListLoop xs) := by
  induction xs with
  | nil => exact Py.ret_pure (by simp)
  | cons x xs ih =>
    refine Py.ret_bind fun t _ => Py.ret_bind fun item hi => Py.ret_bind fun items hs => Py.ret_pure ?_
    intro v hv
    rcases List.mem_append.1 hv with hv | hv
    · exact (bare_itemOf t).out item hi v (by simpa using hv)
    · exact ih.out items hs v hv

end LnkTargets

namespace Metadata

theorem bare_typedValue (b : Bytes) : Py.Ret Bare (typedValue b) := by
  unfold typedValue
  ret
  all_goals simp

theorem bare_integerName (b : Bytes) : Py.Ret (fun d => Bare (.dict d)) (integerNameAsDict b) := by
  unfold integerNameAsDict
  refine Py.ret_bind fun _ _ => Py.ret_bind fun _ _ => Py.ret_bind fun v hv => Py.ret_bind fun _ _ =>
    Py.ret_bind fun _ _ => Py.ret_pure ?_
  have := (bare_typedValue _).out v hv
  refine ⟨?_, by simp [BareEntries, classOk_ne, this]⟩
  simp only [List.map_cons, List.map_nil]
  decide +kernel

theorem bare_stringName (b : Bytes) : Py.Ret (fun d => Bare (.dict d)) (stringNameAsDict b) := by
  unfold stringNameAsDict
  refine Py.ret_bind fun _ _ => Py.ret_bind fun _ _ => Py.ret_bind fun _ _ => Py.ret_bind fun v hv => Py.ret_bind fun _ _ =>
    Py.ret_bind fun _ _ => Py.ret_pure ?_
  have := (bare_typedValue _).out v hv
  refine ⟨?_, by simp [BareEntries, classOk_ne, this]⟩
  simp only [List.map_cons, List.map_nil]
  decide +kernel

theorem bare_collect {f : Bytes → Py Dict} (hf : ∀ b, Py.Ret (fun d => Bare (.dict d)) (f b)) (l : List Bytes) :
    Py.Ret (fun l => ∀ v ∈ l, Bare v) (collect f l) := by
  induction l with
  | nil => exact Py.ret_pure (by simp)
  | cons x xs ih =>
    refine Py.ret_bind fun d hd => Py.ret_bind fun ds hds => Py.ret_pure ?_
    intro v hv
    rcases List.mem_cons.1 hv with rfl | hv
    · exact (hf x).out d hd
    · exact ih.out ds hds v hv

theorem bare_storage (b : Bytes) : Py.Ret (fun d => Bare (.dict d)) (storageAsDict b) := by
  unfold storageAsDict
  refine Py.ret_bind fun _ _ => Py.ret_bind fun _ _ => Py.ret_bind fun _ _ => Py.ret_bind fun f _ => Py.ret_bind fun _ _ =>
    Py.ret_bind fun items hi => Py.ret_pure ?_
  have : ∀ v ∈ items, Bare v := by
    refine (bare_collect (fun b => ?_) _).out items hi
    split
    · exact bare_stringName b
    · exact bare_integerName b
  refine ⟨?_, ?_⟩
  · simp only [List.map_cons, List.map_nil]
    decide +kernel
  · simpa [BareEntries, classOk_ne] using this

end Metadata

namespace Extra

theorem bare_asDict (x : Extra) : Py.Ret (fun d => Bare (.dict d)) x.asDict := by
  unfold asDict
  refine Py.ret_bind fun n _ => ?_
  unfold fields
  split
  case h_9 =>
    unfold metadataFields
    refine Py.ret_bind fun d hd => Py.ret_pure ?_
    rw [Py.bind_ok_iff] at hd
    obtain ⟨l, hl, hd⟩ := hd
    simp only [Py.pure_res, Except.ok.injEq] at hd
    subst hd
    rw [Metadata.propertyStore, Py.bind_ok_iff] at hl
    obtain ⟨st, -, hl⟩ := hl
    have := (Metadata.bare_collect Metadata.bare_storage _).out l hl
    refine ⟨?_, ?_⟩
    · simp only [List.map_cons, List.map_nil]
      decide +kernel
    · simpa [BareEntries, classOk_ne] using this
  case h_11 =>
    unfold shellItemFields
    refine Py.ret_bind fun d hd => Py.ret_pure ?_
    rw [Py.bind_ok_iff] at hd
    obtain ⟨l, hl, hd⟩ := hd
    simp only [Py.pure_res, Except.ok.injEq] at hd
    subst hd
    have := (LnkTargets.bare_asListLoop _).out l hl
    refine ⟨?_, ?_⟩
    · simp only [List.map_cons, List.map_nil]
      decide +kernel
    · simpa [BareEntries, classOk_ne] using this
  all_goals
    simp only [targetFields, consoleFields, trackerFields, codePageFields, specialFolderFields, darwinFields,
      shimLayerFields, knownFolderFields, unknownFields, terminalFields, bind_assoc, pure_bind]
    ret
    all_goals bare

end Extra

namespace ExtraData

theorem bare_section (k : String) (h : k ∈ sectionNames) : k ∈ bareKeys ∧ k ≠ "class" ∧ k ≠ "file_entry" := by
  revert k
  decide +kernel

theorem bare_set {d : Dict} (hd : ∀ kv ∈ d, Bare kv.2) {k : String} {v : PyVal} (hv : Bare v) : ∀ kv ∈ d.set k v, Bare kv.2 := by
  intro kv hkv
  rcases mem_set hkv with rfl | hkv
  · exact hv
  · exact hd kv hkv

theorem bare_asDictLoop (xs : List Extra) (res : Dict) (hres : ∀ kv ∈ res, Bare kv.2) :
    Py.Ret (fun d => ∀ kv ∈ d, Bare kv.2) (asDictLoop xs res) := by
  induction xs generalizing res with
  | nil => exact Py.ret_pure hres
  | cons x xs ih =>
    unfold asDictLoop
    have h0 : ∀ kv ∈ (if x.cls = .unknown ∧ ¬ res.has x.cls.name then res.set x.cls.name (.list []) else res), Bare kv.2 := by
      split
      · exact bare_set hres (by simp)
      · exact hres
    generalize (if x.cls = .unknown ∧ ¬ res.has x.cls.name then res.set x.cls.name (.list []) else res) = res' at h0
    refine Py.ret_bind fun r hr => ?_
    rcases r with e | d
    · exact Py.ret_bind fun _ _ => ih _ h0
    · have hd : Bare (.dict d) := by
        refine x.bare_asDict.out d ?_
        unfold Py.attempt at hr
        rcases hx : x.asDict.res with e | d'
        · rw [hx] at hr
          simp only at hr
          split at hr <;> simp at hr
        · rw [hx] at hr
          simp only [Except.ok.injEq] at hr
          rw [hr]
      dsimp only
      split
      · refine ih _ (bare_set h0 ?_)
        rw [bare_list]
        intro v hv
        rcases List.mem_append.1 hv with hv | hv
        · unfold listAt at hv
          split at hv
          · rename_i l hl
            have := h0 _ (Dict.mem_of_get? hl)
            rw [bare_list] at this
            exact this v hv
          · simp at hv
        · simp only [List.mem_singleton] at hv
          exact hv ▸ hd
      · exact ih _ (bare_set h0 hd)

theorem bare_asDict (e : ExtraData) : Py.Ret (fun d => Bare (.dict d)) e.asDict := by
  constructor
  intro d hd
  have hg := e.good_asDict.out d hd
  have hb := (bare_asDictLoop _ _ (by simp)).out d hd
  refine ⟨⟨hg.nodup, fun k hk => (bare_section k (hg.names k hk)).1, ?_, ?_⟩, ?_⟩
  · exact fun h => (bare_section _ (hg.names _ (List.mem_of_mem_tail h))).2.1 rfl
  · exact fun h => absurd rfl (bare_section _ (hg.names _ h)).2.2
  · rw [BareEntries_iff]
    exact fun kv hkv => ⟨hb kv hkv, classOk_ne (bare_section _ (hg.names _ (List.mem_map_of_mem hkv))).2.1⟩

end ExtraData

namespace LnkFile

theorem bare_data (f : LnkFile) (h : (f.stringData.data.map Prod.fst).Sublist
    ["description", "relative_path", "working_directory", "command_line_arguments", "icon_location"]) :
    Bare (.dict f.stringData.asDict) := by
  have hk : (f.stringData.asDict.map Prod.fst).Sublist
      ["description", "relative_path", "working_directory", "command_line_arguments", "icon_location"] := by
    rw [StringData.asDict, List.map_map]
    exact h
  have hall : ∀ k ∈ ["description", "relative_path", "working_directory", "command_line_arguments", "icon_location"],
      k ∈ bareKeys ∧ k ≠ "class" ∧ k ≠ "file_entry" := by decide +kernel
  refine ⟨⟨hk.nodup (by decide), fun k hk' => (hall k (hk.subset hk')).1, ?_, ?_⟩, ?_⟩
  · exact fun h => (hall _ (hk.subset (List.mem_of_mem_tail h))).2.1 rfl
  · exact fun h => absurd rfl (hall _ (hk.subset h)).2.2
  · rw [BareEntries_iff]
    intro kv hkv
    refine ⟨?_, classOk_ne (hall _ (hk.subset (List.mem_map_of_mem hkv))).2.1⟩
    simp only [StringData.asDict, List.mem_map] at hkv
    obtain ⟨x, -, rfl⟩ := hkv
    trivial

/-- Removing keys other than the class. -/
theorem bare_sublist {d e : Dict} (h : Bare (.dict d)) (hs : List.Sublist e d) (hc : ∀ kv ∈ d, kv.1 = "class" → kv ∈ e) :
    Bare (.dict e) := by
  obtain ⟨⟨h1, h2, h3, h4⟩, h5⟩ := h
  have hk := hs.map Prod.fst
  refine ⟨⟨hk.nodup h1, fun k hk' => h2 k (hk.subset hk'), fun h => h3 (hk.tail.subset h), fun h => ?_⟩, ?_⟩
  · obtain ⟨kv, hkv, e⟩ := List.mem_map.1 (h4 (hk.subset h))
    exact List.mem_map.2 ⟨kv, hc kv hkv e, e⟩
  · rw [BareEntries_iff] at *
    exact fun kv hkv => h5 kv (hs.subset hkv)

theorem mem_erase {d : Dict} {k : String} {kv : String × PyVal} (h : kv ∈ d) (hk : kv.1 ≠ k) : kv ∈ d.erase k := by
  induction d with
  | nil => cases h
  | cons x d ih =>
    obtain ⟨k', v'⟩ := x
    simp only [Dict.erase]
    split
    · rcases List.mem_cons.1 h with rfl | h
      · exact absurd ‹k' = k› hk
      · exact h
    · rcases List.mem_cons.1 h with rfl | h
      · exact List.mem_cons_self
      · exact List.mem_cons_of_mem _ (ih h)

theorem bare_pruneItem {v : PyVal} (h : Bare v) : Bare (pruneItem v) := by
  unfold pruneItem
  split
  · exact bare_sublist h (erase_sublist _ _) fun kv hkv e => mem_erase hkv (by rw [e]; decide)
  · exact h

theorem bare_target (f : LnkFile) (all : Bool) :
    Py.Ret (fun o => ∀ d ∈ o, Bare (.dict (if all then d else pruneTarget d))) f.jsonTarget := by
  unfold jsonTarget
  rcases f.targets with _ | t
  · exact Py.ret_pure (by simp)
  · refine Py.ret_bind fun n _ => Py.ret_bind fun l hl => Py.ret_pure ?_
    have := (LnkTargets.bare_asListLoop _).out l hl
    intro d hd
    simp only [Option.mem_def, Option.some.injEq] at hd
    subst hd
    cases all
    · have hp : pruneTarget [("size", .nat n), ("items", .list l), ("index", .nat f.targetIndex)] =
          [("items", .list (l.map pruneItem))] := by rfl
      rw [if_neg (by simp), hp]
      refine ⟨?_, ?_⟩
      · show BareKeys ["items"]
        decide +kernel
      simp only [BareEntries, bare_list, List.mem_map]
      refine ⟨?_, classOk_ne (by decide), trivial⟩
      rintro _ ⟨v, hv, rfl⟩
      exact bare_pruneItem (this v hv)
    · refine ⟨?_, ?_⟩
      · show BareKeys ["size", "items", "index"]
        decide +kernel
      · simpa [BareEntries, classOk_ne] using this

/-! ### reading back -/

/-- An entry shown. -/
def shownEntry (kv : String × PyVal) : String × PyVal := (label kv.1, niceVal kv.2)

theorem mem_bareKeys {k : String} (h : k ∈ bareKeys) : (∃ s ∈ schemas, k ∈ s) ∨ k ∈ headerKeys ∨ k ∈ sectionNames := by
  unfold bareKeys at h
  rcases List.mem_append.1 h with h | h
  · rcases List.mem_append.1 (List.mem_filter.1 h).1 with h | h
    · exact .inl (List.mem_flatten.1 h)
    · exact .inr (.inl h)
  · exact .inr (.inr h)

theorem label_bare (k : String) (h : k ∈ bareKeys) : k ≠ "" ∧ niceId k false = label k := by
  rcases mem_bareKeys h with ⟨s, hs, h⟩ | h | h
  · exact label_schemas s hs k h
  · exact ⟨(header_labels k h).1, (header_labels k h).2.2.1⟩
  · exact label_sections k h

/-- The key of a label. -/
def unlabel (s : List Char) : List Char :=
  let s := s.map fun c => if c = ' ' then '_' else c
  match s with
  | [] => []
  | c :: s => if s.any Char.isLower then c.toLower :: s else c :: s

theorem unlabel_label : ∀ k ∈ bareKeys, unlabel (label k).toList = k.toList := by decide +kernel

theorem label_bare_inj (k : String) (h : k ∈ bareKeys) (k' : String) (h' : k' ∈ bareKeys) (e : label k = label k') : k = k' := by
  rw [← String.toList_inj, ← unlabel_label k h, ← unlabel_label k' h', e]

theorem unlabel_class : ∀ c ∈ classNames, String.ofList (unlabel c.toList) = "file_entry" ∨
    String.ofList (unlabel c.toList) ∉ bareKeys := by decide +kernel

theorem label_bare_class (k : String) (h : k ∈ bareKeys) (hk : k ≠ "file_entry") : label k ∉ classNames := by
  intro hc
  have := unlabel_class _ hc
  rw [unlabel_label k h, String.ofList_toList] at this
  exact this.elim hk fun h' => h' h

theorem relabel_map (g : String → String) (d res : Dict) (h : (d.map fun kv => g kv.1).Nodup)
    (hr : ∀ kv ∈ d, g kv.1 ∉ res.keys) : relabel g d res = res ++ d.map fun kv => (g kv.1, kv.2) := by
  have e : relabel g d res = Dict.update res (d.map fun kv => (g kv.1, kv.2)) := by
    unfold relabel Dict.update
    rw [List.foldl_map]
  have hk : Dict.keys (d.map fun kv => (g kv.1, kv.2)) = d.map fun kv => g kv.1 := by
    unfold Dict.keys
    rw [List.map_map]
    rfl
  rw [e, Dict.update_append]
  · intro k hk'
    rw [hk] at hk'
    obtain ⟨kv, hkv, rfl⟩ := List.mem_map.1 hk'
    exact hr kv hkv
  · rw [hk]
    exact h

/-- Keys with distinct labels: entries shown one by one. -/
theorem niceDictGo_map (d : Dict) (skip : String) (hl : ∀ k ∈ d.keys, niceId k false = label k)
    (hn : ((d.filter fun kv => kv.1 ≠ skip).map fun kv => label kv.1).Nodup) :
    niceDictGo (niceEntries d) skip [] = (d.filter fun kv => kv.1 ≠ skip).map shownEntry := by
  rw [niceDictGo_eq, filter_niceEntries, relabel_congr _ label, relabel_map]
  · rw [List.map_map, List.nil_append]
    rfl
  · rw [List.map_map]
    exact hn
  · simp [Dict.keys]
  · intro k hk'
    refine hl k ((keys_filter_sublist d skip).subset ?_)
    unfold Dict.keys at hk' ⊢
    rwa [List.map_map] at hk'

theorem bare_labels {d : Dict} (hn : (d.map Prod.fst).Nodup) (hb : ∀ k ∈ d.map Prod.fst, k ∈ bareKeys) :
    (d.map fun kv => label kv.1).Nodup := by
  have : (d.map fun kv => label kv.1) = (d.map Prod.fst).map label := by rw [List.map_map]; rfl
  rw [this]
  exact List.Nodup.map_on (fun a ha b hb' => label_bare_inj a (hb a ha) b (hb b hb')) hn

/-- A dictionary without class, or with a class first. -/
theorem niceVal_bare {d : Dict} (h : Bare (.dict d)) :
    ("class" ∉ d.map Prod.fst ∧ niceVal (.dict d) = .dict (d.map shownEntry)) ∨
      ∃ c ∈ classNames, ∃ e, d = ("class", .lit c) :: e ∧ niceVal (.dict d) = .dict [(c, .dict (e.map shownEntry))] := by
  obtain ⟨⟨h1, h2, h3, h4⟩, h5⟩ := h
  have hl : ∀ k ∈ Dict.keys d, niceId k false = label k := fun k hk => (label_bare k (h2 k hk)).2
  rw [BareEntries_iff] at h5
  by_cases hc : "class" ∈ d.map Prod.fst
  · right
    rcases d with _ | ⟨⟨k, v⟩, e⟩
    · simp at hc
    · simp only [List.map_cons, List.tail_cons] at h3 hc
      obtain rfl : "class" = k := (List.mem_cons.1 hc).resolve_right h3
      obtain ⟨c, hc', hv⟩ := (h5 ("class", v) (by simp)).2 rfl
      simp only at hv
      subst hv
      refine ⟨c, hc', e, rfl, ?_⟩
      have hf : (("class", PyVal.lit c) :: e).filter (fun kv => kv.1 ≠ "class") = e := by
        rw [List.filter_cons_of_neg (by simp), List.filter_eq_self]
        intro kv hkv
        have : kv.1 ≠ "class" := fun he => h3 (he ▸ List.mem_map_of_mem hkv)
        simpa using this
      have hg : Dict.get? (("class", PyVal.lit c) :: e) "class" = some (.str c.toList) := rfl
      rw [niceVal, hg]
      simp only
      rw [niceDictGo_map _ _ hl, hf, String.ofList_toList]
      rw [hf]
      exact bare_labels (List.nodup_cons.1 h1).2 fun k hk => h2 k (List.mem_cons_of_mem _ hk)
  · left
    refine ⟨hc, ?_⟩
    have hg : Dict.get? d "class" = none := (Dict.get?_none_iff d _).2 hc
    have hf : d.filter (fun kv => kv.1 ≠ "") = d := by
      rw [List.filter_eq_self]
      intro kv hkv
      have := (label_bare kv.1 (h2 _ (List.mem_map_of_mem hkv))).1
      simpa using this
    rw [niceVal, hg]
    simp only
    rw [niceDictGo_map _ _ hl, hf]
    rw [hf]
    exact bare_labels h1 h2

/-- A dictionary without class is not taken for one with a class. -/
theorem one_class {d : Dict} (h : Bare (.dict d)) (hc : "class" ∉ d.map Prod.fst) {c : String} (hn : c ∈ classNames) {v : PyVal} :
    d.map shownEntry ≠ [(c, v)] := by
  intro he
  obtain ⟨⟨k, w⟩, rfl, e⟩ := List.map_eq_singleton_iff.1 he
  have e : label k = c := congrArg Prod.fst e
  refine label_bare_class k (h.1.2.1 k (by simp)) ?_ (e ▸ hn)
  rintro rfl
  exact hc (h.1.2.2.2 (by simp))

mutual
/-- The readable form of a value tells the value. -/
theorem niceVal_inj (v v' : PyVal) (h : Bare v) (h' : Bare v') (e : niceVal v = niceVal v') : v = v' := by
  match v, v' with
  | .none, .none | .int _, .int _ | .str _, .str _ | .dt _, .dt _ => simp_all [niceVal]
  | .list l, .list l' =>
    simp only [niceVal, PyVal.list.injEq] at e
    rw [niceList_inj l l' h h' e]
  | .dict d, .dict d' =>
    have hb : ∀ k ∈ d.map Prod.fst, k ∈ bareKeys := h.1.2.1
    have hb' : ∀ k ∈ d'.map Prod.fst, k ∈ bareKeys := h'.1.2.1
    rcases niceVal_bare h with ⟨hc, e1⟩ | ⟨c, hn, r, hr, e1⟩ <;> rcases niceVal_bare h' with ⟨hc', e2⟩ | ⟨c', hn', r', hr', e2⟩
    · rw [e1, e2, PyVal.dict.injEq] at e
      rw [shownEntries_inj d d' h.2 h'.2 hb hb' e]
    · rw [e1, e2, PyVal.dict.injEq] at e
      exact absurd e (one_class h hc hn')
    · rw [e1, e2, PyVal.dict.injEq] at e
      exact absurd e.symm (one_class h' hc' hn)
    · rw [e1, e2] at e
      simp only [PyVal.dict.injEq, List.cons.injEq, Prod.mk.injEq, and_true] at e
      subst hr
      subst hr'
      rw [e.1, shownEntries_inj r r' h.2.2.2 h'.2.2.2 (fun k hk => hb k (List.mem_cons_of_mem _ hk))
        (fun k hk => hb' k (List.mem_cons_of_mem _ hk)) e.2]
  | .none, .int _ | .none, .str _ | .none, .dt _ | .none, .list _ | .int _, .none | .int _, .str _ | .int _, .dt _
  | .int _, .list _ | .str _, .none | .str _, .int _ | .str _, .dt _ | .str _, .list _ | .dt _, .none | .dt _, .int _
  | .dt _, .str _ | .dt _, .list _ | .list _, .none | .list _, .int _ | .list _, .str _ | .list _, .dt _ =>
    simp only [niceVal, reduceCtorEq] at e
  | .dict d, .none | .dict d, .int _ | .dict d, .str _ | .dict d, .dt _ | .dict d, .list _ =>
    rcases niceVal_bare h with ⟨-, e1⟩ | ⟨_, _, _, _, e1⟩ <;> rw [e1] at e <;> simp only [niceVal, reduceCtorEq] at e
  | .none, .dict d | .int _, .dict d | .str _, .dict d | .dt _, .dict d | .list _, .dict d =>
    rcases niceVal_bare h' with ⟨-, e1⟩ | ⟨_, _, _, _, e1⟩ <;> rw [e1] at e <;> simp only [niceVal, reduceCtorEq] at e
theorem niceList_inj (l l' : List PyVal) (h : BareList l) (h' : BareList l') (e : niceList l = niceList l') : l = l' := by
  match l, l' with
  | [], [] => rfl
  | v :: l, v' :: l' =>
    simp only [niceList, List.cons.injEq] at e
    rw [niceVal_inj v v' h.1 h'.1 e.1, niceList_inj l l' h.2 h'.2 e.2]
  | [], _ :: _ | _ :: _, [] => simp [niceList] at e
theorem shownEntries_inj (d d' : Dict) (h : BareEntries d) (h' : BareEntries d') (hb : ∀ k ∈ d.map Prod.fst, k ∈ bareKeys)
    (hb' : ∀ k ∈ d'.map Prod.fst, k ∈ bareKeys) (e : d.map shownEntry = d'.map shownEntry) : d = d' := by
  match d, d' with
  | [], [] => rfl
  | (k, v) :: d, (k', v') :: d' =>
    simp only [List.map_cons, List.cons.injEq, shownEntry, Prod.mk.injEq] at e
    simp only [List.map_cons, List.forall_mem_cons] at hb hb'
    rw [niceVal_inj v v' h.1 h'.1 e.1.2, label_bare_inj k hb.1 k' hb'.1 e.1.1, shownEntries_inj d d' h.2.2 h'.2.2 hb.2 hb'.2 e.2]
  | [], _ :: _ | _ :: _, [] => simp at e
end

end LnkFile

end Verif
