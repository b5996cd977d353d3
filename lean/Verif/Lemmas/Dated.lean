import Verif.Lemmas.Printed
import Verif.Props.Time

namespace Verif

open Spec

/-! ### dates are at their keys -/

@[simp] theorem dated_int (i : Int) : Dated (.int i) := trivial
@[simp] theorem dated_nat (i : Nat) : Dated (.nat i) := trivial
@[simp] theorem dated_str (s : Str) : Dated (.str s) := trivial
@[simp] theorem dated_lit (s : String) : Dated (.lit s) := trivial
@[simp] theorem dated_none : Dated .none := trivial
@[simp] theorem dated_opt_nat (o : Option Nat) : Dated (PyVal.opt .nat o) := by cases o <;> trivial
@[simp] theorem dated_opt_str (o : Option Str) : Dated (PyVal.opt .str o) := by cases o <;> trivial
@[simp] theorem dated_opt_lit (o : Option String) : Dated (PyVal.opt .lit o) := by cases o <;> trivial
@[simp] theorem dated_strList (l : List String) : Dated (LnkFile.strList l) := by
  show DatedList _
  rw [DatedList_iff]
  simp
@[simp] theorem dated_list (l : List PyVal) : Dated (.list l) ↔ ∀ v ∈ l, Dated v := DatedList_iff l
@[simp] theorem dated_dict (d : Dict) : Dated (.dict d) ↔ DatedEntries d := Iff.rfl

theorem DatedEntries_append (d e : Dict) : DatedEntries (d ++ e) ↔ DatedEntries d ∧ DatedEntries e := by
  simp only [DatedEntries_iff, List.mem_append]
  constructor
  · exact fun h => ⟨fun kv hk => h kv (.inl hk), fun kv hk => h kv (.inr hk)⟩
  · rintro ⟨h1, h2⟩ kv (hk | hk)
    · exact h1 kv hk
    · exact h2 kv hk

macro "dated" : tactic => `(tactic| simp [DatedEntries, timeKeys])

theorem parseFiletime_date (b : Bytes) (k : String) (hk : k ≠ "modification_time") :
    Py.Ret (fun o => DateOrNone k (PyVal.opt .dt o)) (parseFiletime b) := by
  constructor
  intro o ho
  cases o with
  | none => exact .inl rfl
  | some d =>
    by_cases hl : b.length = 8
    · rcases Props.filetime_total b hl with ⟨-, h⟩ | ⟨-, d', hv, h⟩ | ⟨-, h⟩
      · rw [h] at ho
        simp at ho
      · rw [h] at ho
        simp only [Py.pure_res, Except.ok.injEq, Option.some.injEq] at ho
        subst ho
        exact .inr ⟨d', rfl, hv, fun e => absurd e hk⟩
      · rw [h] at ho
        simp at ho
    · rw [Props.filetime_wrong_length b hl] at ho
      simp [Py.raise] at ho

theorem parseDostime_date (b : Bytes) (k : String) :
    Py.Ret (fun o => DateOrNone k (PyVal.opt .dt o)) (parseDostime b) := by
  constructor
  intro o ho
  cases o with
  | none => exact .inl rfl
  | some d =>
    by_cases hl : b.length = 4
    · obtain ⟨date, time, -, -, h⟩ := Props.dostime_total b hl
      rw [h] at ho
      split at ho
      · simp at ho
      · dsimp only at ho
        split at ho
        · rename_i hv
          simp only [Py.pure_res, Except.ok.injEq, Option.some.injEq] at ho
          subst ho
          exact .inr ⟨_, rfl, hv, fun _ => rfl⟩
        · simp at ho
    · rw [Props.dostime_wrong_length b hl] at ho
      simp [Py.raise] at ho

namespace Target

theorem dated_fsAsItem (t : Target) : Py.Ret DatedEntries t.fsAsItem := by
  unfold fsAsItem
  refine Py.ret_bind fun _ _ => Py.ret_bind fun _ _ => Py.ret_bind fun m hm => Py.ret_bind fun _ _ => Py.ret_bind fun _ _ =>
    Py.ret_pure ?_
  have := (parseDostime_date _ "modification_time").out m hm
  simp [DatedEntries, timeKeys, this]

theorem dated_asItem (t : Target) : Py.Ret DatedEntries t.asItem := by
  unfold asItem
  split
  case h_5 => exact t.dated_fsAsItem
  case h_8 =>
    refine Py.ret_bind fun fe _ => Py.ret_bind fun item hi => Py.ret_bind fun _ _ => Py.ret_bind fun _ _ => Py.ret_pure ?_
    have := fe.dated_fsAsItem.out item hi
    simp [DatedEntries, timeKeys, this]
  all_goals
    ret
    all_goals dated

end Target

namespace LnkTargets

theorem dated_itemOf (t : Target) : Py.Ret (fun o => ∀ v ∈ o, Dated v) (itemOf t) := by
  constructor
  intro o ho
  unfold itemOf Py.tryExcept at ho
  have hw : ∀ w : Warn, ((do Py.warn w; pure none : Py (Option PyVal))).res = .ok none := fun _ => rfl
  split at ho
  · split at ho
    · simp only [hw, Except.ok.injEq] at ho
      subst ho
      simp
    · rename_i h _
      rw [h] at ho
      simp at ho
  · rename_i h
    rw [h, Except.ok.injEq] at ho
    subst ho
    rw [Py.bind_ok_iff] at h
    obtain ⟨d, hd, h⟩ := h
    simp only [Py.pure_res, Except.ok.injEq] at h
    subst h
    intro v hv
    simp only [Option.mem_def, Option.some.injEq] at hv
    subst hv
    exact t.dated_asItem.out d hd

theorem dated_asListLoop (xs : List (Py Target)) : Py.Ret (fun l => ∀ v ∈ l, Dated v) (asListLoop xs) := by
  induction xs with
  | nil => exact Py.ret_pure (by simp)
  | cons x xs ih =>
    refine Py.ret_bind fun t _ => Py.ret_bind fun item hi => Py.ret_bind fun items hs => Py.ret_pure ?_
    intro v hv
    rcases List.mem_append.1 hv with hv | hv
    · exact (dated_itemOf t).out item hi v (by simpa using hv)
    · exact ih.out items hs v hv

end LnkTargets

namespace Metadata

theorem dated_typedValue (b : Bytes) : Py.Ret Dated (typedValue b) := by
  unfold typedValue
  ret
  all_goals simp

theorem dated_integerName (b : Bytes) : Py.Ret DatedEntries (integerNameAsDict b) := by
  unfold integerNameAsDict
  refine Py.ret_bind fun _ _ => Py.ret_bind fun _ _ => Py.ret_bind fun v hv => Py.ret_bind fun _ _ =>
    Py.ret_bind fun _ _ => Py.ret_pure ?_
  have := (dated_typedValue _).out v hv
  simp [DatedEntries, timeKeys, this]

theorem dated_stringName (b : Bytes) : Py.Ret DatedEntries (stringNameAsDict b) := by
  unfold stringNameAsDict
  refine Py.ret_bind fun _ _ => Py.ret_bind fun _ _ => Py.ret_bind fun _ _ => Py.ret_bind fun v hv => Py.ret_bind fun _ _ =>
    Py.ret_bind fun _ _ => Py.ret_pure ?_
  have := (dated_typedValue _).out v hv
  simp [DatedEntries, timeKeys, this]

theorem dated_collect {f : Bytes → Py Dict} (hf : ∀ b, Py.Ret DatedEntries (f b)) (l : List Bytes) :
    Py.Ret (fun l => ∀ v ∈ l, Dated v) (collect f l) := by
  induction l with
  | nil => exact Py.ret_pure (by simp)
  | cons x xs ih =>
    refine Py.ret_bind fun d hd => Py.ret_bind fun ds hds => Py.ret_pure ?_
    intro v hv
    rcases List.mem_cons.1 hv with rfl | hv
    · exact (hf x).out d hd
    · exact ih.out ds hds v hv

theorem dated_storage (b : Bytes) : Py.Ret DatedEntries (storageAsDict b) := by
  unfold storageAsDict
  refine Py.ret_bind fun _ _ => Py.ret_bind fun _ _ => Py.ret_bind fun _ _ => Py.ret_bind fun f _ => Py.ret_bind fun _ _ =>
    Py.ret_bind fun items hi => Py.ret_pure ?_
  have : ∀ v ∈ items, Dated v := by
    refine (dated_collect (fun b => ?_) _).out items hi
    split
    · exact dated_stringName b
    · exact dated_integerName b
  simpa [DatedEntries, timeKeys] using this

end Metadata

namespace Extra

theorem dated_asDict (x : Extra) : Py.Ret DatedEntries x.asDict := by
  unfold asDict
  refine Py.ret_bind fun n _ => ?_
  unfold fields
  split
  case h_9 =>
    unfold metadataFields
    refine Py.ret_bind fun d hd => Py.ret_pure ?_
    rw [Py.bind_ok_iff] at hd
    obtain ⟨l, hl, hd⟩ := hd
    simp only [Py.pure_res, Except.ok.injEq] at hd
    subst hd
    rw [Metadata.propertyStore, Py.bind_ok_iff] at hl
    obtain ⟨st, -, hl⟩ := hl
    have := (Metadata.dated_collect Metadata.dated_storage _).out l hl
    simpa [DatedEntries, timeKeys] using this
  case h_11 =>
    unfold shellItemFields
    refine Py.ret_bind fun d hd => Py.ret_pure ?_
    rw [Py.bind_ok_iff] at hd
    obtain ⟨l, hl, hd⟩ := hd
    simp only [Py.pure_res, Except.ok.injEq] at hd
    subst hd
    have := (LnkTargets.dated_asListLoop _).out l hl
    simpa [DatedEntries, timeKeys] using this
  all_goals
    simp only [targetFields, consoleFields, trackerFields, codePageFields, specialFolderFields, darwinFields,
      shimLayerFields, knownFolderFields, unknownFields, terminalFields, bind_assoc, pure_bind]
    ret
    all_goals dated

end Extra

namespace ExtraData

theorem name_no_time (c : ExtraClass) : c.name ∉ timeKeys := by
  cases c <;> simp [ExtraClass.name, timeKeys]

theorem dated_set {d : Dict} (hd : DatedEntries d) (c : ExtraClass) {v : PyVal} (hv : Dated v) : DatedEntries (d.set c.name v) := by
  rw [DatedEntries_iff] at *
  intro kv hkv
  rcases mem_set hkv with rfl | hkv
  · unfold Ok
    rw [if_neg (name_no_time c)]
    exact hv
  · exact hd kv hkv

theorem dated_asDictLoop (xs : List Extra) (res : Dict) (hres : DatedEntries res) : Py.Ret DatedEntries (asDictLoop xs res) := by
  induction xs generalizing res with
  | nil => exact Py.ret_pure hres
  | cons x xs ih =>
    unfold asDictLoop
    have h0 : DatedEntries (if x.cls = .unknown ∧ ¬ res.has x.cls.name then res.set x.cls.name (.list []) else res) := by
      split
      · exact dated_set hres _ (by simp)
      · exact hres
    generalize (if x.cls = .unknown ∧ ¬ res.has x.cls.name then res.set x.cls.name (.list []) else res) = res' at h0
    refine Py.ret_bind fun r hr => ?_
    rcases r with e | d
    · exact Py.ret_bind fun _ _ => ih _ h0
    · have hd : Dated (.dict d) := by
        refine x.dated_asDict.out d ?_
        unfold Py.attempt at hr
        rcases hx : x.asDict.res with e | d'
        · rw [hx] at hr
          simp only at hr
          split at hr <;> simp at hr
        · rw [hx] at hr
          simp only [Except.ok.injEq] at hr
          rw [hr]
      dsimp only
      split
      · refine ih _ (dated_set h0 _ ?_)
        rw [dated_list]
        intro v hv
        rcases List.mem_append.1 hv with hv | hv
        · unfold listAt at hv
          split at hv
          · rename_i l hl
            have := (DatedEntries_iff _).1 h0 _ (Dict.mem_of_get? hl)
            unfold Ok at this
            rw [if_neg (name_no_time _), dated_list] at this
            exact this v hv
          · simp at hv
        · simp only [List.mem_singleton] at hv
          exact hv ▸ hd
      · exact ih _ (dated_set h0 _ hd)

theorem dated_asDict (e : ExtraData) : Py.Ret DatedEntries e.asDict := dated_asDictLoop _ _ trivial

end ExtraData

namespace LnkFile

theorem dated_entryIf {b : Bool} {x : Py Dict} (hx : Py.Ret DatedEntries x) : Py.Ret DatedEntries (entryIf b x) := by
  constructor
  intro d hd
  rcases entryIf_ok hd with rfl | hd
  · trivial
  · exact hx.out d hd

theorem dated_header (f : LnkFile) : Py.Ret DatedEntries f.jsonHeader := by
  unfold jsonHeader
  refine Py.ret_bind fun _ _ => Py.ret_bind fun _ _ => Py.ret_bind fun _ _ => Py.ret_bind fun c hc => Py.ret_bind fun a ha =>
    Py.ret_bind fun w hw => ?_
  have hc := (parseFiletime_date _ "creation_time" (by decide)).out c hc
  have ha := (parseFiletime_date _ "accessed_time" (by decide)).out a ha
  have hw := (parseFiletime_date _ "modified_time" (by decide)).out w hw
  ret
  simp [DatedEntries, timeKeys, hc, ha, hw]

theorem dated_target (f : LnkFile) : Py.Ret (fun o => ∀ d ∈ o, DatedEntries d) f.jsonTarget := by
  unfold jsonTarget
  split
  · exact Py.ret_pure (by simp)
  · rename_i t ht
    refine Py.ret_bind fun n _ => Py.ret_bind fun l hl => Py.ret_pure ?_
    have := (LnkTargets.dated_asListLoop _).out l hl
    intro d hd
    simp only [Option.mem_def, Option.some.injEq] at hd
    subst hd
    simpa [DatedEntries, timeKeys] using this

macro "dated_if" : tactic => `(tactic| (refine LnkFile.dated_entryIf ?_; ret; all_goals dated))

theorem dated_local (i : LnkInfo) : Py.Ret DatedEntries (jsonLocal i) := by
  unfold jsonLocal
  refine Py.ret_bind fun _ _ => Py.ret_bind fun _ _ => Py.ret_bind fun _ _ => Py.ret_bind fun _ _ => Py.ret_bind fun _ _ =>
    Py.ret_bind fun _ _ => Py.ret_bind fun _ _ => Py.ret_bind fun e he => Py.ret_pure ?_
  have he : DatedEntries e := Py.Ret.out (by dated_if) e he
  rw [DatedEntries_append]
  exact ⟨by dated, he⟩

theorem dated_network (i : LnkInfo) : Py.Ret DatedEntries (jsonNetwork i) := by
  unfold jsonNetwork
  refine Py.ret_bind fun _ _ => Py.ret_bind fun _ _ => Py.ret_bind fun _ _ => Py.ret_bind fun _ _ => Py.ret_bind fun _ _ =>
    Py.ret_bind fun _ _ => Py.ret_bind fun e1 h1 => Py.ret_bind fun _ _ => Py.ret_bind fun e2 h2 => Py.ret_bind fun _ _ =>
    Py.ret_bind fun e3 h3 => Py.ret_bind fun _ _ => Py.ret_bind fun e4 h4 => Py.ret_bind fun _ _ => Py.ret_bind fun e5 h5 =>
    Py.ret_pure ?_
  have h1 : DatedEntries e1 := Py.Ret.out (by dated_if) e1 h1
  have h2 : DatedEntries e2 := Py.Ret.out (by dated_if) e2 h2
  have h3 : DatedEntries e3 := Py.Ret.out (by dated_if) e3 h3
  have h4 : DatedEntries e4 := Py.Ret.out (by dated_if) e4 h4
  have h5 : DatedEntries e5 := Py.Ret.out (by dated_if) e5 h5
  simp only [DatedEntries_append]
  exact ⟨⟨⟨⟨⟨by dated, h1⟩, h2⟩, h3⟩, h4⟩, h5⟩

theorem dated_info (f : LnkFile) : Py.Ret DatedEntries f.jsonInfo := by
  unfold jsonInfo
  split
  · exact Py.ret_pure trivial
  · rename_i c i hi
    refine Py.ret_bind fun _ _ => Py.ret_bind fun _ _ => Py.ret_bind fun _ _ => Py.ret_bind fun _ _ => Py.ret_bind fun _ _ =>
      Py.ret_bind fun _ _ => Py.ret_bind fun _ _ => Py.ret_bind fun e1 h1 => Py.ret_bind fun e2 h2 => Py.ret_bind fun _ _ =>
      Py.ret_bind fun e3 h3 => Py.ret_bind fun _ _ => Py.ret_bind fun e4 h4 => ?_
    have h1 : DatedEntries e1 := Py.Ret.out (by dated_if) e1 h1
    have h2 : DatedEntries e2 := Py.Ret.out (by dated_if) e2 h2
    have h3 : DatedEntries e3 := Py.Ret.out (by dated_if) e3 h3
    have h4 : DatedEntries e4 := Py.Ret.out (by dated_if) e4 h4
    cases c with
    | «local» =>
      refine Py.ret_bind fun li hli => Py.ret_pure ?_
      have h5 := (dated_local i).out li hli
      simp only [DatedEntries_append]
      exact ⟨⟨⟨⟨⟨by dated, h1⟩, h2⟩, h3⟩, h4⟩, by simp [DatedEntries, timeKeys, h5]⟩
    | network =>
      refine Py.ret_bind fun li hli => Py.ret_pure ?_
      have h5 := (dated_network i).out li hli
      simp only [DatedEntries_append]
      exact ⟨⟨⟨⟨⟨by dated, h1⟩, h2⟩, h3⟩, h4⟩, by simp [DatedEntries, timeKeys, h5]⟩

theorem dated_data (f : LnkFile) (h : (f.stringData.data.map Prod.fst).Sublist
    ["description", "relative_path", "working_directory", "command_line_arguments", "icon_location"]) :
    DatedEntries f.stringData.asDict := by
  rw [DatedEntries_iff]
  intro kv hkv
  simp only [StringData.asDict, List.mem_map] at hkv
  obtain ⟨x, hx, rfl⟩ := hkv
  have := h.subset (List.mem_map_of_mem hx)
  have hn : x.1 ∉ timeKeys := by
    intro ht
    revert this ht
    generalize x.1 = k
    simp only [timeKeys, List.mem_cons, List.not_mem_nil, or_false]
    rintro (rfl | rfl | rfl | rfl | rfl) <;> decide
  unfold Ok
  rw [if_neg hn]
  trivial

theorem dated_sublist {d e : Dict} (h : DatedEntries d) (hs : List.Sublist e d) : DatedEntries e := by
  rw [DatedEntries_iff] at *
  exact fun kv hkv => h kv (hs.subset hkv)

theorem dated_map {d : Dict} {g : String × PyVal → String × PyVal} (h : DatedEntries d)
    (hg : ∀ kv ∈ d, Ok kv.1 kv.2 → Ok (g kv).1 (g kv).2) : DatedEntries (d.map g) := by
  rw [DatedEntries_iff] at *
  intro kv hkv
  obtain ⟨x, hx, rfl⟩ := List.mem_map.1 hkv
  exact hg x hx (h x hx)

theorem ok_dict {k : String} {d : Dict} (h : Ok k (.dict d)) : k ∉ timeKeys ∧ DatedEntries d := by
  unfold Ok at h
  split at h
  · rcases h with h | ⟨_, h, -⟩ <;> cases h
  · exact ⟨‹_›, h⟩

theorem ok_list {k : String} {l : List PyVal} (h : Ok k (.list l)) : k ∉ timeKeys ∧ ∀ v ∈ l, Dated v := by
  unfold Ok at h
  split at h
  · rcases h with h | ⟨_, h, -⟩ <;> cases h
  · exact ⟨‹_›, (DatedList_iff l).1 h⟩

theorem dated_atKey {d : Dict} {k : String} {g : Dict → Dict} (h : DatedEntries d)
    (hg : ∀ e, DatedEntries e → DatedEntries (g e)) : DatedEntries (atKey k g d) := by
  unfold atKey
  refine dated_map h ?_
  intro kv _ hd
  split
  · split
    · rename_i e he
      rw [he] at hd
      obtain ⟨h1, h2⟩ := ok_dict hd
      unfold Ok
      rw [if_neg h1]
      exact hg e h2
    · exact hd
  · exact hd

theorem dated_pruneInfo {d : Dict} (h : DatedEntries d) : DatedEntries (pruneInfo d) := by
  unfold pruneInfo
  have h1 := dated_sublist h (popAll_sublist d ["link_info_size", "link_info_header_size", "volume_id_offset",
    "local_base_path_offset", "common_network_relative_link_offset", "common_path_suffix_offset"])
  dsimp only
  split
  · split
    · exact dated_atKey h1 fun e he => dated_sublist he (popAll_sublist _ _)
    · split
      · exact dated_atKey h1 fun e he => dated_sublist he (popAll_sublist _ _)
      · exact h1
  · exact h1

theorem dated_pruneItem {v : PyVal} (h : Dated v) : Dated (pruneItem v) := by
  unfold pruneItem
  split
  · exact dated_sublist h (erase_sublist _ _)
  · exact h

theorem dated_pruneTarget {d : Dict} (h : DatedEntries d) : DatedEntries (pruneTarget d) := by
  unfold pruneTarget
  refine dated_map (dated_sublist h (popAll_sublist _ _)) ?_
  intro kv _ hd
  split
  · split
    · rename_i l hl
      rw [hl] at hd
      obtain ⟨h1, h2⟩ := ok_list hd
      unfold Ok
      rw [if_neg h1, dated_list]
      intro v hv
      obtain ⟨u, hu, rfl⟩ := List.mem_map.1 hv
      exact dated_pruneItem (h2 u hu)
    · exact hd
  · exact hd

theorem dated_getJson (f : LnkFile) (all : Bool) (h : (f.stringData.data.map Prod.fst).Sublist
    ["description", "relative_path", "working_directory", "command_line_arguments", "icon_location"]) :
    Py.Ret DatedEntries (f.getJson all) := by
  unfold getJson
  refine Py.ret_bind fun header hh => Py.ret_bind fun target ht => Py.ret_bind fun info hi => Py.ret_bind fun extra he =>
    Py.ret_pure ?_
  have h1 : DatedEntries (if all then header else pruneHeader header) := by
    have := f.dated_header.out header hh
    split
    · exact this
    · exact dated_sublist this (popAll_sublist _ _)
  have h3 : DatedEntries (if all then info else pruneInfo info) := by
    have := f.dated_info.out info hi
    split
    · exact this
    · exact dated_pruneInfo this
  have h4 := (f.extras.dated_asDict).out extra he
  have h5 := f.dated_data h
  have h2 : ∀ t, target = some t → DatedEntries (if all then t else pruneTarget t) := by
    intro t e
    have := f.dated_target.out target ht t e
    split
    · exact this
    · exact dated_pruneTarget this
  simp only [DatedEntries_append]
  refine ⟨⟨by simp [DatedEntries, timeKeys, h1], ?_⟩, by simp [DatedEntries, timeKeys, h3, h4, h5]⟩
  rcases target with _ | t
  · trivial
  · simp [DatedEntries, timeKeys, h2 t rfl]

end LnkFile

end Verif
