import Verif.Spec.Shape
import Verif.Lemmas.Process
import Verif.Lemmas.ExtraReport
import Verif.Lemmas.Layout

namespace Verif

open Spec

/-! ### values that are returned -/

/-- Everything that is returned satisfies `Q`. -/
structure Py.Ret (Q : α → Prop) (x : Py α) : Prop where
  out : ∀ a, x.res = .ok a → Q a

namespace Py

variable {α β : Type} {Q : β → Prop}

theorem ret_pure {a : β} (h : Q a) : Ret Q (pure a) := by
  constructor
  intro b hb
  simp only [pure_res, Except.ok.injEq] at hb
  exact hb ▸ h

theorem ret_raise (e : PyErr) : Ret Q (raise e) := by
  constructor
  intro b hb
  simp [raise] at hb

theorem ret_bind {x : Py α} {f : α → Py β} (h : ∀ a, x.res = .ok a → Ret Q (f a)) : Ret Q (x >>= f) := by
  constructor
  intro b hb
  rw [bind_ok_iff] at hb
  obtain ⟨a, ha, hb⟩ := hb
  exact (h a ha).out b hb

theorem ret_ite {c : Prop} [Decidable c] {x y : Py β} (hx : c → Ret Q x) (hy : ¬ c → Ret Q y) :
    Ret Q (if c then x else y) := by
  split
  · exact hx ‹_›
  · exact hy ‹_›

macro "ret_step" : tactic => `(tactic| first
  | (refine Py.ret_bind fun _ _ => ?_)
  | (apply Py.ret_pure)
  | exact Py.ret_raise _
  | (refine Py.ret_ite (fun _ => ?_) (fun _ => ?_))
  | split)

macro "ret" : tactic => `(tactic| repeat' ret_step)

end Py

/-! ### documented trees -/

theorem DocumentedList_iff (l : List PyVal) : DocumentedList l ↔ ∀ v ∈ l, Documented v := by
  induction l with
  | nil => simp [DocumentedList]
  | cons v l ih => simp [DocumentedList, ih]

theorem DocumentedEntries_iff (d : Dict) :
    DocumentedEntries d ↔ ∀ kv ∈ d, Documented kv.2 ∧ (kv.1 = "class" → ∃ s, kv.2 = .str s) := by
  induction d with
  | nil => simp [DocumentedEntries]
  | cons kv d ih => obtain ⟨k, v⟩ := kv; simp [DocumentedEntries, ih, and_assoc]

theorem DocumentedEntries_append (d e : Dict) :
    DocumentedEntries (d ++ e) ↔ DocumentedEntries d ∧ DocumentedEntries e := by
  simp only [DocumentedEntries_iff, List.mem_append]
  constructor
  · exact fun h => ⟨fun kv hk => h kv (.inl hk), fun kv hk => h kv (.inr hk)⟩
  · rintro ⟨h1, h2⟩ kv (hk | hk)
    · exact h1 kv hk
    · exact h2 kv hk

@[simp] theorem documented_int (i : Int) : Documented (.int i) := trivial
@[simp] theorem documented_nat (i : Nat) : Documented (.nat i) := trivial
@[simp] theorem documented_str (s : Str) : Documented (.str s) := trivial
@[simp] theorem documented_lit (s : String) : Documented (.lit s) := trivial
@[simp] theorem documented_none : Documented .none := trivial
@[simp] theorem documented_dt (d : DateTime) : Documented (.dt d) := trivial
@[simp] theorem documented_opt_nat (o : Option Nat) : Documented (PyVal.opt .nat o) := by cases o <;> trivial
@[simp] theorem documented_opt_str (o : Option Str) : Documented (PyVal.opt .str o) := by cases o <;> trivial
@[simp] theorem documented_opt_lit (o : Option String) : Documented (PyVal.opt .lit o) := by cases o <;> trivial
@[simp] theorem documented_opt_dt (o : Option DateTime) : Documented (PyVal.opt .dt o) := by cases o <;> trivial
@[simp] theorem documented_strList (l : List String) : Documented (LnkFile.strList l) := by
  show DocumentedList _
  rw [DocumentedList_iff]
  simp
@[simp] theorem documented_dict (d : Dict) :
    Documented (.dict d) ↔ DocumentedKeys (d.map Prod.fst) ∧ DocumentedEntries d := Iff.rfl
@[simp] theorem documented_list (l : List PyVal) : Documented (.list l) ↔ ∀ v ∈ l, Documented v := DocumentedList_iff l

/-- A literal dictionary of documented kind. -/
theorem keys_documented {keys s : List String} (hs : s ∈ schemas) (h : keys.Sublist s) : DocumentedKeys keys := .inl ⟨s, hs, h⟩

instance (keys : List String) : Decidable (∃ s ∈ schemas, keys.Sublist s) := List.decidableBEx _ _

/-- Solves `Documented (.dict [...])` for literal keys. -/
macro "documented" : tactic => `(tactic|
  (refine ⟨.inl ?_, ?_⟩
   · show ∃ s ∈ schemas, List.Sublist _ s
     simp only [List.map_cons, List.map_nil]
     decide +kernel
   · simp [DocumentedEntries, PyVal.lit]))

namespace Target

theorem doc_fsAsItem (t : Target) : Py.Ret (fun d => Documented (.dict d)) t.fsAsItem := by
  unfold fsAsItem
  ret
  documented

theorem doc_asItem (t : Target) : Py.Ret (fun d => Documented (.dict d)) t.asItem := by
  unfold asItem
  split
  case h_5 => exact t.doc_fsAsItem
  case h_8 =>
    refine Py.ret_bind fun fe _ => Py.ret_bind fun item hi => Py.ret_bind fun _ _ => Py.ret_bind fun _ _ => Py.ret_pure ?_
    have := fe.doc_fsAsItem.out item hi
    refine ⟨.inl ?_, ?_⟩
    · show ∃ s ∈ schemas, List.Sublist _ s
      simp only [List.map_cons, List.map_nil]
      decide +kernel
    · simp only [DocumentedEntries, this]
      simp [PyVal.lit]
  all_goals
    ret
    all_goals documented

end Target

namespace LnkTargets

theorem doc_itemOf (t : Target) : Py.Ret (fun o => ∀ v ∈ o, Documented v) (itemOf t) := by
  constructor
  intro o ho
  unfold itemOf Py.tryExcept at ho
  have hw : ∀ w : Warn, ((do Py.warn w; pure none : Py (Option PyVal))).res = .ok none := fun _ => rfl
  split at ho
  · split at ho
    · simp only [hw, Except.ok.injEq] at ho
      subst ho
      simp
    · rename_i h _
      rw [h] at ho
      simp at ho
  · rename_i h
    rw [h, Except.ok.injEq] at ho
    subst ho
    rw [Py.bind_ok_iff] at h
    obtain ⟨d, hd, h⟩ := h
    simp only [Py.pure_res, Except.ok.injEq] at h
    subst h
    intro v hv
    simp only [Option.mem_def, Option.some.injEq] at hv
    subst hv
    exact t.doc_asItem.out d hd

theorem doc_asListLoop (xs : List (Py Target)) : Py.Ret (fun l => ∀ v ∈ l, Documented v) (asListLoop xs) := by
  induction xs with
  | nil => exact Py.ret_pure (by simp)
  | cons x xs ih =>
    refine Py.ret_bind fun t _ => Py.ret_bind fun item hi => Py.ret_bind fun items hs => Py.ret_pure ?_
    intro v hv
    rcases List.mem_append.1 hv with hv | hv
    · exact (doc_itemOf t).out item hi v (by simpa using hv)
    · exact ih.out items hs v hv

end LnkTargets

namespace Metadata

theorem doc_typedValue (b : Bytes) : Py.Ret Documented (typedValue b) := by
  unfold typedValue
  ret
  all_goals simp

theorem doc_integerName (b : Bytes) : Py.Ret (fun d => Documented (.dict d)) (integerNameAsDict b) := by
  unfold integerNameAsDict
  refine Py.ret_bind fun _ _ => Py.ret_bind fun _ _ => Py.ret_bind fun v hv => Py.ret_bind fun _ _ =>
    Py.ret_bind fun _ _ => Py.ret_pure ?_
  have := (doc_typedValue _).out v hv
  refine ⟨.inl ?_, by simp [DocumentedEntries, this]⟩
  show ∃ s ∈ schemas, List.Sublist _ s
  simp only [List.map_cons, List.map_nil]
  decide +kernel

theorem doc_stringName (b : Bytes) : Py.Ret (fun d => Documented (.dict d)) (stringNameAsDict b) := by
  unfold stringNameAsDict
  refine Py.ret_bind fun _ _ => Py.ret_bind fun _ _ => Py.ret_bind fun _ _ => Py.ret_bind fun v hv => Py.ret_bind fun _ _ =>
    Py.ret_bind fun _ _ => Py.ret_pure ?_
  have := (doc_typedValue _).out v hv
  refine ⟨.inl ?_, by simp [DocumentedEntries, this]⟩
  show ∃ s ∈ schemas, List.Sublist _ s
  simp only [List.map_cons, List.map_nil]
  decide +kernel

theorem doc_collect {f : Bytes → Py Dict} (hf : ∀ b, Py.Ret (fun d => Documented (.dict d)) (f b)) (l : List Bytes) :
    Py.Ret (fun l => ∀ v ∈ l, Documented v) (collect f l) := by
  induction l with
  | nil => exact Py.ret_pure (by simp)
  | cons x xs ih =>
    refine Py.ret_bind fun d hd => Py.ret_bind fun ds hds => Py.ret_pure ?_
    intro v hv
    rcases List.mem_cons.1 hv with rfl | hv
    · exact (hf x).out d hd
    · exact ih.out ds hds v hv

theorem doc_storage (b : Bytes) : Py.Ret (fun d => Documented (.dict d)) (storageAsDict b) := by
  unfold storageAsDict
  refine Py.ret_bind fun _ _ => Py.ret_bind fun _ _ => Py.ret_bind fun _ _ => Py.ret_bind fun f _ => Py.ret_bind fun _ _ =>
    Py.ret_bind fun items hi => Py.ret_pure ?_
  have : ∀ v ∈ items, Documented v := by
    refine (doc_collect (fun b => ?_) _).out items hi
    split
    · exact doc_stringName b
    · exact doc_integerName b
  refine ⟨.inl ?_, ?_⟩
  · show ∃ s ∈ schemas, List.Sublist _ s
    simp only [List.map_cons, List.map_nil]
    decide +kernel
  · simp only [DocumentedEntries, documented_list]
    exact ⟨by simp, by simp, by simp, by simp, by simp, by simp, this, by simp, trivial⟩

end Metadata

namespace Extra

theorem doc_asDict (x : Extra) : Py.Ret (fun d => Documented (.dict d)) x.asDict := by
  unfold asDict
  refine Py.ret_bind fun n _ => ?_
  unfold fields
  split
  case h_9 =>
    unfold metadataFields
    refine Py.ret_bind fun d hd => Py.ret_pure ?_
    rw [Py.bind_ok_iff] at hd
    obtain ⟨l, hl, hd⟩ := hd
    simp only [Py.pure_res, Except.ok.injEq] at hd
    subst hd
    rw [Metadata.propertyStore, Py.bind_ok_iff] at hl
    obtain ⟨st, -, hl⟩ := hl
    have := (Metadata.doc_collect Metadata.doc_storage _).out l hl
    refine ⟨.inl ?_, ?_⟩
    · show ∃ s ∈ schemas, List.Sublist _ s
      simp only [List.map_cons, List.map_nil]
      decide +kernel
    · simp only [DocumentedEntries, documented_list]
      exact ⟨by simp, by simp, this, by simp, trivial⟩
  case h_11 =>
    unfold shellItemFields
    refine Py.ret_bind fun d hd => Py.ret_pure ?_
    rw [Py.bind_ok_iff] at hd
    obtain ⟨l, hl, hd⟩ := hd
    simp only [Py.pure_res, Except.ok.injEq] at hd
    subst hd
    have := (LnkTargets.doc_asListLoop _).out l hl
    refine ⟨.inl ?_, ?_⟩
    · show ∃ s ∈ schemas, List.Sublist _ s
      simp only [List.map_cons, List.map_nil]
      decide +kernel
    · simp only [DocumentedEntries, documented_list]
      exact ⟨by simp, by simp, this, by simp, trivial⟩
  all_goals
    simp only [targetFields, consoleFields, trackerFields, codePageFields, specialFolderFields, darwinFields,
      shimLayerFields, knownFolderFields, unknownFields, terminalFields, bind_assoc, pure_bind]
    ret
    all_goals documented

end Extra

namespace ExtraData

/-- What the dictionary holds on the way: each name once, dictionaries, and a list for unknown blocks. -/
structure Good (d : Dict) : Prop where
  nodup : d.keys.Nodup
  names : ∀ k ∈ d.keys, k ∈ sectionNames
  values : ∀ kv ∈ d, Documented kv.2 ∧ if kv.1 = "UNKNOWN_BLOCK" then ∃ l : List Dict, kv.2 = .list (l.map .dict)
    else ∃ e, kv.2 = .dict e

theorem name_mem (c : ExtraClass) : c.name ∈ sectionNames := by
  cases c <;> simp [ExtraClass.name, sectionNames]

theorem mem_set {d : Dict} {k : String} {v : PyVal} {kv : String × PyVal} (h : kv ∈ d.set k v) : kv = (k, v) ∨ kv ∈ d := by
  induction d with
  | nil => simpa [Dict.set] using h
  | cons x d ih =>
    obtain ⟨k', v'⟩ := x
    simp only [Dict.set] at h
    split at h
    · rcases List.mem_cons.1 h with h | h
      · exact .inl h
      · exact .inr (List.mem_cons_of_mem _ h)
    · rcases List.mem_cons.1 h with h | h
      · exact .inr (h ▸ List.mem_cons_self)
      · exact (ih h).imp id (List.mem_cons_of_mem _)

theorem Good.set {d : Dict} (hd : Good d) (c : ExtraClass) {v : PyVal} (hv : Documented v)
    (hk : if c.name = "UNKNOWN_BLOCK" then ∃ l : List Dict, v = .list (l.map .dict) else ∃ e, v = .dict e) :
    Good (d.set c.name v) := by
  refine ⟨Dict.nodup_set hd.nodup _ _, ?_, ?_⟩
  · intro k hk
    rw [Dict.keys_set] at hk
    split at hk
    · exact hd.names k hk
    · rcases List.mem_append.1 hk with hk | hk
      · exact hd.names k hk
      · simp only [List.mem_singleton] at hk
        exact hk ▸ name_mem c
  · intro kv hkv
    rcases mem_set hkv with rfl | hkv
    · exact ⟨hv, hk⟩
    · exact hd.values kv hkv

theorem good_asDictLoop (xs : List Extra) (res : Dict) (hres : Good res) : Py.Ret Good (asDictLoop xs res) := by
  induction xs generalizing res with
  | nil => exact Py.ret_pure hres
  | cons x xs ih =>
    unfold asDictLoop
    have h0 : Good (if x.cls = .unknown ∧ ¬ res.has x.cls.name then res.set x.cls.name (.list []) else res) := by
      split
      · rename_i h
        exact hres.set _ (by simp) (by rw [h.1, if_pos (show ExtraClass.unknown.name = "UNKNOWN_BLOCK" from rfl)]; exact ⟨[], rfl⟩)
      · exact hres
    generalize (if x.cls = .unknown ∧ ¬ res.has x.cls.name then res.set x.cls.name (.list []) else res) = res' at h0
    refine Py.ret_bind fun r hr => ?_
    rcases r with e | d
    · exact Py.ret_bind fun _ _ => ih _ h0
    · have hd : Documented (.dict d) := by
        refine x.doc_asDict.out d ?_
        unfold Py.attempt at hr
        rcases hx : x.asDict.res with e | d'
        · rw [hx] at hr
          simp only at hr
          split at hr <;> simp at hr
        · rw [hx] at hr
          simp only [Except.ok.injEq] at hr
          rw [hr]
      dsimp only
      split
      · rename_i hu
        refine ih _ (h0.set _ ?_ ?_)
        · rw [documented_list]
          intro v hv
          rcases List.mem_append.1 hv with hv | hv
          · unfold listAt at hv
            split at hv
            · rename_i l hl
              have := (h0.values _ (Dict.mem_of_get? hl)).1
              rw [documented_list] at this
              exact this v hv
            · simp at hv
          · simp only [List.mem_singleton] at hv
            exact hv ▸ hd
        · rw [hu, if_pos (show ExtraClass.unknown.name = "UNKNOWN_BLOCK" from rfl)]
          unfold listAt
          split
          · rename_i l hl
            have := (h0.values _ (Dict.mem_of_get? hl)).2
            rw [if_pos (by rfl)] at this
            obtain ⟨l', hl'⟩ := this
            simp only [PyVal.list.injEq] at hl'
            exact ⟨l' ++ [d], by simp [hl']⟩
          · exact ⟨[d], rfl⟩
      · rename_i hu
        refine ih _ (h0.set _ hd ?_)
        rw [if_neg (fun h : x.cls.name = "UNKNOWN_BLOCK" => hu (ExtraClass.name_inj h))]
        exact ⟨d, rfl⟩

theorem good_asDict (e : ExtraData) : Py.Ret Good e.asDict := good_asDictLoop _ _ ⟨by simp [Dict.keys], by simp [Dict.keys], by simp⟩

theorem Good.documented {d : Dict} (h : Good d) : Documented (.dict d) := by
  refine ⟨.inr ⟨h.nodup, h.names⟩, ?_⟩
  rw [DocumentedEntries_iff]
  intro kv hkv
  refine ⟨(h.values kv hkv).1, fun hc => ?_⟩
  have := h.names kv.1 (List.mem_map_of_mem hkv)
  rw [hc] at this
  simp [sectionNames] at this

end ExtraData

namespace LnkFile

theorem entryIf_ok {b : Bool} {x : Py Dict} {d : Dict} (h : (entryIf b x).res = .ok d) : d = [] ∨ x.res = .ok d := by
  unfold entryIf at h
  split at h
  · exact .inr h
  · simp only [Py.pure_res, Except.ok.injEq] at h
    exact .inl h.symm

/-- Some of the keys, documented values. -/
def Some (keys : List String) (d : Dict) : Prop := (d.map Prod.fst).Sublist keys ∧ DocumentedEntries d

theorem some_nil (keys : List String) : Some keys [] := ⟨by simp, trivial⟩

theorem some_append {k l : List String} {d e : Dict} (hd : Some k d) (he : Some l e) : Some (k ++ l) (d ++ e) :=
  ⟨by rw [List.map_append]; exact hd.1.append he.1, (DocumentedEntries_append _ _).2 ⟨hd.2, he.2⟩⟩

theorem doc_some {s : List String} {d : Dict} (hs : s ∈ schemas) (h : Some s d) : Documented (.dict d) := ⟨.inl ⟨s, hs, h.1⟩, h.2⟩

theorem some_entryIf {b : Bool} {x : Py Dict} {keys : List String} (hx : Py.Ret (Some keys) x) : Py.Ret (Some keys) (entryIf b x) := by
  constructor
  intro d hd
  rcases entryIf_ok hd with rfl | hd
  · exact some_nil _
  · exact hx.out d hd

macro "some" : tactic => `(tactic|
  (refine ⟨?_, ?_⟩
   · simp only [List.map_cons, List.map_nil]
     exact List.Sublist.refl _
   · simp [DocumentedEntries, PyVal.lit]))

theorem doc_header (f : LnkFile) : Py.Ret (Some headerKeys) f.jsonHeader := by
  unfold jsonHeader
  ret
  refine ⟨?_, ?_⟩
  · simp only [List.map_cons, List.map_nil]
    decide +kernel
  · simp [DocumentedEntries, PyVal.lit]

theorem doc_target (f : LnkFile) : Py.Ret (fun o => ∀ d ∈ o, Documented (.dict d)) f.jsonTarget := by
  unfold jsonTarget
  split
  · exact Py.ret_pure (by simp)
  · rename_i t ht
    refine Py.ret_bind fun n _ => Py.ret_bind fun l hl => Py.ret_pure ?_
    have := (LnkTargets.doc_asListLoop _).out l hl
    intro d hd
    simp only [Option.mem_def, Option.some.injEq] at hd
    subst hd
    refine ⟨.inl ?_, ?_⟩
    · show ∃ s ∈ schemas, List.Sublist _ s
      simp only [List.map_cons, List.map_nil]
      decide +kernel
    · simp only [DocumentedEntries, documented_list]
      exact ⟨by simp, by simp, this, by simp, by simp, by simp, trivial⟩

theorem some_local (i : LnkInfo) : Py.Ret (Some ["volume_id_size", "r_drive_type", "volume_label_offset",
    "drive_serial_number", "drive_type", "volume_label", "volume_label_unicode_offset", "volume_label_unicode"]) (jsonLocal i) := by
  unfold jsonLocal
  refine Py.ret_bind fun _ _ => Py.ret_bind fun _ _ => Py.ret_bind fun _ _ => Py.ret_bind fun _ _ => Py.ret_bind fun _ _ =>
    Py.ret_bind fun _ _ => Py.ret_bind fun _ _ => Py.ret_bind fun e he => Py.ret_pure ?_
  have he : Some ["volume_label_unicode_offset", "volume_label_unicode"] e := by
    refine (some_entryIf ?_).out e he
    ret
    some
  exact some_append (k := ["volume_id_size", "r_drive_type", "volume_label_offset", "drive_serial_number", "drive_type",
    "volume_label"]) (by some) he

theorem some_network (i : LnkInfo) : Py.Ret (Some ["common_network_relative_link_size", "common_network_relative_link_flags",
    "net_name_offset", "device_name_offset", "r_network_provider_type", "network_provider_type", "net_name_offset_unicode",
    "net_name_unicode", "device_name_offset_unicode", "device_name_unicode", "net_name", "device_name"]) (jsonNetwork i) := by
  unfold jsonNetwork
  refine Py.ret_bind fun _ _ => Py.ret_bind fun _ _ => Py.ret_bind fun _ _ => Py.ret_bind fun _ _ => Py.ret_bind fun _ _ =>
    Py.ret_bind fun _ _ => Py.ret_bind fun e1 h1 => Py.ret_bind fun _ _ => Py.ret_bind fun e2 h2 => Py.ret_bind fun _ _ =>
    Py.ret_bind fun e3 h3 => Py.ret_bind fun _ _ => Py.ret_bind fun e4 h4 => Py.ret_bind fun _ _ => Py.ret_bind fun e5 h5 =>
    Py.ret_pure ?_
  have h1 : Some ["network_provider_type"] e1 := by
    refine (some_entryIf ?_).out e1 h1
    ret
    some
  have h2 : Some ["net_name_offset_unicode", "net_name_unicode"] e2 := by
    refine (some_entryIf ?_).out e2 h2
    ret
    some
  have h3 : Some ["device_name_offset_unicode", "device_name_unicode"] e3 := by
    refine (some_entryIf ?_).out e3 h3
    ret
    some
  have h4 : Some ["net_name"] e4 := by
    refine (some_entryIf ?_).out e4 h4
    ret
    some
  have h5 : Some ["device_name"] e5 := by
    refine (some_entryIf ?_).out e5 h5
    ret
    some
  exact some_append (some_append (some_append (some_append (some_append (k := ["common_network_relative_link_size",
    "common_network_relative_link_flags", "net_name_offset", "device_name_offset", "r_network_provider_type"]) (by some)
    h1) h2) h3) h4) h5

theorem doc_local (i : LnkInfo) : Py.Ret (fun d => Documented (.dict d)) (jsonLocal i) :=
  ⟨fun d hd => doc_some (by decide +kernel) ((some_local i).out d hd)⟩

theorem doc_network (i : LnkInfo) : Py.Ret (fun d => Documented (.dict d)) (jsonNetwork i) :=
  ⟨fun d hd => doc_some (by decide +kernel) ((some_network i).out d hd)⟩

theorem doc_info (f : LnkFile) : Py.Ret (fun d => Documented (.dict d)) f.jsonInfo := by
  unfold jsonInfo
  split
  · exact Py.ret_pure ⟨.inl ⟨_, List.mem_cons_self, by simp⟩, trivial⟩
  · rename_i c i hi
    refine Py.ret_bind fun _ _ => Py.ret_bind fun _ _ => Py.ret_bind fun _ _ => Py.ret_bind fun _ _ => Py.ret_bind fun _ _ =>
      Py.ret_bind fun _ _ => Py.ret_bind fun _ _ => Py.ret_bind fun e1 h1 => Py.ret_bind fun e2 h2 => Py.ret_bind fun _ _ =>
      Py.ret_bind fun e3 h3 => Py.ret_bind fun _ _ => Py.ret_bind fun e4 h4 => ?_
    have h1 : Some ["local_base_path"] e1 := by
      refine (some_entryIf ?_).out e1 h1
      ret
      some
    have h2 : Some ["common_path_suffix"] e2 := by
      refine (some_entryIf ?_).out e2 h2
      ret
      some
    have h3 : Some ["local_base_path_offset_unicode", "local_base_path_unicode"] e3 := by
      refine (some_entryIf ?_).out e3 h3
      ret
      some
    have h4 : Some ["common_path_suffix_offset_unicode", "common_path_suffix_unicode"] e4 := by
      refine (some_entryIf ?_).out e4 h4
      ret
      some
    have h6 : ∀ li, Documented (.dict li) →
        Some ["location_info", "location"] [("location_info", .dict li), ("location", .lit (locationName c))] := fun li h5 => by
      refine ⟨List.Sublist.refl _, ?_⟩
      simp only [DocumentedEntries, h5]
      simp
    cases c with
    | «local» =>
      exact Py.ret_bind fun li hli => Py.ret_pure (doc_some (s := ["link_info_size", "link_info_header_size", "link_info_flags",
        "volume_id_offset", "local_base_path_offset", "common_network_relative_link_offset", "common_path_suffix_offset"] ++
        _ ++ _ ++ _ ++ _ ++ _) (by decide +kernel) (some_append (some_append (some_append (some_append (some_append (by some)
        h1) h2) h3) h4) (h6 li ((doc_local i).out li hli))))
    | network =>
      exact Py.ret_bind fun li hli => Py.ret_pure (doc_some (s := ["link_info_size", "link_info_header_size", "link_info_flags",
        "volume_id_offset", "local_base_path_offset", "common_network_relative_link_offset", "common_path_suffix_offset"] ++
        _ ++ _ ++ _ ++ _ ++ _) (by decide +kernel) (some_append (some_append (some_append (some_append (some_append (by some)
        h1) h2) h3) h4) (h6 li ((doc_network i).out li hli))))

theorem doc_data (f : LnkFile) (h : (f.stringData.data.map Prod.fst).Sublist
    ["description", "relative_path", "working_directory", "command_line_arguments", "icon_location"]) :
    Documented (.dict f.stringData.asDict) := by
  refine ⟨.inl ⟨["description", "relative_path", "working_directory", "command_line_arguments", "icon_location"], ?_, ?_⟩, ?_⟩
  · decide +kernel
  · rw [StringData.asDict, List.map_map]
    exact h
  · rw [DocumentedEntries_iff]
    intro kv hkv
    simp only [StringData.asDict, List.mem_map] at hkv
    obtain ⟨x, -, rfl⟩ := hkv
    exact ⟨trivial, fun _ => ⟨_, rfl⟩⟩

/-! ### removals -/

theorem erase_sublist (d : Dict) (k : String) : (d.erase k).Sublist d := by
  induction d with
  | nil => simp [Dict.erase]
  | cons x d ih =>
    obtain ⟨k', v⟩ := x
    simp only [Dict.erase]
    split
    · exact List.sublist_cons_self _ _
    · exact ih.cons_cons _

theorem popAll_sublist (d : Dict) (ks : List String) : (popAll d ks).Sublist d := by
  unfold popAll
  induction ks generalizing d with
  | nil => exact List.Sublist.refl _
  | cons k ks ih => exact (ih _).trans (erase_sublist d k)

theorem doc_sublist {d e : Dict} (h : Documented (.dict d)) (hs : List.Sublist e d) : Documented (.dict e) := by
  refine ⟨?_, ?_⟩
  · rcases h.1 with ⟨s, h1, h2⟩ | ⟨h1, h2⟩
    · exact .inl ⟨s, h1, (hs.map _).trans h2⟩
    · exact .inr ⟨(hs.map _).nodup h1, fun k hk => h2 k ((hs.map _).subset hk)⟩
  · have := h.2
    rw [DocumentedEntries_iff] at this ⊢
    exact fun kv hkv => this kv (hs.subset hkv)

/-- Replacing values by documented ones of the same keys. -/
theorem doc_map {d : Dict} {g : String × PyVal → String × PyVal} (h : Documented (.dict d)) (hk : ∀ kv, (g kv).1 = kv.1)
    (hv : ∀ kv ∈ d, Documented kv.2 → Documented (g kv).2) (hc : ∀ kv, kv.1 = "class" → g kv = kv) :
    Documented (.dict (d.map g)) := by
  refine ⟨?_, ?_⟩
  · rw [List.map_map]
    have : Prod.fst ∘ g = Prod.fst := by funext kv; exact hk kv
    rw [this]
    exact h.1
  · have := h.2
    rw [DocumentedEntries_iff] at this ⊢
    intro kv hkv
    obtain ⟨x, hx, rfl⟩ := List.mem_map.1 hkv
    refine ⟨hv x hx (this x hx).1, fun hcl => ?_⟩
    rw [hk] at hcl
    rw [hc x hcl]
    exact (this x hx).2 hcl

theorem doc_atKey {d : Dict} {k : String} {g : Dict → Dict} (h : Documented (.dict d))
    (hg : ∀ e, Documented (.dict e) → Documented (.dict (g e))) (hk : k ≠ "class") : Documented (.dict (atKey k g d)) := by
  unfold atKey
  refine doc_map h ?_ ?_ ?_
  · intro kv
    split
    · split <;> rfl
    · rfl
  · intro kv _ hd
    split
    · split
      · rename_i e he
        rw [he] at hd
        exact hg e hd
      · exact hd
    · exact hd
  · intro kv hc
    rw [if_neg (fun h : kv.1 = k => hk (h.symm.trans hc))]

theorem doc_pruneInfo {d : Dict} (h : Documented (.dict d)) : Documented (.dict (pruneInfo d)) := by
  unfold pruneInfo
  have h1 := doc_sublist h (popAll_sublist d ["link_info_size", "link_info_header_size", "volume_id_offset",
    "local_base_path_offset", "common_network_relative_link_offset", "common_path_suffix_offset"])
  dsimp only
  split
  · split
    · exact doc_atKey h1 (fun e he => doc_sublist he (popAll_sublist _ _)) (by decide)
    · split
      · exact doc_atKey h1 (fun e he => doc_sublist he (popAll_sublist _ _)) (by decide)
      · exact h1
  · exact h1

theorem doc_pruneItem {v : PyVal} (h : Documented v) : Documented (pruneItem v) := by
  unfold pruneItem
  split
  · exact doc_sublist h (erase_sublist _ _)
  · exact h

theorem doc_pruneTarget {d : Dict} (h : Documented (.dict d)) : Documented (.dict (pruneTarget d)) := by
  unfold pruneTarget
  refine doc_map (doc_sublist h (popAll_sublist _ _)) ?_ ?_ ?_
  · intro kv
    split
    · split <;> rfl
    · rfl
  · intro kv _ hd
    split
    · split
      · rename_i l hl
        rw [hl, documented_list] at hd
        rw [documented_list]
        intro v hv
        obtain ⟨u, hu, rfl⟩ := List.mem_map.1 hv
        exact doc_pruneItem (hd u hu)
      · exact hd
    · exact hd
  · intro kv hc
    rw [hc, if_neg (by decide)]

theorem doc_getJson (f : LnkFile) (all : Bool) (h : (f.stringData.data.map Prod.fst).Sublist
    ["description", "relative_path", "working_directory", "command_line_arguments", "icon_location"]) :
    Py.Ret DocumentedFile (f.getJson all) := by
  unfold getJson
  refine Py.ret_bind fun header hh => Py.ret_bind fun target ht => Py.ret_bind fun info hi => Py.ret_bind fun extra he =>
    Py.ret_pure ?_
  have h1 : Some headerKeys (if all then header else pruneHeader header) := by
    have := f.doc_header.out header hh
    split
    · exact this
    · have hs := popAll_sublist header ["header_size", "reserved0", "reserved1", "reserved2"]
      refine ⟨(hs.map _).trans this.1, ?_⟩
      have := this.2
      rw [DocumentedEntries_iff] at this ⊢
      exact fun kv hkv => this kv (hs.subset hkv)
  have h3 : Documented (.dict (if all then info else pruneInfo info)) := by
    have := f.doc_info.out info hi
    split
    · exact this
    · exact doc_pruneInfo this
  have h4 := ((f.extras.good_asDict).out extra he).documented
  have h5 := f.doc_data h
  have h2 : ∀ t, target = some t → Documented (.dict (if all then t else pruneTarget t)) := by
    intro t e
    have := f.doc_target.out target ht t e
    split
    · exact this
    · exact doc_pruneTarget this
  have hv : ∀ kv ∈ (if all then header else pruneHeader header), Documented kv.2 := fun kv hkv =>
    ((DocumentedEntries_iff _).1 h1.2 kv hkv).1
  refine ⟨?_, ?_, ?_⟩
  · rcases target with _ | t
    · simp only [Option.map_none, Option.toList_none, List.map_nil, List.map_append, List.map_cons]
      decide +kernel
    · simp only [Option.map_some, Option.toList_some, List.map_nil, List.map_append, List.map_cons]
      decide +kernel
  · intro kv hkv hne
    simp only [List.mem_append, List.mem_cons, List.not_mem_nil, or_false, List.mem_map, Option.mem_toList] at hkv
    rcases hkv with ((rfl | rfl) | ⟨t, ht', rfl⟩) | rfl | rfl | rfl
    · trivial
    · exact absurd rfl hne
    · rcases target with _ | t'
      · simp at ht'
      · simp only [Option.map_some, Option.mem_def, Option.some.injEq] at ht'
        subst ht'
        exact h2 t' rfl
    · exact h3
    · exact h5
    · exact h4
  · intro v hkv
    simp only [List.mem_append, List.mem_cons, List.not_mem_nil, or_false, List.mem_map, Option.mem_toList, Prod.mk.injEq] at hkv
    rcases hkv with ((⟨h, -⟩ | ⟨-, rfl⟩) | ⟨t, -, h, -⟩) | ⟨h, -⟩ | ⟨h, -⟩ | ⟨h, -⟩
    · exact absurd h (by decide)
    · exact ⟨_, rfl, h1.1, hv⟩
    all_goals exact absurd h (by decide)

end LnkFile

end Verif
