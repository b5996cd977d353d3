import Verif.Lemmas.Shape

namespace Verif

open Spec

theorem Py.bind_congr_ok {x : Py α} {f g : α → Py β} (h : ∀ a, x.res = .ok a → f a = g a) : (x >>= f) = (x >>= g) := by
  rcases hx : x with ⟨w, e | a⟩
  · rfl
  · have := h a (by rw [hx])
    simp only [bind, Py.andThen]
    rw [this]

/-- Documented dictionaries have distinct keys. -/
theorem Spec.DocumentedKeys.nodup {keys : List String} (h : DocumentedKeys keys) : keys.Nodup := by
  rcases h with ⟨s, hs, h⟩ | h
  · have : ∀ s ∈ schemas, s.Nodup := by decide +kernel
    exact h.nodup (this s hs)
  · exact h.1

namespace Dict

theorem erase_eq {d : Dict} (h : d.keys.Nodup) (k : String) : d.erase k = d.filter fun kv => kv.1 ≠ k := by
  induction d with
  | nil => rfl
  | cons x d ih =>
    obtain ⟨k', v⟩ := x
    have hk : k' ∉ keys d ∧ (keys d).Nodup := by simpa [keys] using h
    simp only [erase]
    by_cases hkk : k' = k
    · subst hkk
      rw [if_pos rfl]
      rw [List.filter_cons, if_neg (by simp)]
      symm
      rw [List.filter_eq_self]
      intro kv hkv
      have : kv.1 ≠ k' := fun h => hk.1 (h ▸ List.mem_map_of_mem hkv)
      simpa using this
    · rw [if_neg hkk, ih hk.2, List.filter_cons, if_pos (by simpa using hkk)]

theorem get?_of_mem {d : Dict} (h : d.keys.Nodup) {k : String} {v : PyVal} (hm : (k, v) ∈ d) : d.get? k = some v := by
  induction d with
  | nil => simp at hm
  | cons x d ih =>
    obtain ⟨k', v'⟩ := x
    have hk : k' ∉ keys d ∧ (keys d).Nodup := by simpa [keys] using h
    simp only [get?]
    rcases List.mem_cons.1 hm with hm | hm
    · cases hm
      rw [if_pos rfl]
    · rw [if_neg, ih hk.2 hm]
      rintro rfl
      exact hk.1 (List.mem_map_of_mem (f := Prod.fst) hm)

end Dict

theorem popAll_eq {d : Dict} (h : d.keys.Nodup) (ks : List String) : LnkFile.popAll d ks = without ks d := by
  unfold LnkFile.popAll
  induction ks generalizing d with
  | nil =>
    show d = without [] d
    unfold without
    simp
  | cons k ks ih =>
    rw [List.foldl_cons, ih, Dict.erase_eq h]
    · unfold without
      rw [List.filter_filter]
      congr 1
      funext kv
      simp [Bool.and_comm]
    · exact ((LnkFile.erase_sublist d k).map Prod.fst).nodup h

theorem without_congr {ks ls : List String} {d : Dict} (h : ∀ k ∈ d.keys, (k ∈ ks ↔ k ∈ ls)) : without ks d = without ls d := by
  unfold without
  apply List.filter_congr
  intro kv hkv
  simp [h kv.1 (List.mem_map_of_mem hkv)]

theorem atKey_eq (k : String) (g : Dict → Dict) (d : Dict) : LnkFile.atKey k g d = under k (onDict g) d := by
  unfold LnkFile.atKey under
  congr 1
  funext kv
  split
  · obtain ⟨k', v⟩ := kv
    cases v <;> rfl
  · rfl

theorem under_absent {k : String} {g : PyVal → PyVal} {d : Dict} (h : k ∉ d.keys) : under k g d = d := by
  unfold under
  conv_rhs => rw [← List.map_id d]
  apply List.map_congr_left
  intro kv hkv
  rw [if_neg]
  · rfl
  · rintro rfl
    exact h (List.mem_map_of_mem hkv)

theorem under_congr {k : String} {g h : PyVal → PyVal} {d : Dict} (hgh : ∀ v, (k, v) ∈ d → g v = h v) :
    under k g d = under k h d := by
  unfold under
  apply List.map_congr_left
  rintro ⟨k', v⟩ hkv
  by_cases hk : k' = k
  · subst hk
    simp only [if_true, hgh v hkv]
  · simp only [hk, if_false]

@[simp] theorem keys_under (k : String) (g : PyVal → PyVal) (d : Dict) : Dict.keys (under k g d) = d.keys := by
  unfold under Dict.keys
  rw [List.map_map]
  congr 1
  funext kv
  simp only [Function.comp_apply]
  split <;> rfl

namespace LnkFile

theorem headerKeys_nodup : headerKeys.Nodup := by decide +kernel

theorem documented_nodup {d : Dict} (h : Documented (.dict d)) : d.keys.Nodup := h.1.nodup

/-- The parts of the link info. -/
theorem jsonInfo_ok {f : LnkFile} {d : Dict} (h : f.jsonInfo.res = .ok d) :
    (f.info = none ∧ d = []) ∨ ∃ c i li pre, f.info = some (c, i) ∧
      d = pre ++ [("location_info", .dict li), ("location", .lit (locationName c))] ∧
      (match c with
        | .local => jsonLocal i
        | .network => jsonNetwork i).res = .ok li := by
  unfold jsonInfo at h
  split at h
  · rename_i hi
    simp only [Py.pure_res, Except.ok.injEq] at h
    exact .inl ⟨hi, h.symm⟩
  · rename_i c i hi
    right
    simp only [Py.bind_ok_iff] at h
    obtain ⟨_, -, _, -, _, -, _, -, _, -, _, -, _, -, e1, -, e2, -, _, -, e3, -, _, -, e4, -, h⟩ := h
    cases c with
    | «local» =>
      rw [Py.bind_ok_iff] at h
      obtain ⟨li, hli, h⟩ := h
      simp only [Py.pure_res, Except.ok.injEq] at h
      exact ⟨_, _, li, _, hi, h.symm, hli⟩
    | network =>
      rw [Py.bind_ok_iff] at h
      obtain ⟨li, hli, h⟩ := h
      simp only [Py.pure_res, Except.ok.injEq] at h
      exact ⟨_, _, li, _, hi, h.symm, hli⟩

theorem pruneInfo_eq {f : LnkFile} {d : Dict} (h : f.jsonInfo.res = .ok d) :
    pruneInfo d = under "location_info" (onDict (without ["volume_id_size", "volume_label_offset",
              "common_network_relative_link_size", "net_name_offset", "device_name_offset"]))
            (without ["link_info_size", "link_info_header_size", "volume_id_offset", "local_base_path_offset",
              "common_network_relative_link_offset", "common_path_suffix_offset"] d) := by
  have hd := f.doc_info.out d h
  have hn := documented_nodup hd
  rcases jsonInfo_ok h with ⟨-, rfl⟩ | ⟨c, i, li, pre, hi, hpre, hli⟩
  · rfl
  have hs := popAll_sublist d ["link_info_size", "link_info_header_size", "volume_id_offset", "local_base_path_offset",
              "common_network_relative_link_offset", "common_path_suffix_offset"]
  unfold pruneInfo
  rw [popAll_eq hn] at hs ⊢
  generalize hd' : without ["link_info_size", "link_info_header_size", "volume_id_offset", "local_base_path_offset",
              "common_network_relative_link_offset", "common_path_suffix_offset"] d = d' at hs ⊢
  have hn' : Dict.keys d' |>.Nodup := (hs.map Prod.fst).nodup hn
  have hl : ("location", PyVal.lit (locationName c)) ∈ d' := by
    rw [← hd', without, List.mem_filter]
    exact ⟨by rw [hpre]; simp, by simp⟩
  have hli' : ∀ v, ("location_info", v) ∈ d' → v = .dict li := by
    intro v hv
    have h1 := Dict.get?_of_mem hn (hs.subset hv)
    have h2 := Dict.get?_of_mem hn (k := "location_info") (v := .dict li) (by rw [hpre]; simp)
    rw [h1] at h2
    simpa using h2
  dsimp only
  rw [Dict.get?_of_mem hn' hl]
  cases c with
  | «local» =>
    have hk := (some_local i).out li hli
    show (if "Local".toList = "Local".toList then _ else _) = _
    rw [if_pos rfl, atKey_eq]
    refine under_congr fun v hv => ?_
    rw [hli' v hv]
    show PyVal.dict _ = PyVal.dict _
    dsimp only
    rw [popAll_eq (documented_nodup ((doc_local i).out li hli))]
    rw [without_congr]
    intro k hk'
    have := hk.1.subset hk'
    clear hk'
    revert this k
    decide
  | network =>
    have hk := (some_network i).out li hli
    show (if "Network".toList = "Local".toList then _ else if "Network".toList = "Network".toList then _ else _) = _
    rw [if_neg (by decide), if_pos rfl, atKey_eq]
    refine under_congr fun v hv => ?_
    rw [hli' v hv]
    show PyVal.dict _ = PyVal.dict _
    dsimp only
    rw [popAll_eq (documented_nodup ((doc_network i).out li hli))]
    rw [without_congr]
    intro k hk'
    have := hk.1.subset hk'
    clear hk'
    revert this k
    decide

theorem pruneTarget_eq {f : LnkFile} {t : Dict} (h : f.jsonTarget.res = .ok (some t)) :
    pruneTarget t = under "items" (onList (onDict (without ["modification_time"]))) (without ["size", "index"] t) := by
  have hd := f.doc_target.out _ h t rfl
  unfold pruneTarget
  rw [popAll_eq (documented_nodup hd)]
  have : without ["index", "size"] t = without ["size", "index"] t := without_congr fun k _ => by simp [or_comm]
  rw [this]
  unfold under
  apply List.map_congr_left
  rintro ⟨k, v⟩ hkv
  by_cases hk : k = "items"
  · simp only [hk, if_true]
    have hv : Documented v := by
      have := hd.2
      rw [DocumentedEntries_iff] at this
      exact (this _ ((List.mem_filter.1 hkv).1)).1
    cases v <;> try rfl
    rename_i l
    show ("items", PyVal.list _) = ("items", PyVal.list _)
    congr 2
    apply List.map_congr_left
    intro u hu
    rw [documented_list] at hv
    have hu := hv u hu
    cases u <;> try rfl
    rename_i e
    show PyVal.dict _ = PyVal.dict _
    congr 1
    exact popAll_eq (documented_nodup hu) ["modification_time"]
  · simp only [hk, if_false]

theorem getJson_false (f : LnkFile) : f.getJson false = reduced <$> f.getJson true := by
  unfold getJson
  simp only [map_bind, map_pure]
  refine Py.bind_congr_ok fun header hh => Py.bind_congr_ok fun target ht => Py.bind_congr_ok fun info hi =>
    Py.bind_congr_ok fun extra he => ?_
  congr 1
  simp only [Bool.false_eq_true, if_false, if_true]
  have h1 : pruneHeader header = without ["header_size", "reserved0", "reserved1", "reserved2"] header :=
    popAll_eq ((f.doc_header.out header hh).1.nodup headerKeys_nodup) _
  rw [h1, pruneInfo_eq hi]
  rcases target with _ | t
  · rfl
  · have := pruneTarget_eq ht
    simp only [Option.map_some, Option.toList_some, List.map_cons, List.map_nil, this]
    rfl

end LnkFile

end Verif
