import Verif.Lemmas.Bare
import Verif.Lemmas.Info

/-
What the readable form of a location tells.
-/

namespace Verif

open Spec

namespace Dict

theorem set_set (d : Dict) (x : String) (v w : PyVal) : set (set d x v) x w = set d x w := by
  induction d with
  | nil => simp [set]
  | cons kv d ih =>
    obtain ⟨k, u⟩ := kv
    by_cases h : k = x
    · simp [set, h]
    · simp [set, h, ih]

theorem set_comm (d : Dict) {x y : String} (u w : PyVal) (hx : x ∈ d.keys) (h : y ≠ x) :
    set (set d y u) x w = set (set d x w) y u := by
  induction d with
  | nil => simp [keys] at hx
  | cons kv d ih =>
    obtain ⟨k, v⟩ := kv
    by_cases h1 : k = x
    · subst h1
      simp [set, Ne.symm h]
    · have hx' : x ∈ keys d := by
        simp only [keys, List.map_cons, List.mem_cons] at hx
        exact hx.resolve_left (Ne.symm h1)
      by_cases h2 : k = y
      · subst h2
        simp [set, h]
      · simp [set, h1, h2, ih hx']

end Dict

namespace LnkFile

theorem set_relabel (g : String → String) (b res : Dict) (x : String) (w : PyVal) (hx : x ∈ res.keys) (hb : ∀ kv ∈ b, g kv.1 ≠ x) :
    (relabel g b res).set x w = relabel g b (res.set x w) := by
  unfold relabel
  induction b generalizing res with
  | nil => rfl
  | cons kv b ih =>
    rw [List.foldl_cons, List.foldl_cons, ih _ _ fun y hy => hb y (List.mem_cons_of_mem _ hy),
      Dict.set_comm _ _ _ hx (hb kv (by simp))]
    rw [Dict.keys_set]
    split
    · exact hx
    · exact List.mem_append_left _ hx

/-- A raw entry and, later, the plain one: the plain one in the place of the raw one. -/
theorem relabel_pair (g : String → String) (a b c : Dict) {r k : String} (v w : PyVal) (hr : g r = g k) (hb : ∀ kv ∈ b, g kv.1 ≠ g k) :
    relabel g (a ++ (r, v) :: (b ++ (k, w) :: c)) [] = relabel g (a ++ (k, w) :: (b ++ c)) [] := by
  have hcons : ∀ (x : String) (v : PyVal) (l res : Dict), relabel g ((x, v) :: l) res = relabel g l (res.set (g x) v) :=
    fun _ _ _ _ => rfl
  rw [relabel_append, relabel_append, hcons, hcons, relabel_append, relabel_append, hcons, hr, set_relabel g b _ _ _ _ hb,
    Dict.set_set]
  rw [Dict.keys_set]
  split
  · rename_i h
    exact h
  · exact List.mem_append_right _ (by simp)

/-- The readable form of a dictionary without class. -/
theorem niceVal_relabel (d : Dict) (hl : ∀ k ∈ d.keys, k ≠ "" ∧ k ≠ "class" ∧ niceId k false = label k) :
    niceVal (.dict d) = .dict (relabel label (d.map fun kv => (kv.1, niceVal kv.2)) []) := by
  have hg : Dict.get? d "class" = none := (Dict.get?_none_iff d _).2 fun h => (hl _ h).2.1 rfl
  have hf : d.filter (fun kv => kv.1 ≠ "") = d := by
    rw [List.filter_eq_self]
    intro kv hkv
    simpa using (hl _ (List.mem_map_of_mem hkv)).1
  rw [niceVal, hg]
  simp only
  rw [niceDictGo_eq, filter_niceEntries, hf, relabel_congr _ label]
  intro k hk
  unfold Dict.keys at hk
  rw [List.map_map] at hk
  exact (hl k hk).2.2

/-! ### locations -/

def localKeys : List String := ["volume_id_size", "r_drive_type", "volume_label_offset", "drive_serial_number", "drive_type",
  "volume_label", "volume_label_unicode_offset", "volume_label_unicode"]

def networkKeys : List String := ["common_network_relative_link_size", "common_network_relative_link_flags", "net_name_offset",
  "device_name_offset", "r_network_provider_type", "network_provider_type", "net_name_offset_unicode", "net_name_unicode",
  "device_name_offset_unicode", "device_name_unicode", "net_name", "device_name"]

/-- Some of the keys, values that can be read back. -/
def Few (keys : List String) (d : Dict) : Prop := (d.map Prod.fst).Sublist keys ∧ BareEntries d

def volumeTail (n : Option String) (sn : Str) (vl : PyVal) (e : Dict) : Dict :=
  ("drive_serial_number", .str sn) :: ("drive_type", PyVal.opt .lit n) :: ("volume_label", vl) :: e

/-- A local location. -/
def volumeDict (a b e : Dict) (rd : Nat) (sn : Str) (vl : PyVal) : Dict :=
  a ++ ("r_drive_type", .nat rd) :: (b ++ volumeTail LnkInfo.DRIVE_TYPES[rd]? sn vl e)

/-- The same without `r_`. -/
def bareVolume (a b e : Dict) (rd : Nat) (sn : Str) (vl : PyVal) : Dict :=
  a ++ ("drive_type", PyVal.opt .lit LnkInfo.DRIVE_TYPES[rd]?) :: (b ++ ("drive_serial_number", .str sn) :: ("volume_label", vl) :: e)

/-- A network location. -/
def netDict (a e : Dict) (rp : Str) (p : Option String) : Dict :=
  a ++ ("r_network_provider_type", .str rp) :: (p.toList.map (fun s => ("network_provider_type", .lit s)) ++ e)

/-- The same without `r_`. -/
def bareNet (a e : Dict) (rp : Str) (p : Option String) : Dict :=
  a ++ ("network_provider_type", (p.map PyVal.lit).getD (.str rp)) :: e

theorem few_nil (ks : List String) : Few ks [] := ⟨by simp, trivial⟩

theorem few_append {ks ls : List String} {d e : Dict} (hd : Few ks d) (he : Few ls e) : Few (ks ++ ls) (d ++ e) :=
  ⟨by rw [List.map_append]; exact hd.1.append he.1, (BareEntries_append _ _).2 ⟨hd.2, he.2⟩⟩

theorem few_cons {ks : List String} {d : Dict} {k : String} {v : PyVal} (hv : Bare v) (hk : k ≠ "class") (hd : Few ks d) :
    Few (k :: ks) ((k, v) :: d) := ⟨by rw [List.map_cons]; exact hd.1.cons_cons _, hv, classOk_ne hk, hd.2⟩

theorem few_mem {ks : List String} {d : Dict} (h : Few ks d) {k : String} (hk : k ∈ d.keys) : k ∈ ks := h.1.subset hk

theorem few_nodup {ks : List String} {d : Dict} (h : Few ks d) (hn : ks.Nodup) : d.keys.Nodup := h.1.nodup hn

/-- Keys among those without `r_`, `class` and `file_entry`. -/
theorem bare_few {ks : List String} {d : Dict} (h : Few ks d) (hn : ks.Nodup)
    (hk : ∀ k ∈ ks, k ∈ bareKeys ∧ k ≠ "class" ∧ k ≠ "file_entry") : Bare (.dict d) := by
  refine ⟨⟨h.1.nodup hn, fun k hk' => (hk k (h.1.subset hk')).1, fun h' => ?_, fun h' => ?_⟩, h.2⟩
  · exact (hk _ (h.1.subset (List.mem_of_mem_tail h'))).2.1 rfl
  · exact absurd rfl (hk _ (h.1.subset h')).2.2

/-- Parts of a local location. -/
structure VolumeParts (all : Bool) (a b e : Dict) (vl : PyVal) : Prop where
  fa : Few ["volume_id_size"] a
  fb : Few ["volume_label_offset"] b
  fe : Few ["volume_label_unicode_offset", "volume_label_unicode"] e
  fl : Bare vl
  lengths : a.length = (if all then 1 else 0) ∧ b.length = (if all then 1 else 0)

/-- Parts of a network location. -/
structure NetParts (all : Bool) (a e : Dict) (rp : Str) (p : Option String) : Prop where
  fa : Few ["common_network_relative_link_size", "common_network_relative_link_flags", "net_name_offset", "device_name_offset"] a
  fe : Few ["net_name_offset_unicode", "net_name_unicode", "device_name_offset_unicode", "device_name_unicode", "net_name",
    "device_name"] e
  name : (p = none ∧ rp.head? = some '0') ∨ ∃ kv ∈ LnkInfo.NETWORK_PROVIDER_TYPES, rp = kv.1.toList ∧ p = some kv.2
  length : a.length = if all then 4 else 1

theorem location_labels : ∀ k ∈ localKeys ++ networkKeys, k ≠ "" ∧ k ≠ "class" ∧ niceId k false = label k := by decide +kernel

section volume

variable {all : Bool} {a b e : Dict} {rd : Nat} {sn : Str} {vl : PyVal}

theorem few_volume (h : VolumeParts all a b e vl) : Few localKeys (volumeDict a b e rd sn vl) :=
  few_append h.fa (few_cons (by simp) (by decide) (few_append h.fb (few_cons (by simp) (by decide) (few_cons (by simp) (by decide)
    (few_cons h.fl (by decide) h.fe)))))

theorem few_bareVolume (h : VolumeParts all a b e vl) : Few ["volume_id_size", "drive_type", "volume_label_offset",
    "drive_serial_number", "volume_label", "volume_label_unicode_offset", "volume_label_unicode"] (bareVolume a b e rd sn vl) :=
  few_append h.fa (few_cons (by simp) (by decide) (few_append h.fb (few_cons (by simp) (by decide) (few_cons h.fl (by decide) h.fe))))

theorem bare_volume (h : VolumeParts all a b e vl) : Bare (.dict (bareVolume a b e rd sn vl)) :=
  bare_few (few_bareVolume h) (by decide +kernel) (by decide +kernel)

theorem nice_volume (h : VolumeParts all a b e vl) :
    niceVal (.dict (volumeDict a b e rd sn vl)) = niceVal (.dict (bareVolume a b e rd sn vl)) := by
  have hl : ∀ k ∈ Dict.keys (bareVolume a b e rd sn vl), k ∈ localKeys := by
    intro k hk
    have := few_mem (few_bareVolume h) hk
    clear hk
    revert k
    decide +kernel
  rw [niceVal_relabel _ fun k hk => location_labels k (List.mem_append_left _ (few_mem (few_volume h) hk)),
    niceVal_relabel _ fun k hk => location_labels k (List.mem_append_left _ (hl k hk))]
  unfold volumeDict bareVolume volumeTail
  simp only [List.map_append, List.map_cons]
  have := relabel_pair label (a.map fun kv => (kv.1, niceVal kv.2))
    (b.map (fun kv => (kv.1, niceVal kv.2)) ++ [("drive_serial_number", niceVal (.str sn))])
    (("volume_label", niceVal vl) :: e.map fun kv => (kv.1, niceVal kv.2)) (r := "r_drive_type") (k := "drive_type")
    (niceVal (.nat rd)) (niceVal (PyVal.opt .lit LnkInfo.DRIVE_TYPES[rd]?)) (by decide +kernel) ?_
  · simpa only [List.append_assoc, List.cons_append, List.nil_append] using congrArg PyVal.dict this
  · intro kv hkv
    rcases List.mem_append.1 hkv with hkv | hkv
    · obtain ⟨x, hx, rfl⟩ := List.mem_map.1 hkv
      have := few_mem h.fb (List.mem_map_of_mem hx)
      rw [List.mem_singleton.1 this]
      decide +kernel
    · rw [List.mem_singleton.1 hkv]
      show label "drive_serial_number" ≠ label "drive_type"
      decide +kernel

theorem drive_types_inj {n m : Nat} {s : String} (hn : LnkInfo.DRIVE_TYPES[n]? = some s) (hm : LnkInfo.DRIVE_TYPES[m]? = some s) : n = m :=
  (List.getElem?_inj (List.getElem?_eq_some_iff.1 hn).1 (by decide +kernel)).1 (hn.trans hm.symm)

theorem told_volume (h : VolumeParts all a b e vl) : toldLocation (volumeDict a b e rd sn vl) =
    if LnkInfo.DRIVE_TYPES[rd]? = none then a ++ (b ++ volumeTail none sn vl e) else volumeDict a b e rd sn vl := by
  have hg : Dict.get? (volumeDict a b e rd sn vl) "drive_type" = some (PyVal.opt .lit LnkInfo.DRIVE_TYPES[rd]?) := by
    refine Dict.get?_of_mem (few_nodup (few_volume h) (by decide +kernel)) ?_
    simp [volumeDict, volumeTail]
  unfold toldLocation
  rw [hg]
  rcases hd : LnkInfo.DRIVE_TYPES[rd]? with _ | s
  · rw [if_pos rfl]
    simp only [PyVal.opt]
    unfold volumeDict without
    have hab : ∀ (ks : List String) (d : Dict), Few ks d → "r_drive_type" ∉ ks → d.filter (fun kv => kv.1 ∉ ["r_drive_type"]) = d := by
      intro ks d hd hk
      rw [List.filter_eq_self]
      intro kv hkv
      have := few_mem hd (List.mem_map_of_mem hkv)
      have : kv.1 ≠ "r_drive_type" := fun e => hk (e ▸ this)
      simpa using this
    rw [List.filter_append, List.filter_cons_of_neg (by simp), List.filter_append, hab _ _ h.fa (by decide), hab _ _ h.fb (by decide), hd]
    unfold volumeTail
    rw [hab _ _ (few_cons (by simp) (by decide) (few_cons (by simp) (by decide) (few_cons h.fl (by decide) h.fe))) (by decide)]
  · rw [if_neg (by simp)]
    rfl

end volume

theorem opt_lit_inj {o o' : Option String} : PyVal.opt .lit o = PyVal.opt .lit o' ↔ o = o' := by
  cases o <;> cases o' <;> simp [PyVal.opt, PyVal.lit, String.toList_inj]

theorem volume_same {all : Bool} {a b e a' b' e' : Dict} {rd rd' : Nat} {sn sn' : Str} {vl vl' : PyVal} (h : VolumeParts all a b e vl)
    (h' : VolumeParts all a' b' e' vl') : bareVolume a b e rd sn vl = bareVolume a' b' e' rd' sn' vl' ↔
      toldLocation (volumeDict a b e rd sn vl) = toldLocation (volumeDict a' b' e' rd' sn' vl') := by
  have la : a.length = a'.length := h.lengths.1.trans h'.lengths.1.symm
  have lb : b.length = b'.length := h.lengths.2.trans h'.lengths.2.symm
  rw [told_volume h, told_volume h']
  constructor
  · intro he
    obtain ⟨e1, e2⟩ := List.append_inj he la
    simp only [List.cons.injEq, Prod.mk.injEq, true_and] at e2
    obtain ⟨e3, e4⟩ := List.append_inj e2.2 lb
    simp only [List.cons.injEq, Prod.mk.injEq, true_and, PyVal.str.injEq] at e4
    obtain ⟨e5, e6, e7⟩ := e4
    have e8 := opt_lit_inj.1 e2.1
    subst e1 e3 e5 e6 e7
    rcases hd : LnkInfo.DRIVE_TYPES[rd]? with _ | s
    · rw [← e8, hd, if_pos rfl, if_pos rfl]
    · rw [drive_types_inj hd (e8 ▸ hd), ← e8, hd]
  · intro he
    have key : ∀ {a b e : Dict} {rd : Nat} {sn : Str} {vl : PyVal}, VolumeParts all a b e vl →
        "r_drive_type" ∉ Dict.keys (a ++ (b ++ volumeTail none sn vl e)) ∧ "r_drive_type" ∈ Dict.keys (volumeDict a b e rd sn vl) := by
      intro a b e rd sn vl h
      constructor
      · intro hk
        have := few_mem (few_append h.fa (few_append h.fb (few_cons (by simp) (by decide) (few_cons (by simp) (by decide)
          (few_cons h.fl (by decide) h.fe))))) hk
        revert this
        decide +kernel
      · simp [Dict.keys, volumeDict]
    have fin : ∀ {n n' : Option String}, b ++ volumeTail n sn vl e = b' ++ volumeTail n' sn' vl' e' →
        b = b' ∧ n = n' ∧ sn = sn' ∧ vl = vl' ∧ e = e' := by
      intro n n' h
      obtain ⟨e1, e2⟩ := List.append_inj h lb
      simp only [volumeTail, List.cons.injEq, Prod.mk.injEq, true_and, PyVal.str.injEq] at e2
      exact ⟨e1, opt_lit_inj.1 e2.2.1, e2.1, e2.2.2.1, e2.2.2.2⟩
    split at he <;> split at he
    · rename_i hn hn'
      obtain ⟨e1, e2⟩ := List.append_inj he la
      obtain ⟨e3, -, e4, e5, e6⟩ := fin e2
      unfold bareVolume
      rw [hn, hn', e1, e3, e4, e5, e6]
    · exact absurd (he ▸ (key h').2) (key (rd := rd) h).1
    · exact absurd (he ▸ (key h).2) (key (rd := rd') h').1
    · obtain ⟨e1, e2⟩ := List.append_inj he la
      simp only [List.cons.injEq] at e2
      obtain ⟨e3, e7, e4, e5, e6⟩ := fin e2.2
      unfold bareVolume
      rw [e1, e3, e4, e5, e6, e7]

/-! ### network locations -/

section net

variable {all : Bool} {a e : Dict} {rp : Str} {p : Option String}

theorem few_net (h : NetParts all a e rp p) : Few networkKeys (netDict a e rp p) := by
  have hp : Few ["network_provider_type"] (p.toList.map fun s => ("network_provider_type", PyVal.lit s)) := by
    cases p
    · exact few_nil _
    · exact few_cons (by simp) (by decide) (few_nil _)
  exact few_append h.fa (few_cons (by simp) (by decide) (few_append hp h.fe))

theorem few_bareNet (h : NetParts all a e rp p) : Few (networkKeys.erase "r_network_provider_type") (bareNet a e rp p) :=
  few_append h.fa (few_cons (by cases p <;> simp) (by decide) h.fe)

theorem bare_net (h : NetParts all a e rp p) : Bare (.dict (bareNet a e rp p)) :=
  bare_few (few_bareNet h) (by decide +kernel) (by decide +kernel)

theorem nice_net (h : NetParts all a e rp p) : niceVal (.dict (netDict a e rp p)) = niceVal (.dict (bareNet a e rp p)) := by
  rw [niceVal_relabel _ fun k hk => location_labels k (List.mem_append_right _ (few_mem (few_net h) hk)),
    niceVal_relabel _ fun k hk => location_labels k (List.mem_append_right _ (List.mem_of_mem_erase (few_mem (few_bareNet h) hk)))]
  unfold netDict bareNet
  have hr : label "r_network_provider_type" = label "network_provider_type" := by decide +kernel
  rcases p with _ | s
  · simp only [List.map_append, List.map_cons, Option.toList_none, List.map_nil, List.nil_append, Option.map_none, Option.getD_none]
    rw [relabel_append, relabel_append]
    unfold relabel
    rw [List.foldl_cons, List.foldl_cons, hr]
  · simp only [List.map_append, List.map_cons, Option.toList_some, List.map_nil, Option.map_some, Option.getD_some]
    have := relabel_pair label (a.map fun kv => (kv.1, niceVal kv.2)) [] (e.map fun kv => (kv.1, niceVal kv.2)) (niceVal (.str rp))
      (niceVal (.lit s)) hr (by simp)
    exact congrArg PyVal.dict this

theorem told_net (h : NetParts all a e rp p) : toldLocation (netDict a e rp p) = netDict a e rp p := by
  have : Dict.get? (netDict a e rp p) "drive_type" = none := by
    rw [Dict.get?_none_iff]
    intro hk
    have := few_mem (few_net h) hk
    revert this
    decide +kernel
  unfold toldLocation
  rw [this]

end net

theorem provider_names : (LnkInfo.NETWORK_PROVIDER_TYPES.map Prod.snd).Nodup ∧
    ∀ kv ∈ LnkInfo.NETWORK_PROVIDER_TYPES, kv.2.toList.head? ≠ some '0' := by decide +kernel

theorem net_same {all : Bool} {a e a' e' : Dict} {rp rp' : Str} {p p' : Option String} (h : NetParts all a e rp p)
    (h' : NetParts all a' e' rp' p') : bareNet a e rp p = bareNet a' e' rp' p' ↔
      toldLocation (netDict a e rp p) = toldLocation (netDict a' e' rp' p') := by
  have la : a.length = a'.length := h.length.trans h'.length.symm
  rw [told_net h, told_net h']
  constructor
  · intro he
    obtain ⟨e1, e2⟩ := List.append_inj he la
    simp only [List.cons.injEq, Prod.mk.injEq, true_and] at e2
    obtain ⟨e2, e3⟩ := e2
    subst e1 e3
    rcases h.name with ⟨rfl, hn⟩ | ⟨kv, hkv, rfl, rfl⟩ <;> rcases h'.name with ⟨rfl, hn'⟩ | ⟨kv', hkv', rfl, rfl⟩ <;>
      simp only [Option.map_none, Option.map_some, Option.getD_none, Option.getD_some, PyVal.lit, PyVal.str.injEq,
        String.toList_inj] at e2
    · rw [e2]
    · exact absurd (e2 ▸ hn) (provider_names.2 kv' hkv')
    · exact absurd (e2 ▸ hn') (provider_names.2 kv hkv)
    · rw [List.inj_on_of_nodup_map provider_names.1 hkv hkv' e2]
  · intro he
    obtain ⟨e1, e2⟩ := List.append_inj he la
    simp only [List.cons.injEq, Prod.mk.injEq, true_and, PyVal.str.injEq] at e2
    obtain ⟨e2, e3⟩ := e2
    subst e1 e2
    have key : ∀ {a e : Dict} {p : Option String} (l : Dict) (s : String), NetParts all a e rp p →
        e ≠ ("network_provider_type", .lit s) :: l := by
      rintro a e p l s h rfl
      have := few_mem h.fe (k := "network_provider_type") (by simp [Dict.keys])
      revert this
      decide +kernel
    rcases p with _ | s <;> rcases p' with _ | s' <;>
      simp only [Option.toList_none, Option.toList_some, List.map_nil, List.map_cons, List.nil_append, List.cons_append] at e3
    · rw [e3]
    · exact absurd e3 (key _ _ h)
    · exact absurd e3.symm (key _ _ h')
    · simp only [List.cons.injEq, Prod.mk.injEq, true_and, PyVal.lit, PyVal.str.injEq, String.toList_inj] at e3
      rw [e3.1, e3.2]

/-! ### the model -/

/-- The location as it stands in the tree. -/
def LocShape (all : Bool) : InfoClass → Dict → Prop
  | .local, li => ∃ a b e rd sn vl, VolumeParts all a b e vl ∧ li = volumeDict a b e rd sn vl
  | .network, li => ∃ a e rp p, NetParts all a e rp p ∧ li = netDict a e rp p

theorem few_entryIf {b : Bool} {x : Py Dict} {keys : List String} (hx : Py.Ret (Few keys) x) : Py.Ret (Few keys) (entryIf b x) := by
  constructor
  intro d hd
  rcases entryIf_ok hd with rfl | hd
  · exact few_nil _
  · exact hx.out d hd

macro "few" : tactic => `(tactic|
  (refine few_entryIf ?_
   ret
   all_goals repeat (refine few_cons (by simp) (by decide) ?_)
   all_goals exact few_nil _))

theorem local_shape {i : LnkInfo} {li : Dict} (h : (jsonLocal i).res = .ok li) : LocShape true .local li := by
  unfold jsonLocal at h
  simp only [Py.bind_ok_iff, Py.pure_res, Except.ok.injEq] at h
  obtain ⟨vs, -, rd, hrd, vo, -, sn, -, d, hd, vl, -, uo, -, e, he, rfl⟩ := h
  have he : Few ["volume_label_unicode_offset", "volume_label_unicode"] e := Py.Ret.out (by few) e he
  unfold LnkInfo.driveType at hd
  simp only [Py.bind_ok_iff, hrd, Py.pure_res, Except.ok.injEq, exists_eq_left'] at hd
  subst hd
  exact ⟨[("volume_id_size", .nat vs)], [("volume_label_offset", .nat vo)], e, rd, sn, _,
    ⟨few_cons (by simp) (by decide) (few_nil _), few_cons (by simp) (by decide) (few_nil _), he, by simp, by simp⟩, rfl⟩

theorem network_shape {i : LnkInfo} {li : Dict} (h : (jsonNetwork i).res = .ok li) : LocShape true .network li := by
  unfold jsonNetwork at h
  simp only [Py.bind_ok_iff, Py.pure_res, Except.ok.injEq] at h
  obtain ⟨cs, -, cf, -, no, -, dno, -, rp, hrp, p, hp, e1, h1, nu, -, e2, h2, du, -, e3, h3, nn, -, e4, h4, dn, -, e5, h5, rfl⟩ := h
  have h2 : Few ["net_name_offset_unicode", "net_name_unicode"] e2 := Py.Ret.out (by few) e2 h2
  have h3 : Few ["device_name_offset_unicode", "device_name_unicode"] e3 := Py.Ret.out (by few) e3 h3
  have h4 : Few ["net_name"] e4 := Py.Ret.out (by few) e4 h4
  have h5 : Few ["device_name"] e5 := Py.Ret.out (by few) e5 h5
  have h1 : e1 = p.toList.map fun s => ("network_provider_type", .lit s) := by
    unfold entryIf at h1
    rcases p with _ | s
    · simpa using h1.symm
    · rw [if_pos (by simp), Py.bind_ok_iff] at h1
      obtain ⟨p, hp', h1⟩ := h1
      rw [hp, Except.ok.injEq] at hp'
      subst hp'
      simp only [Py.pure_res, Except.ok.injEq] at h1
      exact h1.symm
  subst h1
  refine ⟨[("common_network_relative_link_size", .nat cs), ("common_network_relative_link_flags", .nat cf),
    ("net_name_offset", .nat no), ("device_name_offset", .nat dno)], e2 ++ e3 ++ e4 ++ e5, rp, p, ⟨?_, ?_, ?_, rfl⟩, ?_⟩
  · iterate 4 refine few_cons (by simp) (by decide) ?_
    exact few_nil _
  · exact few_append (few_append (few_append h2 h3) h4) h5
  · have hh : rp.head? = some '0' := by
      unfold LnkInfo.rNetworkProviderType at hrp
      simp only [Py.bind_ok_iff, Py.pure_res, Except.ok.injEq] at hrp
      obtain ⟨_, -, _, -, rfl⟩ := hrp
      rfl
    rcases p with _ | s
    · exact .inl ⟨rfl, hh⟩
    · right
      unfold LnkInfo.networkProviderType at hp
      rw [Py.bind_ok_iff] at hp
      obtain ⟨f, -, hp⟩ := hp
      split at hp
      · simp at hp
      · simp only [Py.bind_ok_iff, hrp, Py.pure_res, Except.ok.injEq, exists_eq_left', Option.map_eq_some_iff] at hp
        obtain ⟨kv, hkv, rfl⟩ := hp
        exact ⟨kv, List.mem_of_find?_eq_some hkv, by simpa using Eq.symm (by simpa using List.find?_some hkv), rfl⟩
  · unfold netDict
    simp

/-- The keys of locations left out of the reduced report. -/
def hiddenLocation : List String := ["volume_id_size", "volume_label_offset",
              "common_network_relative_link_size", "net_name_offset", "device_name_offset"]

theorem few_without {ks : List String} {d : Dict} (h : Few ks d) (l : List String) : Few ks (without l d) := by
  unfold without
  refine ⟨(List.filter_sublist.map _).trans h.1, ?_⟩
  have := h.2
  rw [BareEntries_iff] at *
  exact fun kv hkv => this kv (List.mem_filter.1 hkv).1

theorem without_length (l : List String) (d : Dict) : (without l d).length = ((d.map Prod.fst).filter (· ∉ l)).length := by
  unfold without
  rw [List.filter_map, List.length_map]
  rfl

theorem without_few {ks : List String} {d : Dict} (h : Few ks d) {l : List String} (hl : ∀ k ∈ ks, k ∉ l) : without l d = d := by
  unfold without
  rw [List.filter_eq_self]
  intro kv hkv
  simpa using hl _ (few_mem h (List.mem_map_of_mem hkv))

theorem shape_reduced {c : InfoClass} {li : Dict} (h : LocShape true c li) : LocShape false c (without hiddenLocation li) := by
  have happ : ∀ a b : Dict, without hiddenLocation (a ++ b) = without hiddenLocation a ++ without hiddenLocation b := fun a b => by
    unfold without
    exact List.filter_append ..
  have hcons : ∀ (k : String) (v : PyVal) (d : Dict), k ∉ hiddenLocation →
      without hiddenLocation ((k, v) :: d) = (k, v) :: without hiddenLocation d := fun k v d hk => by
    unfold without
    exact List.filter_cons_of_pos (by simpa using hk)
  cases c with
  | «local» =>
    obtain ⟨a, b, e, rd, sn, vl, h, rfl⟩ := h
    have ka := h.fa.1.eq_of_length (by rw [List.length_map]; exact h.lengths.1)
    have kb := h.fb.1.eq_of_length (by rw [List.length_map]; exact h.lengths.2)
    refine ⟨without hiddenLocation a, without hiddenLocation b, e, rd, sn, vl,
      ⟨few_without h.fa _, few_without h.fb _, h.fe, h.fl, ?_, ?_⟩, ?_⟩
    · rw [without_length, ka]
      decide +kernel
    · rw [without_length, kb]
      decide +kernel
    · unfold volumeDict volumeTail
      rw [happ, hcons _ _ _ (by decide), happ, hcons _ _ _ (by decide), hcons _ _ _ (by decide), hcons _ _ _ (by decide),
        without_few h.fe (by decide)]
  | network =>
    obtain ⟨a, e, rp, p, h, rfl⟩ := h
    have ka := h.fa.1.eq_of_length (by rw [List.length_map]; exact h.length)
    refine ⟨without hiddenLocation a, e, rp, p, ⟨few_without h.fa _, h.fe, h.name, ?_⟩, ?_⟩
    · rw [without_length, ka]
      decide +kernel
    · unfold netDict
      have hp : without hiddenLocation (p.toList.map fun s => ("network_provider_type", PyVal.lit s)) =
          p.toList.map fun s => ("network_provider_type", PyVal.lit s) := by
        cases p
        · rfl
        · exact hcons _ _ [] (by decide)
      rw [happ, hcons _ _ _ (by decide), happ, hp, without_few h.fe (by decide)]

/-- The location without `r_` keys, as it is shown. -/
theorem loc_bare {all : Bool} {c : InfoClass} {li : Dict} (h : LocShape all c li) :
    ∃ b, Bare (.dict b) ∧ niceVal (.dict li) = niceVal (.dict b) := by
  cases c with
  | «local» =>
    obtain ⟨a, b, e, rd, sn, vl, h, rfl⟩ := h
    exact ⟨_, bare_volume h, nice_volume h⟩
  | network =>
    obtain ⟨a, e, rp, p, h, rfl⟩ := h
    exact ⟨_, bare_net h, nice_net h⟩

/-- What the readable form of a location tells. -/
theorem loc_same {all : Bool} {c : InfoClass} {li li' : Dict} (h : LocShape all c li) (h' : LocShape all c li') :
    niceVal (.dict li) = niceVal (.dict li') ↔ toldLocation li = toldLocation li' := by
  cases c with
  | «local» =>
    obtain ⟨a, b, e, rd, sn, vl, h, rfl⟩ := h
    obtain ⟨a', b', e', rd', sn', vl', h', rfl⟩ := h'
    rw [← volume_same h h', nice_volume h, nice_volume h']
    refine ⟨fun e => ?_, fun e => by rw [e]⟩
    simpa using niceVal_inj _ _ (bare_volume h) (bare_volume h') e
  | network =>
    obtain ⟨a, e, rp, p, h, rfl⟩ := h
    obtain ⟨a', e', rp', p', h', rfl⟩ := h'
    rw [← net_same h h', nice_net h, nice_net h']
    refine ⟨fun e => ?_, fun e => by rw [e]⟩
    simpa using niceVal_inj _ _ (bare_net h) (bare_net h') e

/-! ### link info -/

def infoKeys1 : List String := ["link_info_size", "link_info_header_size", "link_info_flags", "volume_id_offset",
  "local_base_path_offset", "common_network_relative_link_offset", "common_path_suffix_offset", "local_base_path",
  "common_path_suffix", "local_base_path_offset_unicode", "local_base_path_unicode", "common_path_suffix_offset_unicode",
  "common_path_suffix_unicode"]

def infoDict (pre li : Dict) (c : InfoClass) : Dict := pre ++ [("location_info", .dict li), ("location", .lit (locationName c))]

def InfoShape (all : Bool) (d : Dict) : Prop := d = [] ∨ ∃ pre li c, Few infoKeys1 pre ∧ LocShape all c li ∧ d = infoDict pre li c

theorem info_shape {f : LnkFile} {d : Dict} (h : f.jsonInfo.res = .ok d) : InfoShape true d := by
  unfold jsonInfo at h
  split at h
  · simp only [Py.pure_res, Except.ok.injEq] at h
    exact .inl h.symm
  · rename_i c i hi
    right
    simp only [Py.bind_ok_iff] at h
    obtain ⟨_, -, _, -, _, -, _, -, _, -, _, -, _, -, e1, h1, e2, h2, _, -, e3, h3, _, -, e4, h4, h⟩ := h
    have h1 : Few ["local_base_path"] e1 := Py.Ret.out (by few) e1 h1
    have h2 : Few ["common_path_suffix"] e2 := Py.Ret.out (by few) e2 h2
    have h3 : Few ["local_base_path_offset_unicode", "local_base_path_unicode"] e3 := Py.Ret.out (by few) e3 h3
    have h4 : Few ["common_path_suffix_offset_unicode", "common_path_suffix_unicode"] e4 := Py.Ret.out (by few) e4 h4
    cases c with
    | «local» =>
      rw [Py.bind_ok_iff] at h
      obtain ⟨li, hli, h⟩ := h
      simp only [Py.pure_res, Except.ok.injEq] at h
      refine ⟨_, li, _, ?_, local_shape hli, h.symm⟩
      refine few_append (few_append (few_append (few_append (ks := infoKeys1.take 7) ?_ h1) h2) h3) h4
      iterate 7 refine few_cons (by simp) (by decide) ?_
      exact few_nil _
    | network =>
      rw [Py.bind_ok_iff] at h
      obtain ⟨li, hli, h⟩ := h
      simp only [Py.pure_res, Except.ok.injEq] at h
      refine ⟨_, li, _, ?_, network_shape hli, h.symm⟩
      refine few_append (few_append (few_append (few_append (ks := infoKeys1.take 7) ?_ h1) h2) h3) h4
      iterate 7 refine few_cons (by simp) (by decide) ?_
      exact few_nil _

theorem under_pre {pre : Dict} (h : Few infoKeys1 pre) (g : PyVal → PyVal) : under "location_info" g pre = pre :=
  under_absent fun hk => absurd (few_mem h hk) (by decide +kernel)

theorem under_info {pre li : Dict} {c : InfoClass} (h : Few infoKeys1 pre) (g : Dict → Dict) :
    under "location_info" (onDict g) (infoDict pre li c) = infoDict pre (g li) c := by
  have happ : ∀ a b : Dict, under "location_info" (onDict g) (a ++ b) =
      under "location_info" (onDict g) a ++ under "location_info" (onDict g) b := fun a b => by
    unfold under
    exact List.map_append ..
  unfold infoDict
  rw [happ, under_pre h]
  rfl

theorem info_reduced {f : LnkFile} {d : Dict} (h : f.jsonInfo.res = .ok d) : InfoShape false (pruneInfo d) := by
  rw [pruneInfo_eq h]
  rcases info_shape h with rfl | ⟨pre, li, c, hp, hl, rfl⟩
  · exact .inl rfl
  · right
    have e : without ["link_info_size", "link_info_header_size", "volume_id_offset", "local_base_path_offset",
        "common_network_relative_link_offset", "common_path_suffix_offset"] (infoDict pre li c) =
        infoDict (without ["link_info_size", "link_info_header_size", "volume_id_offset", "local_base_path_offset",
          "common_network_relative_link_offset", "common_path_suffix_offset"] pre) li c := by
      unfold infoDict without
      rw [List.filter_append]
      rfl
    rw [e, under_info (few_without hp _)]
    exact ⟨_, _, _, few_without hp _, shape_reduced hl, rfl⟩

/-- The link info the tree holds. -/
theorem info_shown {f : LnkFile} {d : Dict} (h : f.jsonInfo.res = .ok d) (all : Bool) : InfoShape all (if all then d else pruneInfo d) := by
  cases all
  · exact info_reduced h
  · exact info_shape h

theorem info_labels : ∀ k ∈ infoKeys1 ++ ["location_info", "location"], k ≠ "" ∧ k ≠ "class" ∧ niceId k false = label k := by
  decide +kernel

theorem nice_info {pre li b : Dict} {c : InfoClass} (h : Few infoKeys1 pre) (e : niceVal (.dict li) = niceVal (.dict b)) :
    niceVal (.dict (infoDict pre li c)) = niceVal (.dict (infoDict pre b c)) := by
  have hk : ∀ li, ∀ k ∈ Dict.keys (infoDict pre li c), k ∈ infoKeys1 ++ ["location_info", "location"] := by
    intro li k hk
    unfold infoDict Dict.keys at hk
    rw [List.map_append] at hk
    rcases List.mem_append.1 hk with hk | hk
    · exact List.mem_append_left _ (few_mem h hk)
    · exact List.mem_append_right _ hk
  rw [niceVal_relabel _ fun k hk' => info_labels k (hk _ k hk'), niceVal_relabel _ fun k hk' => info_labels k (hk _ k hk')]
  unfold infoDict
  simp only [List.map_append, List.map_cons, e]

theorem bare_info {pre b : Dict} {c : InfoClass} (h : Few infoKeys1 pre) (hb : Bare (.dict b)) : Bare (.dict (infoDict pre b c)) := by
  refine bare_few (ks := infoKeys1 ++ ["location_info", "location"]) ?_ (by decide +kernel) (by decide +kernel)
  exact few_append h (few_cons hb (by decide) (few_cons (by simp) (by decide) (few_nil _)))

/-- What the readable form of the link info tells. -/
theorem info_same {all : Bool} {d d' : Dict} (h : InfoShape all d) (h' : InfoShape all d') :
    niceVal (.dict d) = niceVal (.dict d') ↔
      under "location_info" (onDict toldLocation) d = under "location_info" (onDict toldLocation) d' := by
  have hne : ∀ {pre b : Dict} {c : InfoClass}, infoDict pre b c ≠ [] := by
    intro pre b c h
    unfold infoDict at h
    simp at h
  have hnil : Bare (.dict []) := bare_few (few_nil []) (by decide) (by simp)
  have hname : ∀ c c' : InfoClass, PyVal.lit (locationName c) = .lit (locationName c') → c = c' := by
    intro c c' e
    cases c <;> cases c' <;> first | rfl | exact absurd e (by simp [PyVal.lit, locationName])
  rcases h with rfl | ⟨pre, li, c, hp, hl, rfl⟩ <;> rcases h' with rfl | ⟨pre', li', c', hp', hl', rfl⟩
  · simp
  · obtain ⟨b, hb, e⟩ := loc_bare hl'
    rw [nice_info hp' e, under_info hp']
    refine ⟨fun e => ?_, fun e => absurd e.symm hne⟩
    have := niceVal_inj _ _ hnil (bare_info hp' hb) e
    exact absurd (PyVal.dict.inj this).symm hne
  · obtain ⟨b, hb, e⟩ := loc_bare hl
    rw [nice_info hp e, under_info hp]
    refine ⟨fun e => ?_, fun e => absurd e hne⟩
    have := niceVal_inj _ _ (bare_info hp hb) hnil e
    exact absurd (PyVal.dict.inj this) hne
  · rw [under_info hp, under_info hp']
    constructor
    · intro he
      obtain ⟨b, hb, e⟩ := loc_bare hl
      obtain ⟨b', hb', e'⟩ := loc_bare hl'
      rw [nice_info hp e, nice_info hp' e'] at he
      have := PyVal.dict.inj (niceVal_inj _ _ (bare_info hp hb) (bare_info hp' hb') he)
      unfold infoDict at this
      obtain ⟨e1, e2⟩ := List.append_inj' this rfl
      simp only [List.cons.injEq, Prod.mk.injEq, true_and, and_true, PyVal.dict.injEq] at e2
      obtain ⟨e2, e3⟩ := e2
      obtain rfl := hname _ _ e3
      rw [e1, (loc_same hl hl').1 (by rw [e, e', e2])]
    · intro he
      unfold infoDict at he
      obtain ⟨e1, e2⟩ := List.append_inj' he rfl
      simp only [List.cons.injEq, Prod.mk.injEq, true_and, and_true, PyVal.dict.injEq] at e2
      obtain ⟨e2, e3⟩ := e2
      obtain rfl := hname _ _ e3
      rw [e1, nice_info hp' ((loc_same hl hl').2 e2)]

end LnkFile

end Verif
