import Verif.Spec.Depth
import Verif.Props.Schema
import Verif.Props.Readable

/-
C86: how deep the report and the readable output are nested.
-/

namespace Verif.Props.Depth
open Spec Py Spec.Schema Verif.Props.Schema

/-- How many levels a dictionary counts for: `a` if it has a class. -/
def weight (a : Nat) (d : Dict) : Nat := if "class" ∈ d.keys then a else 1

/-- Like `Deep`, with weights. -/
inductive Lev (a : Nat) (x : PyVal) : Nat → PyVal → Prop
  | here : Lev a x 0 x
  | element {n : Nat} {y : PyVal} {l : List PyVal} : y ∈ l → Lev a x n y → Lev a x (n + 1) (.list l)
  | entry {n : Nat} {kv : String × PyVal} {d : Dict} : kv ∈ d → Lev a x n kv.2 → Lev a x (n + weight a d) (.dict d)

theorem weight_one (d : Dict) : weight 1 d = 1 := by
  unfold weight
  split <;> rfl

theorem lev_of_deep {x v : PyVal} {n : Nat} (h : Deep x n v) : Lev 1 x n v := by
  induction h with
  | here => exact .here
  | element hy _ ih => exact .element hy ih
  | @entry n kv d hkv _ ih =>
    have := Lev.entry hkv ih
    rwa [weight_one] at this

/-- A value of this kind has at most `k` levels. -/
def Lim (a k : Nat) (t : Ty) : Prop := ∀ v, t v → ∀ x n, Lev a x n v → n ≤ k

variable {a k : Nat}

theorem lim_text : Lim a k text := by
  rintro _ ⟨s, rfl⟩ x n h
  cases h
  exact Nat.zero_le _

theorem lim_oneOf (l : List String) : Lim a k (oneOf l) := by
  rintro _ ⟨s, -, rfl⟩ x n h
  cases h
  exact Nat.zero_le _

theorem lim_word (b : Nat) : Lim a k (word b) := by
  rintro _ ⟨s, -, rfl⟩ x n h
  cases h
  exact Nat.zero_le _

theorem lim_signed (b : Nat) : Lim a k (signed b) := by
  rintro _ ⟨s, -, -, rfl⟩ x n h
  cases h
  exact Nat.zero_le _

theorem lim_range (b c : Nat) : Lim a k (range b c) := by
  rintro _ ⟨s, -, -, rfl⟩ x n h
  cases h
  exact Nat.zero_le _

theorem lim_hex (b : Nat) : Lim a k (hex b) := by
  rintro _ ⟨s, -, rfl⟩ x n h
  cases h
  exact Nat.zero_le _

theorem lim_hex8 : Lim a k hex8 := by
  rintro _ ⟨s, -, rfl⟩ x n h
  cases h
  exact Nat.zero_le _

theorem lim_guid : Lim a k guid := by
  rintro _ ⟨s, rfl, -⟩ x n h
  cases h
  exact Nat.zero_le _

theorem lim_date : Lim a k date := by
  rintro _ ⟨s, rfl, -⟩ x n h
  cases h
  exact Nat.zero_le _

theorem lim_dosDate : Lim a k dosDate := by
  rintro _ ⟨s, rfl, -⟩ x n h
  cases h
  exact Nat.zero_le _

theorem lim_hotKey : Lim a k hotKey := by
  rintro _ ⟨_, _, rfl⟩ x n h
  cases h
  exact Nat.zero_le _

theorem lim_typeLabel : Lim a k typeLabel := by
  rintro _ ⟨_, _, _, rfl⟩ x n h
  cases h
  exact Nat.zero_le _

theorem lim_orNull {t : Ty} (ht : Lim a k t) : Lim a k (orNull t) := by
  rintro v (rfl | hv) x n h
  · cases h
    exact Nat.zero_le _
  · exact ht v hv x n h

theorem lim_listOf {t : Ty} (ht : Lim a k t) : Lim a (k + 1) (listOf t) := by
  rintro _ ⟨l, rfl, hl⟩ x n h
  cases h with
  | here => exact Nat.zero_le _
  | element hy h => exact Nat.succ_le_succ (ht _ (hl _ hy) x _ h)

theorem lim_someOf (names : List String) : Lim a (k + 1) (someOf names) := by
  rintro _ ⟨l, -, rfl⟩ x n h
  refine lim_listOf (t := text) lim_text _ ⟨_, rfl, ?_⟩ x n h
  intro y hy
  obtain ⟨s, -, rfl⟩ := List.mem_map.1 hy
  exact ⟨_, rfl⟩

theorem lim_anyOf {ts : List Ty} (hts : ∀ t ∈ ts, Lim a k t) : Lim a k (anyOf ts) := by
  rintro v ⟨t, ht, hv⟩ x n h
  exact hts t ht v hv x n h

/-- A dictionary whose values have at most `k` levels. -/
theorem lev_dict {d : Dict} (hd : ∀ kv ∈ d, ∀ x n, Lev a x n kv.2 → n ≤ k) (x : PyVal) (n : Nat) (h : Lev a x n (.dict d)) :
    n ≤ k + weight a d := by
  cases h with
  | here => exact Nat.zero_le _
  | entry hkv h => exact Nat.add_le_add_right (hd _ hkv x _ h) _

theorem weight_plain {d : Dict} (h : "class" ∉ d.keys) : weight a d = 1 := if_neg h

theorem lim_record {es : Entries} (hc : "class" ∉ es.map Prod.fst) (hes : ∀ e ∈ es, Lim a k e.2) : Lim a (k + 1) (record es) := by
  rintro _ ⟨d, rfl, hd⟩ x n h
  have hk : "class" ∉ Dict.keys d := by
    intro hm
    obtain ⟨kv, hkv, e⟩ := List.mem_map.1 hm
    obtain ⟨e', he, e2, -⟩ := fits_mem hd kv hkv
    exact hc (List.mem_map.2 ⟨e', he, e2.symm.trans e⟩)
  have := lev_dict (k := k) (fun kv hkv x n h => by
    obtain ⟨e, he, -, hv⟩ := fits_mem hd kv hkv
    exact hes e he _ hv x n h) x n h
  rwa [weight_plain hk] at this

/-- A dictionary with a class. -/
theorem lim_class {es : Entries} (ha : 1 ≤ a) (hes : ∀ e ∈ es, Lim a k e.2) : Lim a (k + a) (record es) := by
  rintro _ ⟨d, rfl, hd⟩ x n h
  have := lev_dict (k := k) (fun kv hkv x n h => by
    obtain ⟨e, he, -, hv⟩ := fits_mem hd kv hkv
    exact hes e he _ hv x n h) x n h
  have h2 : weight a d ≤ a := by
    unfold weight
    split <;> omega
  omega

theorem lim_obj {gs : List Group} (hc : ∀ g ∈ gs, "class" ∉ g.2.map Prod.fst) (hgs : ∀ g ∈ gs, ∀ e ∈ g.2, Lim a k e.2) :
    Lim a (k + 1) (obj gs) := by
  rintro _ ⟨d, rfl, hd⟩ x n h
  have hk : "class" ∉ Dict.keys d := by
    intro hm
    obtain ⟨kv, hkv, e⟩ := List.mem_map.1 hm
    obtain ⟨g, hg, e', he, e2, -⟩ := obj_mem hd kv hkv
    exact hc g hg (List.mem_map.2 ⟨e', he, e2.symm.trans e⟩)
  have := lev_dict (k := k) (fun kv hkv x n h => by
    obtain ⟨g, hg, e, he, -, hv⟩ := obj_mem hd kv hkv
    exact hgs g hg e he _ hv x n h) x n h
  rwa [weight_plain hk] at this

theorem lim_table {ts : List (String × Ty)} (hc : "class" ∉ ts.map Prod.fst) (hts : ∀ t ∈ ts, Lim a k t.2) :
    Lim a (k + 1) (table ts) := by
  rintro _ ⟨d, rfl, -, hd⟩ x n h
  have hk : "class" ∉ Dict.keys d := by
    intro hm
    obtain ⟨kv, hkv, e⟩ := List.mem_map.1 hm
    obtain ⟨t, ht, -⟩ := hd kv hkv
    exact hc (List.mem_map.2 ⟨_, ht, e⟩)
  have := lev_dict (k := k) (fun kv hkv x n h => by
    obtain ⟨t, ht, hv⟩ := hd kv hkv
    exact hts _ ht _ hv x n h) x n h
  rwa [weight_plain hk] at this

theorem lim_block {es : Entries} (hc : "class" ∉ es.map Prod.fst) (hes : ∀ e ∈ es, Lim a k e.2) : Lim a (k + 1) (block es) := by
  refine lim_record ?_ ?_
  · rw [List.map_cons, List.mem_cons, not_or]
    exact ⟨by decide, hc⟩
  · intro e he
    rcases List.mem_cons.1 he with rfl | he
    · exact lim_word _
    · exact hes e he

/-- No key is "class". -/
macro "keys" : tactic => `(tactic| (
  try simp only [need, may, List.forall_mem_cons, List.not_mem_nil, false_imp_iff, implies_true, and_true]
  simp only [List.map_cons, List.map_nil, List.mem_cons, List.not_mem_nil, or_false, not_or]
  decide))

/-- Entry by entry. -/
macro "levels" : tactic => `(tactic| repeat first
  | with_reducible assumption | exact lim_text | exact lim_oneOf _ | exact lim_word _ | exact lim_signed _ | exact lim_range _ _
  | exact lim_hex _ | exact lim_hex8 | exact lim_guid | exact lim_date | exact lim_dosDate | exact lim_hotKey | exact lim_typeLabel
  | exact lim_someOf _ | with_reducible refine lim_orNull ?_ | with_reducible refine lim_listOf ?_
  | (with_reducible refine lim_record (by keys) ?_; simp only [List.forall_mem_cons, List.not_mem_nil, false_imp_iff, implies_true, and_true])
  | (with_reducible refine lim_class (by decide) ?_; simp only [List.forall_mem_cons, List.not_mem_nil, false_imp_iff, implies_true, and_true])
  | (with_reducible refine lim_anyOf ?_; simp only [List.forall_mem_cons, List.not_mem_nil, false_imp_iff, implies_true, and_true])
  | (with_reducible refine lim_block (by keys) ?_; simp only [List.forall_mem_cons, List.not_mem_nil, false_imp_iff, implies_true, and_true])
  | (with_reducible refine lim_obj (by keys) ?_; simp only [List.forall_mem_cons, List.not_mem_nil, false_imp_iff, implies_true, and_true])
  | with_reducible refine ⟨?_, ?_⟩)

theorem lim_items1 : Lim 1 2 (anyOf (items true)) := by
  simp only [items, fileEntry, if_true, List.cons_append, List.nil_append]
  levels

theorem lim_items1' : Lim 1 2 (anyOf (items false)) := by
  simp only [items, fileEntry, if_true, Bool.false_eq_true, if_false, List.cons_append, List.nil_append]
  levels

theorem lim_items2 : Lim 2 4 (anyOf (items true)) := by
  simp only [items, fileEntry, if_true, List.cons_append, List.nil_append]
  levels

theorem lim_items2' : Lim 2 4 (anyOf (items false)) := by
  simp only [items, fileEntry, if_true, Bool.false_eq_true, if_false, List.cons_append, List.nil_append]
  levels

theorem lim_header (a : Nat) (all : Bool) : Lim a 2 (record (Spec.Schema.header all)) := by
  cases all
  all_goals
    simp only [Spec.Schema.header, if_true, Bool.false_eq_true, if_false, List.cons_append, List.nil_append, List.append_nil]
    levels

theorem lim_info (a : Nat) (all : Bool) : Lim a 2 (anyOf (info all)) := by
  cases all
  all_goals
    simp only [info, infoOf, volume, network, networkOf, if_true, Bool.false_eq_true, if_false, List.cons_append, List.nil_append]
    levels

theorem lim_target {a k : Nat} (all : Bool) (hi : Lim a k (anyOf (items all))) : Lim a (k + 2) (record (Spec.Schema.target all)) := by
  cases all
  all_goals
    simp only [Spec.Schema.target, if_true, Bool.false_eq_true, if_false, List.cons_append, List.nil_append, List.append_nil]
    levels

theorem lim_strings (a : Nat) : Lim a 1 (obj strings) := by
  simp only [strings]
  levels

theorem lim_mono {a k k' : Nat} {t : Ty} (h : Lim a k t) (hk : k ≤ k') : Lim a k' t := fun v hv x n hn => (h v hv x n hn).trans hk

theorem lim_blocks1 (most : Nat) : Lim 1 6 (table (blocks most)) := by
  have hi : Lim 1 3 (anyOf (items true)) := lim_mono lim_items1 (by decide)
  refine lim_table (by simp only [blocks]; keys) ?_
  simp only [blocks, storage, property, List.forall_mem_cons, List.not_mem_nil, false_imp_iff, implies_true, and_true]
  levels

theorem lim_blocks2 (most : Nat) : Lim 2 7 (table (blocks most)) := by
  have hi := lim_items2
  refine lim_table (by simp only [blocks]; keys) ?_
  simp only [blocks, storage, property, List.forall_mem_cons, List.not_mem_nil, false_imp_iff, implies_true, and_true]
  levels

/-- The entries of the report. -/
theorem lim_entries {a k : Nat} (most : Nat) (all : Bool) (hk : 2 ≤ k) (hi : Lim a (k - 2) (anyOf (items all)))
    (hb : Lim a k (table (blocks most))) : ∀ g ∈ report most all, ∀ e ∈ g.2, Lim a k e.2 := by
  simp only [report, List.forall_mem_cons, List.not_mem_nil, false_imp_iff, implies_true, and_true]
  have ht := lim_target all hi
  rw [Nat.sub_add_cancel hk] at ht
  exact ⟨⟨lim_range _ _, lim_mono (lim_header a all) hk⟩, ht, lim_mono (lim_info a all) hk,
    lim_mono (lim_strings a) (by omega), hb⟩

theorem lim_entries1 (most : Nat) (all : Bool) : ∀ g ∈ report most all, ∀ e ∈ g.2, Lim 1 6 e.2 :=
  lim_entries most all (by decide) (by
    cases all
    · exact lim_mono lim_items1' (by decide)
    · exact lim_mono lim_items1 (by decide)) (lim_blocks1 most)

theorem lim_entries2 (most : Nat) (all : Bool) : ∀ g ∈ report most all, ∀ e ∈ g.2, Lim 2 7 e.2 :=
  lim_entries most all (by decide) (by
    cases all
    · exact lim_mono lim_items2' (by decide)
    · exact lim_mono lim_items2 (by decide)) (lim_blocks2 most)

/-! ### readable output -/

theorem mem_relabel {g : String → String} {l res : Dict} {kv : String × PyVal} (h : kv ∈ LnkFile.relabel g l res) :
    kv ∈ res ∨ ∃ x ∈ l, kv.2 = x.2 := by
  unfold LnkFile.relabel at h
  induction l generalizing res with
  | nil => exact .inl h
  | cons y l ih =>
    rw [List.foldl_cons] at h
    rcases ih h with h | ⟨x, hx, e⟩
    · rcases ExtraData.mem_set h with rfl | h
      · exact .inr ⟨y, by simp, rfl⟩
      · exact .inl h
    · exact .inr ⟨x, List.mem_cons_of_mem _ hx, e⟩

theorem mem_niceDictGo {d : Dict} {skip : String} {kv : String × PyVal}
    (h : kv ∈ LnkFile.niceDictGo (LnkFile.niceEntries d) skip []) : ∃ x ∈ d, kv.2 = LnkFile.niceVal x.2 := by
  rw [LnkFile.niceDictGo_eq, LnkFile.niceEntries_eq] at h
  rcases mem_relabel h with h | ⟨x, hx, e⟩
  · cases h
  · obtain ⟨y, hy, rfl⟩ := List.mem_map.1 (List.mem_filter.1 hx).1
    exact ⟨y, hy, e⟩

theorem mem_niceList {l : List PyVal} {v : PyVal} (h : v ∈ LnkFile.niceList l) : ∃ x ∈ l, v = LnkFile.niceVal x := by
  induction l with
  | nil => cases h
  | cons y l ih =>
    rw [LnkFile.niceList, List.mem_cons] at h
    rcases h with rfl | h
    · exact ⟨y, by simp, rfl⟩
    · obtain ⟨x, hx, e⟩ := ih h
      exact ⟨x, List.mem_cons_of_mem _ hx, e⟩

theorem deep_niceVal {x v : PyVal} {n : Nat} (h : Deep x n (LnkFile.niceVal v)) : ∃ y m, Lev 2 y m v ∧ n ≤ m := by
  match v with
  | .none | .int _ | .str _ | .dt _ =>
    unfold LnkFile.niceVal at h
    cases h
    exact ⟨_, 0, .here, le_rfl⟩
  | .list l =>
    unfold LnkFile.niceVal at h
    cases h with
    | here => exact ⟨_, 0, .here, le_rfl⟩
    | element hy h =>
      obtain ⟨z, hz, rfl⟩ := mem_niceList hy
      have := List.sizeOf_lt_of_mem hz
      obtain ⟨y, m, h1, h2⟩ := deep_niceVal h
      exact ⟨y, m + 1, .element hz h1, by omega⟩
  | .dict d =>
    have inner : ∀ {skip : String} {n : Nat}, Deep x n (.dict (LnkFile.niceDictGo (LnkFile.niceEntries d) skip [])) →
        n = 0 ∨ ∃ z ∈ d, ∃ y m, Lev 2 y m z.2 ∧ n ≤ m + 1 := by
      intro skip n h
      cases h with
      | here => exact .inl rfl
      | entry hkv h =>
        obtain ⟨z, hz, e⟩ := mem_niceDictGo hkv
        rw [e] at h
        have : sizeOf z.2 < sizeOf d := by
          have := List.sizeOf_lt_of_mem hz
          have : sizeOf z.2 < sizeOf z := by
            obtain ⟨_, _⟩ := z
            simp
          omega
        obtain ⟨y, m, h1, h2⟩ := deep_niceVal h
        exact .inr ⟨z, hz, y, m, h1, by omega⟩
    have plain : ∀ {n : Nat}, Deep x n (.dict (LnkFile.niceDictGo (LnkFile.niceEntries d) "" [])) → ∃ y m, Lev 2 y m (.dict d) ∧ n ≤ m := by
      intro n h
      rcases inner h with rfl | ⟨z, hz, y, m, h1, h2⟩
      · exact ⟨_, 0, .here, le_rfl⟩
      · have hw : 1 ≤ weight 2 d := by
          unfold weight
          split <;> decide
        exact ⟨y, _, .entry hz h1, by omega⟩
    unfold LnkFile.niceVal at h
    rcases hc : Dict.get? d "class" with _ | c
    · rw [hc] at h
      exact plain h
    · have hm := Dict.mem_of_get? hc
      have hw : weight 2 d = 2 := if_pos (List.mem_map.2 ⟨_, hm, rfl⟩)
      rw [hc] at h
      cases c with
      | str c =>
        have two : Lev 2 (.str c) 2 (.dict d) := by
          have := Lev.entry (a := 2) (x := .str c) hm .here
          rwa [hw] at this
        cases h with
        | here => exact ⟨_, 0, .here, le_rfl⟩
        | entry hkv h =>
          rw [List.mem_singleton.1 hkv] at h
          rcases inner h with rfl | ⟨z, hz, y, m, h1, h2⟩
          · exact ⟨_, 2, two, by decide⟩
          · exact ⟨y, _, .entry hz h1, by omega⟩
      | _ => exact plain h
termination_by sizeOf v

theorem mem_update {d e : Dict} {kv : String × PyVal} (h : kv ∈ Dict.update d e) : kv ∈ d ∨ kv ∈ e := by
  unfold Dict.update at h
  induction e generalizing d with
  | nil => exact .inl h
  | cons y l ih =>
    rw [List.foldl_cons] at h
    rcases ih h with h | h
    · rcases ExtraData.mem_set h with rfl | h
      · exact .inr (by simp)
      · exact .inl h
    · exact .inr (List.mem_cons_of_mem _ h)

theorem mem_niceTop {d res : Dict} {kv : String × PyVal} (h : kv ∈ LnkFile.niceTop d res) :
    kv ∈ res ∨ ∃ x ∈ d, kv.2 = LnkFile.niceVal x.2 := by
  induction d generalizing res with
  | nil => exact .inl h
  | cons y d ih =>
    obtain ⟨k, v⟩ := y
    rw [LnkFile.niceTop] at h
    rcases ih h with h | ⟨x, hx, e⟩
    · rcases ExtraData.mem_set h with rfl | h
      · exact .inr ⟨_, List.mem_cons_self, rfl⟩
      · exact .inl h
    · exact .inr ⟨x, List.mem_cons_of_mem _ hx, e⟩

theorem mem_placeholder {d : Dict} {kv : String × PyVal} (h : kv ∈ LnkFile.placeholder (LnkFile.niceTop d [])) :
    ∃ x ∈ d, kv.2 = LnkFile.niceVal x.2 := by
  obtain ⟨y, hy, rfl⟩ := List.mem_map.1 h
  rcases mem_niceTop hy with h | h
  · cases h
  · exact h

/-- An entry of the readable output is one of the sections, shown, or one of an entry that is. -/
theorem nice_entries {d : Dict} {kv : String × PyVal}
    (h : kv ∈ Dict.update (match Dict.get? (LnkFile.placeholder (LnkFile.niceTop d [])) "EMPTY_LINE_PLACEHOLDERHEADER" with
      | some (.dict h) => h
      | _ => []) (Dict.erase (LnkFile.placeholder (LnkFile.niceTop d [])) "EMPTY_LINE_PLACEHOLDERHEADER")) :
    ∃ x ∈ d, ∃ n, Deep kv.2 n (LnkFile.niceVal x.2) := by
  rcases mem_update h with h | h
  · generalize hg : Dict.get? (LnkFile.placeholder (LnkFile.niceTop d [])) "EMPTY_LINE_PLACEHOLDERHEADER" = o at h
    cases o with
    | none => cases h
    | some v => cases v with
      | dict hd =>
        obtain ⟨x, hx, e⟩ := mem_placeholder (Dict.mem_of_get? hg)
        exact ⟨x, hx, 1, e ▸ .entry h .here⟩
      | _ => cases h
  · obtain ⟨x, hx, e⟩ := mem_placeholder ((LnkFile.erase_sublist _ _).subset h)
    exact ⟨x, hx, 0, e ▸ .here⟩

theorem deep_trans {x y z : PyVal} {m n : Nat} (h1 : Deep x m y) (h2 : Deep y n z) : Deep x (m + n) z := by
  induction h2 with
  | here => exact h1
  | element hy _ ih => exact .element hy ih
  | entry hy _ ih => exact .entry hy ih

/-- The header with other texts has no more levels. -/
theorem lev_edit {h : Dict} {lf ff : Str} (hh : ∀ x n, Lev 2 x n (.dict h) → n ≤ 7) (x : PyVal) (n : Nat)
    (hl : Lev 2 x n (.dict (Dict.set (Dict.set (Dict.erase h "r_hotkey") "link_flags" (.str lf)) "file_flags" (.str ff)))) : n ≤ 7 := by
  have hm : ∀ kv ∈ Dict.set (Dict.set (Dict.erase h "r_hotkey") "link_flags" (.str lf)) "file_flags" (.str ff),
      kv = ("file_flags", .str ff) ∨ kv = ("link_flags", .str lf) ∨ kv ∈ h := by
    intro kv hkv
    rcases ExtraData.mem_set hkv with rfl | hkv
    · exact .inl rfl
    rcases ExtraData.mem_set hkv with rfl | hkv
    · exact .inr (.inl rfl)
    · exact .inr (.inr ((LnkFile.erase_sublist _ _).subset hkv))
  have hw : weight 2 (Dict.set (Dict.set (Dict.erase h "r_hotkey") "link_flags" (.str lf)) "file_flags" (.str ff)) ≤ 2 := by
    unfold weight
    split <;> decide
  have hw' : weight 2 (Dict.set (Dict.set (Dict.erase h "r_hotkey") "link_flags" (.str lf)) "file_flags" (.str ff)) ≤ weight 2 h := by
    unfold weight
    split
    · rename_i hc
      obtain ⟨kv, hkv, e⟩ := List.mem_map.1 hc
      rw [if_pos]
      rcases hm kv hkv with rfl | rfl | hkv
      · exact absurd e (show "file_flags" ≠ "class" by decide)
      · exact absurd e (show "link_flags" ≠ "class" by decide)
      · exact List.mem_map.2 ⟨kv, hkv, e⟩
    · split <;> decide
  cases hl with
  | here => exact Nat.zero_le _
  | entry hkv hn =>
    rcases hm _ hkv with rfl | rfl | hkv
    · cases hn
      omega
    · cases hn
      omega
    · have := hh x _ (.entry hkv hn)
      omega

end Verif.Props.Depth

namespace Verif.Props
open Spec Py

/-- C86: in the report, full or reduced, of any file at most seven lists and dictionaries are one in the other. -/
theorem report_depth (env : Env) (cp : Option String) (hcp : UsableCodePage (TextProc.mk' env cp)) (allow all : Bool) (src : Source)
    (f : LnkFile) (hf : (LnkFile.init env cp allow src).res = .ok f) (j : Dict) (hj : (f.getJson all).res = .ok j) (x : PyVal) (n : Nat)
    (hx : Deep x n (.dict j)) : n ≤ 7 := by
  have h := report_schema env cp hcp allow all src f hf j hj
  have hl := Depth.lev_of_deep hx
  have := Depth.lev_dict (k := 6) (fun kv hkv x n hn => by
    obtain ⟨g, hg, e, he, -, hv⟩ := Schema.obj_mem h kv hkv
    exact Depth.lim_entries1 _ all g hg e he _ hv x n hn) x n hl
  rwa [Depth.weight_one] at this

/-- C86: in the readable output of any file, at most eight. -/
theorem readable_depth (env : Env) (cp : Option String) (hcp : UsableCodePage (TextProc.mk' env cp)) (allow all : Bool) (src : Source)
    (f : LnkFile) (hf : (LnkFile.init env cp allow src).res = .ok f) (j : Dict) (hj : (f.niceJson all).res = .ok j) (x : PyVal) (n : Nat)
    (hx : Deep x n (.dict j)) : n ≤ 8 := by
  simp only [LnkFile.niceJson, Py.bind_ok_iff, Py.pure_res, Except.ok.injEq] at hj
  obtain ⟨r, hr, lf, -, ff, -, rfl⟩ := hj
  have h := report_schema env cp hcp allow all src f hf r hr
  have hv : ∀ kv ∈ r, ∀ x n, Depth.Lev 2 x n kv.2 → n ≤ 7 := by
    intro kv hkv x n hn
    obtain ⟨g, hg, e, he, -, hv⟩ := Schema.obj_mem h kv hkv
    exact Depth.lim_entries2 _ all g hg e he _ hv x n hn
  cases hx with
  | here => exact Nat.zero_le _
  | @entry n kv _ hkv hx =>
    obtain ⟨y, hy, m, hm⟩ := Depth.nice_entries hkv
    have hd := Depth.deep_trans hx hm
    obtain ⟨z, m', hz, hle⟩ := Depth.deep_niceVal hd
    suffices m' ≤ 7 by omega
    obtain ⟨⟨k, v⟩, hkv, rfl⟩ := List.mem_map.1 hy
    dsimp only at hz
    split at hz
    · cases v with
      | dict e => exact Depth.lev_edit (hv _ hkv) _ _ hz
      | _ => exact hv _ hkv _ _ hz
    · exact hv _ hkv _ _ hz

namespace Depth
open Schema (bareEnv)

/-- The value at these positions. -/
def follow : List Nat → PyVal → Option PyVal
  | [], v => some v
  | i :: p, .list l => l[i]?.bind (follow p)
  | i :: p, .dict d => d[i]?.bind fun kv => follow p kv.2
  | _ :: _, _ => none

def textOf : PyVal → Option Str
  | .str s => some s
  | _ => none

theorem follow_deep {p : List Nat} {v x : PyVal} (h : follow p v = some x) : Deep x p.length v := by
  induction p generalizing v with
  | nil => cases h; exact .here
  | cons i p ih =>
    cases v with
    | list l =>
      obtain ⟨y, hy, h⟩ := Option.bind_eq_some_iff.1 h
      exact .element (List.mem_of_getElem? hy) (ih h)
    | dict d =>
      obtain ⟨y, hy, h⟩ := Option.bind_eq_some_iff.1 h
      exact .entry (List.mem_of_getElem? hy) (ih h)
    | _ => cases h

/-- A link with a property store and with a file in a folder of a user, in a shell item block. -/
def nestedLink : ShellLink :=
  { exampleLink with
    blocks := [ (.metadata exampleStore, []),
      (.shellItem [.usersFiles 0 [1, 2, 3, 4] ⟨0x32, 0, 12, 0, 0, 0x20, asciiText "a.txt", [0, 0]⟩ shellLinkCLSID shellLinkCLSID []], []) ] }

/-- In the report of this link the name of the type of a property is inside seven lists and dictionaries. -/
example : ∃ f j x, (LnkFile.init bareEnv none true (.indata nestedLink.encode)).res = .ok f ∧ (f.getJson true).res = .ok j ∧
    x = .lit "VT_LPWSTR" ∧ Deep x 7 (.dict j) := by
  have h : ((LnkFile.init bareEnv none true (.indata nestedLink.encode)).res.toOption.bind fun f =>
    (f.getJson true).res.toOption.bind fun j => (follow [5, 0, 1, 0, 3, 0, 3] (.dict j)).bind textOf) = some "VT_LPWSTR".toList := by decide +kernel
  rcases hf : (LnkFile.init bareEnv none true (.indata nestedLink.encode)).res with e | f
  · rw [hf] at h; cases h
  rw [hf] at h
  rcases hj : (f.getJson true).res with e | j
  · simp [Except.toOption, hj] at h
  simp only [Except.toOption, hj, Option.bind_some] at h
  obtain ⟨x, hx, h⟩ := Option.bind_eq_some_iff.1 h
  refine ⟨f, j, x, rfl, hj, ?_, follow_deep hx⟩
  cases x <;> cases h
  rfl

/-- In the readable output of this link the name of the file is inside eight. -/
example : ∃ f j x, (LnkFile.init bareEnv none true (.indata nestedLink.encode)).res = .ok f ∧ (f.niceJson true).res = .ok j ∧
    x = .lit "a.txt" ∧ Deep x 8 (.dict j) := by
  have h : ((LnkFile.init bareEnv none true (.indata nestedLink.encode)).res.toOption.bind fun f =>
    (f.niceJson true).res.toOption.bind fun j => (follow [18, 1, 1, 0, 0, 1, 0, 4] (.dict j)).bind textOf) = some "a.txt".toList := by decide +kernel
  rcases hf : (LnkFile.init bareEnv none true (.indata nestedLink.encode)).res with e | f
  · rw [hf] at h; cases h
  rw [hf] at h
  rcases hj : (f.niceJson true).res with e | j
  · simp [Except.toOption, hj] at h
  simp only [Except.toOption, hj, Option.bind_some] at h
  obtain ⟨x, hx, h⟩ := Option.bind_eq_some_iff.1 h
  refine ⟨f, j, x, rfl, hj, ?_, follow_deep hx⟩
  cases x <;> cases h
  rfl

end Depth

end Verif.Props
