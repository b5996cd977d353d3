import Verif.Lemmas.Reduced
import Verif.Spec.Readable

namespace Verif

open Spec

namespace Dict

theorem update_append (d e : Dict) (h : ∀ k ∈ e.keys, k ∉ d.keys) (hn : e.keys.Nodup) : update d e = d ++ e := by
  unfold update
  induction e generalizing d with
  | nil => simp
  | cons kv e ih =>
    obtain ⟨k, v⟩ := kv
    have hset : ∀ d : Dict, k ∉ d.keys → set d k v = d ++ [(k, v)] := by
      intro d
      induction d with
      | nil => intro; rfl
      | cons kv d ih =>
        obtain ⟨a, b⟩ := kv
        intro hk
        simp only [keys, List.map_cons, List.mem_cons, not_or] at hk
        rw [set, if_neg (Ne.symm hk.1), ih hk.2]
        rfl
    simp only [keys, List.map_cons, List.nodup_cons] at hn
    rw [List.foldl_cons, hset d (h k (by simp [keys])), ih]
    · simp
    · intro k' hk' hm
      simp only [keys, List.map_append, List.mem_append, List.map_cons, List.map_nil, List.mem_singleton] at hm
      rcases hm with hm | rfl
      · exact h k' (by simp only [keys, List.map_cons, List.mem_cons]; exact .inr hk') hm
      · exact hn.1 hk'
    · exact hn.2

end Dict

namespace LnkFile

/-- Entries put under other names, one after the other. -/
def relabel (g : String → String) (l : Dict) (res : Dict) : Dict := l.foldl (fun r kv => r.set (g kv.1) kv.2) res

theorem keys_relabel (g : String → String) (l : Dict) :
    (relabel g l []).keys.Nodup ∧ (relabel g l []).keys.Sublist (l.keys.map g) := by
  induction l using List.reverseRecOn with
  | nil => exact ⟨by simp [relabel, Dict.keys], by simp [relabel, Dict.keys]⟩
  | append_singleton l kv ih =>
    have e : relabel g (l ++ [kv]) [] = (relabel g l []).set (g kv.1) kv.2 := by simp [relabel]
    have e2 : Dict.keys (l ++ [kv]) = Dict.keys l ++ [kv.1] := by simp [Dict.keys]
    rw [e, e2, List.map_append]
    refine ⟨Dict.nodup_set ih.1 _ _, ?_⟩
    rw [Dict.keys_set]
    split
    · exact ih.2.trans (List.sublist_append_left _ _)
    · exact ih.2.append (List.Sublist.refl _)

theorem get?_relabel (g : String → String) (l : Dict) (res : Dict) (x : String) (h : ∀ kv ∈ l, g kv.1 ≠ x) :
    (relabel g l res).get? x = res.get? x := by
  unfold relabel
  induction l generalizing res with
  | nil => rfl
  | cons kv l ih =>
    rw [List.foldl_cons, ih _ fun y hy => h y (List.mem_cons_of_mem _ hy), Dict.get?_set, if_neg (h kv (by simp))]

theorem relabel_append (g : String → String) (a b res : Dict) : relabel g (a ++ b) res = relabel g b (relabel g a res) := by
  simp [relabel]

theorem relabel_congr (g g' : String → String) (l res : Dict) (h : ∀ k ∈ l.keys, g k = g' k) :
    relabel g l res = relabel g' l res := by
  unfold relabel
  induction l generalizing res with
  | nil => rfl
  | cons kv l ih =>
    rw [List.foldl_cons, List.foldl_cons, h kv.1 (by simp [Dict.keys]),
      ih _ fun k hk => h k (by simp only [Dict.keys, List.map_cons, List.mem_cons]; exact .inr hk)]

/-- Keys shown under one name are `r_k` and, later, `k`. -/
def Apart (keys : List String) : Prop := keys.Pairwise fun k k' => label k' = label k → k = "r_" ++ k'

theorem get?_relabel_kept (d : Dict) (g : PyVal → PyVal) (hk : Apart d.keys) (k : String) (v : PyVal) (hkv : (k, v) ∈ d)
    (hs : ¬ Shadowed d k) : (relabel label (d.map fun kv => (kv.1, g kv.2)) []).get? (label k) = some (g v) := by
  obtain ⟨a, b, rfl⟩ := List.append_of_mem hkv
  rw [List.map_append, List.map_cons, relabel_append]
  have : relabel label ((k, g v) :: b.map fun kv => (kv.1, g kv.2)) (relabel label (a.map fun kv => (kv.1, g kv.2)) []) =
      relabel label (b.map fun kv => (kv.1, g kv.2)) ((relabel label (a.map fun kv => (kv.1, g kv.2)) []).set (label k) (g v)) := rfl
  rw [this, get?_relabel, Dict.get?_set, if_pos rfl]
  intro kv hkv' hl
  obtain ⟨x, hx, rfl⟩ := List.mem_map.1 hkv'
  unfold Apart Dict.keys at hk
  rw [List.map_append, List.map_cons, List.pairwise_append, List.pairwise_cons] at hk
  have := hk.2.1.1 x.1 (List.mem_map_of_mem hx) hl
  exact hs ⟨x.1, this, by simp only [Dict.keys, List.map_append, List.map_cons, List.mem_append, List.mem_cons]
                          exact .inr (.inr (List.mem_map_of_mem hx))⟩

theorem shown_relabel {R : PyVal → PyVal → Prop} (d : Dict) (g : PyVal → PyVal) (hk : Apart d.keys)
    (hR : ∀ kv ∈ d, R kv.2 (g kv.2)) : ShownEntries R d (relabel label (d.map fun kv => (kv.1, g kv.2)) []) := by
  have hkeys : Dict.keys (d.map fun kv => (kv.1, g kv.2)) = d.keys := by
    unfold Dict.keys
    rw [List.map_map]
    rfl
  have hk2 := keys_relabel label (d.map fun kv => (kv.1, g kv.2))
  rw [hkeys] at hk2
  have key : ∀ k v, (k, v) ∈ d → ¬ Shadowed d k →
      (relabel label (d.map fun kv => (kv.1, g kv.2)) []).get? (label k) = some (g v) := by
    intro k v hkv hs
    exact get?_relabel_kept d g hk k v hkv hs
  refine .intro (fun k => ((relabel label (d.map fun kv => (kv.1, g kv.2)) []).get? (label k)).getD .none) hk2.1 hk2.2 ?_ ?_
  · intro k v hkv hs
    rw [key k v hkv hs]
    exact Dict.mem_of_get? (key k v hkv hs)
  · intro k v hkv hs
    rw [key k v hkv hs]
    exact hR _ hkv
/-! ### documented keys -/

theorem apart_schemas : ∀ s ∈ schemas, Apart s := by
  unfold Apart
  decide +kernel

theorem label_schemas : ∀ s ∈ schemas, ∀ k ∈ s, k ≠ "" ∧ niceId k false = label k := by decide +kernel

theorem label_sections : ∀ k ∈ sectionNames, k ≠ "" ∧ niceId k false = label k := by decide +kernel

theorem label_sections_inj : ∀ k ∈ sectionNames, ∀ k' ∈ sectionNames, label k' = label k → k = k' := by decide +kernel

theorem apart_documented {keys : List String} (h : DocumentedKeys keys) : Apart keys := by
  rcases h with ⟨s, hs, h⟩ | ⟨h1, h2⟩
  · exact (apart_schemas s hs).sublist h
  · unfold Apart
    refine List.Pairwise.imp_of_mem ?_ h1
    intro a b ha hb hab hl
    exact absurd (label_sections_inj a (h2 a ha) b (h2 b hb) hl) hab

theorem label_documented {keys : List String} (h : DocumentedKeys keys) : ∀ k ∈ keys, k ≠ "" ∧ niceId k false = label k := by
  rcases h with ⟨s, hs, h⟩ | ⟨h1, h2⟩
  · exact fun k hk => label_schemas s hs k (h.subset hk)
  · exact fun k hk => label_sections k (h2 k hk)

/-! ### the model -/

theorem niceDictGo_eq (l : Dict) (skip : String) (res : Dict) :
    niceDictGo l skip res = relabel (fun k => niceId k false) (l.filter fun kv => kv.1 ≠ skip) res := by
  induction l generalizing res with
  | nil => rfl
  | cons kv l ih =>
    obtain ⟨k, v⟩ := kv
    rw [niceDictGo]
    split
    · rename_i h
      rw [ih, List.filter_cons_of_neg (by simpa using h)]
    · rename_i h
      rw [ih, List.filter_cons_of_pos (by simpa using h)]
      rfl

theorem niceEntries_eq (d : Dict) : niceEntries d = d.map fun kv => (kv.1, niceVal kv.2) := by
  induction d with
  | nil => rfl
  | cons kv d ih => obtain ⟨k, v⟩ := kv; rw [niceEntries, ih]; rfl

theorem filter_niceEntries (d : Dict) (skip : String) :
    (niceEntries d).filter (fun kv => kv.1 ≠ skip) = (d.filter fun kv => kv.1 ≠ skip).map fun kv => (kv.1, niceVal kv.2) := by
  rw [niceEntries_eq, List.filter_map]
  rfl

theorem keys_filter_sublist (d : Dict) (skip : String) :
    List.Sublist (Dict.keys (d.filter fun kv => kv.1 ≠ skip)) d.keys := List.filter_sublist.map _

/-- The entries of a dictionary whose keys are apart and shown by their label. -/
theorem shown_niceDictGo {R : PyVal → PyVal → Prop} (d : Dict) (skip : String) (hk : Apart d.keys)
    (hl : ∀ k ∈ d.keys, niceId k false = label k) (hR : ∀ kv ∈ d, R kv.2 (niceVal kv.2)) :
    ShownEntries R (d.filter fun kv => kv.1 ≠ skip) (niceDictGo (niceEntries d) skip []) := by
  rw [niceDictGo_eq, filter_niceEntries, relabel_congr _ label]
  · exact shown_relabel _ niceVal (hk.sublist (keys_filter_sublist d skip)) fun kv hkv => hR kv (List.mem_filter.1 hkv).1
  · intro k hk'
    refine hl k ((keys_filter_sublist d skip).subset ?_)
    unfold Dict.keys at hk' ⊢
    rwa [List.map_map] at hk'

mutual
theorem shown_niceVal (v : PyVal) (h : Documented v) : Shown v (niceVal v) := by
  match v with
  | .none => exact .none
  | .int _ => exact .int _
  | .str _ => exact .str _
  | .dt _ => exact .dt _
  | .list l => exact .list (shown_niceList l h)
  | .dict d =>
    have he := shown_niceEntries d h.2
    have hk := apart_documented h.1
    have hl := label_documented h.1
    have hc := (DocumentedEntries_iff d).1 h.2
    rw [niceVal]
    split
    · rename_i c hcl
      exact .classDict (Dict.mem_of_get? hcl) (shown_niceDictGo d "class" hk (fun k hk => (hl k hk).2) he)
    · rename_i hcl
      have hno : "class" ∉ Dict.keys d := by
        intro hm
        obtain ⟨⟨k, v⟩, hkv, hke⟩ := List.mem_map.1 hm
        simp only at hke
        subst hke
        rw [← Dict.has_iff, Dict.has, Option.isSome_iff_exists] at hm
        obtain ⟨v', hv'⟩ := hm
        obtain ⟨s, hs⟩ := (hc _ (Dict.mem_of_get? hv')).2 rfl
        simp only at hs
        subst hs
        exact hcl s hv'
      refine .dict hno ?_
      have := shown_niceDictGo d "" hk (fun k hk => (hl k hk).2) he
      rwa [List.filter_eq_self.2] at this
      intro kv hkv
      simpa using (hl kv.1 (List.mem_map_of_mem hkv)).1
theorem shown_niceList (l : List PyVal) (h : DocumentedList l) : List.Forall₂ Shown l (niceList l) := by
  match l with
  | [] => exact .nil
  | v :: l => exact .cons (shown_niceVal v h.1) (shown_niceList l h.2)
theorem shown_niceEntries (d : List (String × PyVal)) (h : DocumentedEntries d) : ∀ kv ∈ d, Shown kv.2 (niceVal kv.2) := by
  match d with
  | [] => simp
  | (k, v) :: d =>
    intro kv hkv
    rcases List.mem_cons.1 hkv with rfl | hkv
    · exact shown_niceVal _ h.1
    · exact shown_niceEntries d h.2.2 kv hkv
end

end LnkFile

end Verif
