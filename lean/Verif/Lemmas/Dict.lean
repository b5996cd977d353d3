import Verif.Py.Dict
import Mathlib.Data.List.Basic
import Mathlib.Data.List.Nodup

namespace Verif

namespace Dict

@[simp] theorem get?_nil (k : String) : get? [] k = Option.none := rfl

theorem get?_cons (k' : String) (v : PyVal) (d : Dict) (k : String) :
    get? ((k', v) :: d) k = if k' = k then some v else get? d k := rfl

theorem get?_set (d : Dict) (k : String) (v : PyVal) (k' : String) :
    (d.set k v).get? k' = if k = k' then some v else d.get? k' := by
  induction d with
  | nil => rfl
  | cons kv d ih =>
    obtain ⟨a, b⟩ := kv
    simp only [set]
    split
    · rename_i h
      simp only [get?_cons, h]
      split <;> rfl
    · rename_i h
      simp only [get?_cons, ih]
      split
      · rename_i h1
        rw [if_neg (fun h2 => h (h1.trans h2.symm))]
      · rfl

theorem has_iff (d : Dict) (k : String) : d.has k = true ↔ k ∈ d.keys := by
  induction d with
  | nil => simp [has, keys]
  | cons kv d ih =>
    obtain ⟨a, b⟩ := kv
    simp only [has, keys, get?_cons, List.map_cons, List.mem_cons] at ih ⊢
    by_cases h : a = k
    · simp [h]
    · simp only [h, if_false, ih, show ¬ k = a from fun h' => h h'.symm, false_or]

theorem keys_set (d : Dict) (k : String) (v : PyVal) :
    (d.set k v).keys = if k ∈ d.keys then d.keys else d.keys ++ [k] := by
  induction d with
  | nil => simp [set, keys]
  | cons kv d ih =>
    obtain ⟨a, b⟩ := kv
    simp only [set, keys, List.map_cons, List.mem_cons] at ih ⊢
    by_cases h : a = k
    · subst h; simp
    · simp only [h, if_false, List.map_cons, ih, show ¬ k = a from fun h' => h h'.symm, false_or]
      split <;> rename_i hk <;> simp only [hk, if_true, if_false, List.cons_append]

theorem nodup_set {d : Dict} (h : d.keys.Nodup) (k : String) (v : PyVal) : (d.set k v).keys.Nodup := by
  rw [keys_set]
  split
  · exact h
  · rename_i hk
    rw [List.nodup_append]
    refine ⟨h, by simp, ?_⟩
    intro a ha b hb
    simp only [List.mem_singleton] at hb
    subst hb
    exact fun hab => hk (hab ▸ ha)

theorem get?_eq_lookup (d : Dict) (k : String) : d.get? k = d.lookup k := by
  induction d with
  | nil => rfl
  | cons kv d ih =>
    obtain ⟨a, b⟩ := kv
    rw [get?_cons, List.lookup_cons, ih]
    by_cases h : a = k
    · subst h; simp
    · have : (k == a) = false := by simpa using fun h' => h h'.symm
      rw [if_neg h, this]

theorem get?_none_iff (d : Dict) (k : String) : d.get? k = none ↔ k ∉ d.keys := by
  rw [← has_iff, has]
  cases d.get? k <;> simp

theorem get?_append (d e : Dict) (k : String) : get? (d ++ e) k = (d.get? k).or (e.get? k) := by
  induction d with
  | nil => simp
  | cons kv d ih =>
    obtain ⟨a, b⟩ := kv
    rw [List.cons_append, get?_cons, get?_cons, ih]
    split <;> rfl

theorem mem_of_get? {d : Dict} {k : String} {v : PyVal} (h : d.get? k = some v) : (k, v) ∈ d := by
  induction d with
  | nil => simp at h
  | cons kv d ih =>
    obtain ⟨a, b⟩ := kv
    rw [get?_cons] at h
    split at h
    · rename_i ha
      simp only [Option.some.injEq] at h
      simp [ha, h]
    · exact List.mem_cons_of_mem _ (ih h)

end Dict

end Verif
