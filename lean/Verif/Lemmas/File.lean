import Verif.Spec.File
import Verif.Lemmas.FileOutcome
import Verif.Lemmas.Header

namespace Verif

open Spec

namespace Dict

theorem ext_get? : ∀ {d e : Dict}, d.keys = e.keys → d.keys.Nodup → (∀ k, d.get? k = e.get? k) → d = e
  | [], [], _, _, _ => rfl
  | [], _ :: _, h, _, _ => by simp [keys] at h
  | _ :: _, [], h, _, _ => by simp [keys] at h
  | (a, v) :: d, (b, w) :: e, h, hn, hg => by
    simp only [keys, List.map_cons, List.cons.injEq] at h
    obtain ⟨rfl, h⟩ := h
    simp only [keys, List.map_cons, List.nodup_cons] at hn
    have h0 := hg a
    rw [get?_cons, get?_cons, if_pos rfl, if_pos rfl, Option.some.injEq] at h0
    subst h0
    congr 1
    refine ext_get? h hn.2 fun k => ?_
    by_cases hk : a = k
    · subst hk
      rw [(get?_none_iff d a).2 hn.1, (get?_none_iff e a).2 (by rw [keys, ← h]; exact hn.1)]
    · have := hg k
      rwa [get?_cons, get?_cons, if_neg hk, if_neg hk] at this

theorem get?_map (l : List String) (g : String → PyVal) (k : String) :
    get? (l.map fun n => (n, g n)) k = if k ∈ l then some (g k) else none := by
  induction l with
  | nil => rfl
  | cons a l ih =>
    rw [List.map_cons, get?_cons, ih]
    by_cases h : a = k
    · subst h; simp
    · simp [h, show ¬ k = a from fun h' => h h'.symm]

end Dict

/-! ### the extra data object -/

namespace ExtraData

theorem mem_first (l : List String) (k : String) : k ∈ firstOccurrences l ↔ k ∈ l := by
  induction l with
  | nil => rfl
  | cons a l ih =>
    simp only [firstOccurrences, List.mem_cons, List.mem_filter, ih, ne_eq, decide_not, Bool.not_eq_eq_eq_not, Bool.not_true,
      decide_eq_false_iff_not]
    by_cases h : k = a <;> simp [h]

theorem first_nodup (l : List String) : (firstOccurrences l).Nodup := by
  induction l with
  | nil => simp [firstOccurrences]
  | cons a l ih =>
    rw [firstOccurrences, List.nodup_cons]
    exact ⟨by simp, ih.filter _⟩

theorem first_snoc (l : List String) (a : String) :
    firstOccurrences (l ++ [a]) = if a ∈ l then firstOccurrences l else firstOccurrences l ++ [a] := by
  induction l with
  | nil => rfl
  | cons b l ih =>
    rw [List.cons_append, firstOccurrences, ih, firstOccurrences]
    by_cases h : a = b
    · subst h
      rw [if_pos List.mem_cons_self]
      split
      · rfl
      · rw [List.filter_append]; simp
    · by_cases hl : a ∈ l
      · rw [if_pos hl, if_pos (List.mem_cons_of_mem _ hl)]
      · rw [if_neg hl, if_neg (by simp [h, hl]), List.filter_append]
        simp [h]

theorem keys_object (l : List (String × Dict)) : (extraObject l).keys = firstOccurrences (l.map (·.1)) := by
  unfold extraObject Dict.keys
  rw [List.map_map]
  exact List.map_id _

theorem get_object (l : List (String × Dict)) (k : String) :
    (extraObject l).get? k = if k ∈ l.map (·.1) then
      some (if k = "UNKNOWN_BLOCK" then .list ((named l k).map .dict) else .dict ((named l k).getLast?.getD [])) else none := by
  unfold extraObject
  rw [Dict.get?_map (firstOccurrences (l.map (·.1)))
    (fun name => if name = "UNKNOWN_BLOCK" then .list ((named l name).map .dict) else .dict ((named l name).getLast?.getD []))]
  simp only [mem_first]

theorem named_snoc (l : List (String × Dict)) (n : String) (d : Dict) (k : String) :
    named (l ++ [(n, d)]) k = named l k ++ if n = k then [d] else [] := by
  unfold named
  rw [List.filter_append, List.map_append]
  congr 1
  by_cases h : n = k <;> simp [h]

theorem named_nil {l : List (String × Dict)} {k : String} (h : k ∉ l.map (·.1)) : named l k = [] := by
  unfold named
  rw [List.map_eq_nil_iff, List.filter_eq_nil_iff]
  intro x hx hk
  exact h (List.mem_map.2 ⟨x, hx, by simpa using hk⟩)

theorem object_snoc (l : List (String × Dict)) (n : String) (d : Dict) :
    (extraObject l).set n (if n = "UNKNOWN_BLOCK" then .list ((named l n).map .dict ++ [.dict d]) else .dict d) =
      extraObject (l ++ [(n, d)]) := by
  refine Dict.ext_get? ?_ (Dict.nodup_set (by rw [keys_object]; exact first_nodup _) _ _) ?_
  · rw [Dict.keys_set, keys_object, keys_object, List.map_append]
    simp only [List.map_cons, List.map_nil, first_snoc, mem_first]
  · intro k
    rw [Dict.get?_set, get_object, get_object, named_snoc, List.map_append, List.map_cons, List.map_nil]
    by_cases h : n = k
    · subst h
      simp
    · have hm : k ∈ l.map (·.1) ++ [n] ↔ k ∈ l.map (·.1) := by simp [show ¬ k = n from fun h' => h h'.symm]
      simp only [hm, if_neg h, List.append_nil]

/-- Blocks that all give a dictionary. -/
theorem asDictLoop_reports (xs : List Extra) (rs : List (List Warn × Dict))
    (h : xs.map Extra.asDict = rs.map fun r => ⟨r.1, .ok r.2⟩) (acc : List (String × Dict)) :
    asDictLoop xs (extraObject acc) = ⟨rs.flatMap (·.1),
      .ok (extraObject (acc ++ (xs.map fun x => x.cls.name).zip (rs.map (·.2))))⟩ := by
  induction xs generalizing rs acc with
  | nil =>
    cases rs with
    | nil => simp [asDictLoop, pure, Py.ret]
    | cons r rs => simp at h
  | cons x xs ih =>
    cases rs with
    | nil => simp at h
    | cons r rs =>
      obtain ⟨w, d⟩ := r
      simp only [List.map_cons, List.cons.injEq] at h
      obtain ⟨h1, h2⟩ := h
      have ih := ih rs h2 (acc ++ [(x.cls.name, d)])
      rw [← object_snoc] at ih
      have hacc : acc ++ (x.cls.name, d) :: (xs.map fun x => x.cls.name).zip (rs.map (·.2)) =
          acc ++ [(x.cls.name, d)] ++ (xs.map fun x => x.cls.name).zip (rs.map (·.2)) := by simp
      simp only [List.map_cons, List.zip_cons_cons, hacc, List.flatMap_cons]
      rw [asDictLoop, h1]
      by_cases hu : x.cls = .unknown
      · have hn : x.cls.name = "UNKNOWN_BLOCK" := by rw [hu]; rfl
        rw [hn] at ih ⊢
        rw [if_pos rfl] at ih
        have hset : ∀ (D : Dict) (v w : PyVal), (D.set "UNKNOWN_BLOCK" v).set "UNKNOWN_BLOCK" w = D.set "UNKNOWN_BLOCK" w := by
          intro D v w
          induction D with
          | nil => simp [Dict.set]
          | cons kv D ih =>
            obtain ⟨a, b⟩ := kv
            by_cases h : a = "UNKNOWN_BLOCK"
            · simp [Dict.set, h]
            · simp [Dict.set, h, ih]
        have hstep : (if x.cls = .unknown ∧ ¬ (extraObject acc).has "UNKNOWN_BLOCK" then
            (extraObject acc).set "UNKNOWN_BLOCK" (.list []) else extraObject acc).set "UNKNOWN_BLOCK"
              (.list (listAt (if x.cls = .unknown ∧ ¬ (extraObject acc).has "UNKNOWN_BLOCK" then
                (extraObject acc).set "UNKNOWN_BLOCK" (.list []) else extraObject acc) "UNKNOWN_BLOCK" ++ [.dict d])) =
            (extraObject acc).set "UNKNOWN_BLOCK" (.list ((named acc "UNKNOWN_BLOCK").map .dict ++ [.dict d])) := by
          by_cases hh : (extraObject acc).has "UNKNOWN_BLOCK" = true
          · rw [if_neg (by simp [hh])]
            rw [Dict.has_iff, keys_object, mem_first] at hh
            rw [listAt, get_object, if_pos hh, if_pos rfl]
          · rw [if_pos ⟨hu, hh⟩, hset]
            rw [Dict.has_iff, keys_object, mem_first] at hh
            rw [listAt, Dict.get?_set, if_pos rfl, named_nil hh]
            rfl
        simp only [Py.attempt, bind, Py.andThen]
        rw [if_pos hu, hstep, ih]
      · have hn : x.cls.name ≠ "UNKNOWN_BLOCK" := fun h => hu (ExtraClass.name_inj (h.trans rfl))
        rw [if_neg hn] at ih
        rw [if_neg (fun h => hu h.1)]
        simp only [Py.attempt, bind, Py.andThen]
        rw [if_neg hu, ih]

theorem asDict_reports (xs : List Extra) (rs : List (List Warn × Dict))
    (h : xs.map Extra.asDict = rs.map fun r => ⟨r.1, .ok r.2⟩) :
    asDict ⟨xs⟩ = ⟨rs.flatMap (·.1), .ok (extraObject ((xs.map fun x => x.cls.name).zip (rs.map (·.2))))⟩ :=
  asDictLoop_reports xs rs h []

end ExtraData

end Verif
