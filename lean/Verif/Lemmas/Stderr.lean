import Verif.Spec.Stderr

/-
What is written to standard error.
-/

namespace Verif.Stderr

open Spec

/-- The registry holds what was said. -/
def Keeps (reg : Registry) (before : List Call) : Prop := ∀ c : Call, (c.place, c.text) ∈ reg ↔ ∃ c' ∈ before, SameLine c' c

theorem keeps_nil : Keeps [] [] := fun c => by simp

theorem keeps_warn {reg : Registry} {before : List Call} (h : Keeps reg before) (dir : Str) (c : Call) :
    Keeps (reg.warn dir c).1 (before ++ [c]) := by
  intro d
  unfold Registry.warn
  have hd := h d
  split
  · rename_i hc
    rw [hd]
    constructor
    · rintro ⟨c', h1, h2⟩
      exact ⟨c', List.mem_append_left _ h1, h2⟩
    · rintro ⟨c', h1, h2⟩
      rcases List.mem_append.1 h1 with h1 | h1
      · exact ⟨c', h1, h2⟩
      · rw [List.mem_singleton.1 h1] at h2
        obtain ⟨c'', h3, h4⟩ := (h c).1 hc
        exact ⟨c'', h3, h4.1.trans h2.1, h4.2.trans h2.2⟩
  · rw [List.mem_cons, hd]
    constructor
    · rintro (h1 | ⟨c', h1, h2⟩)
      · obtain ⟨h2, h3⟩ := Prod.mk.injEq .. ▸ h1
        exact ⟨c, List.mem_append_right _ (List.mem_singleton.2 rfl), h2.symm, h3.symm⟩
      · exact ⟨c', List.mem_append_left _ h1, h2⟩
    · rintro ⟨c', h1, h2⟩
      rcases List.mem_append.1 h1 with h1 | h1
      · exact .inr ⟨c', h1, h2⟩
      · rw [List.mem_singleton.1 h1] at h2
        exact .inl (Prod.ext h2.1.symm h2.2.symm)

theorem keeps_warns {reg : Registry} {before : List Call} (h : Keeps reg before) (dir : Str) (cs : List Call) :
    Keeps (reg.warns dir cs).1 (before ++ cs) := by
  induction cs generalizing reg before with
  | nil => rw [List.append_nil]; exact h
  | cons c cs ih =>
    have := ih (keeps_warn h dir c)
    rw [List.append_assoc] at this
    exact this

theorem firsts_nil (before : List Call) : firstCalls before [] = [] := rfl

theorem firsts_cons (before : List Call) (c : Call) (cs : List Call) :
    firstCalls before (c :: cs) = (if ∃ c' ∈ before, SameLine c' c then [] else [c]) ++ firstCalls (before ++ [c]) cs := by
  unfold firstCalls
  rw [List.length_cons, List.range_succ_eq_map, List.filterMap_cons, List.filterMap_map]
  have h : ((fun i => (c :: cs)[i]?.filter fun d => decide (∀ c' ∈ before ++ (c :: cs).take i, ¬ SameLine c' d)) ∘ Nat.succ) =
      fun i => cs[i]?.filter fun d => decide (∀ c' ∈ before ++ [c] ++ cs.take i, ¬ SameLine c' d) := by
    funext i
    simp only [Function.comp_apply, Nat.succ_eq_add_one, List.getElem?_cons_succ, List.take_succ_cons, List.append_assoc, List.cons_append,
      List.nil_append]
    congr
  rw [h]
  simp only [List.getElem?_cons_zero, List.take_zero, List.append_nil]
  by_cases hc : ∃ c' ∈ before, SameLine c' c
  · rw [if_pos hc, Option.filter_some_neg (by simpa using hc)]
    rfl
  · rw [if_neg hc, Option.filter_some_pos (by simpa using hc)]
    rfl

theorem warns_eq {reg : Registry} {before : List Call} (h : Keeps reg before) (dir : Str) (cs : List Call) :
    (reg.warns dir cs).2 = (firstCalls before cs).flatMap (·.shown dir) := by
  induction cs generalizing reg before with
  | nil => rfl
  | cons c cs ih =>
    show (reg.warn dir c).2 ++ (Registry.warns dir (reg.warn dir c).1 cs).2 = _
    rw [ih (keeps_warn h dir c), firsts_cons, List.flatMap_append]
    congr 1
    unfold Registry.warn
    by_cases hc : ∃ c' ∈ before, SameLine c' c
    · rw [if_pos ((h c).2 hc), if_pos hc]
      rfl
    · rw [if_neg (fun h' => hc ((h c).1 h')), if_neg hc]
      simp

theorem firsts_sublist (before cs : List Call) : (firstCalls before cs).Sublist cs := by
  induction cs generalizing before with
  | nil => exact List.Sublist.refl _
  | cons c cs ih =>
    rw [firsts_cons]
    split
    · exact (ih _).cons _
    · exact (ih _).cons_cons _

theorem firsts_new {before cs : List Call} {c : Call} (h : c ∈ firstCalls before cs) : ∀ c' ∈ before, ¬ SameLine c' c := by
  induction cs generalizing before with
  | nil => cases h
  | cons d cs ih =>
    rw [firsts_cons] at h
    rcases List.mem_append.1 h with h | h
    · split at h
      · cases h
      · rename_i hd
        rw [List.mem_singleton.1 h]
        exact fun c' hc hs => hd ⟨c', hc, hs⟩
    · exact fun c' hc => ih h c' (List.mem_append_left _ hc)

theorem firsts_pairwise (before cs : List Call) : (firstCalls before cs).Pairwise fun c c' => ¬ SameLine c c' := by
  induction cs generalizing before with
  | nil => exact .nil
  | cons c cs ih =>
    rw [firsts_cons]
    split
    · exact ih _
    · exact List.pairwise_cons.2 ⟨fun d hd => firsts_new hd c (List.mem_append_right _ (List.mem_singleton.2 rfl)), ih _⟩

theorem firsts_cover {before cs : List Call} {c : Call} (h : c ∈ cs) :
    (∃ c' ∈ before, SameLine c' c) ∨ ∃ c' ∈ firstCalls before cs, SameLine c' c := by
  induction cs generalizing before with
  | nil => cases h
  | cons d cs ih =>
    have hd : ∀ c, SameLine d c → (∃ c' ∈ before, SameLine c' c) ∨ ∃ c' ∈ firstCalls before (d :: cs), SameLine c' c := by
      intro c hc
      rw [firsts_cons]
      by_cases hb : ∃ c' ∈ before, SameLine c' d
      · obtain ⟨c', h1, h2⟩ := hb
        exact .inl ⟨c', h1, h2.1.trans hc.1, h2.2.trans hc.2⟩
      · rw [if_neg hb]
        exact .inr ⟨d, by simp, hc⟩
    rcases List.mem_cons.1 h with rfl | h
    · exact hd _ ⟨rfl, rfl⟩
    · rcases ih (before := before ++ [d]) h with ⟨c', h1, h2⟩ | ⟨c', h1, h2⟩
      · rcases List.mem_append.1 h1 with h1 | h1
        · exact .inl ⟨c', h1, h2⟩
        · rw [List.mem_singleton.1 h1] at h2
          exact hd _ h2
      · rw [firsts_cons]
        exact .inr ⟨c', List.mem_append_right _ h1, h2⟩

theorem shown_ne (dir : Str) (c : Call) : c.shown dir ≠ [] := by
  unfold Call.shown
  simp

end Verif.Stderr
