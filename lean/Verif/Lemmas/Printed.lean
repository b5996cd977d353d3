import Verif.Spec.Printed
import Verif.Props.Json

namespace Verif

open Spec Json

/-! ### equal texts -/

theorem perm_of_map {α β : Type} (g : α → β) (l : List α) (m : List β) (h : m.Perm (l.map g)) :
    ∃ l' : List α, l'.Perm l ∧ m = l'.map g := by
  generalize hn : l.map g = n at h
  induction h generalizing l with
  | nil =>
    obtain rfl : l = [] := by simpa using hn
    exact ⟨[], .refl _, rfl⟩
  | cons b _ ih =>
    rcases l with _ | ⟨a, l⟩
    · simp at hn
    · simp only [List.map_cons, List.cons.injEq] at hn
      obtain ⟨l', h1, h2⟩ := ih l hn.2
      exact ⟨a :: l', .cons _ h1, by rw [List.map_cons, hn.1, h2]⟩
  | swap b c t =>
    rcases l with _ | ⟨a, _ | ⟨a', l⟩⟩
    · simp at hn
    · simp at hn
    · simp only [List.map_cons, List.cons.injEq] at hn
      exact ⟨a' :: a :: l, .swap _ _ _, by rw [List.map_cons, List.map_cons, hn.1, hn.2.1, hn.2.2]⟩
  | trans _ _ ih1 ih2 =>
    obtain ⟨l', h1, h2⟩ := ih2 l hn
    obtain ⟨l'', h3, h4⟩ := ih1 l' h2.symm
    exact ⟨l'', h3.trans h1, h4⟩

/-- What is at a place: a date or `None`, or something without dates but at the right keys. -/
def Ok (k : String) (v : PyVal) : Prop := if k ∈ timeKeys then DateOrNone k v else Dated v

theorem DatedEntries_iff (d : Dict) : DatedEntries d ↔ ∀ kv ∈ d, Ok kv.1 kv.2 := by
  induction d with
  | nil => simp [DatedEntries]
  | cons kv d ih => obtain ⟨k, v⟩ := kv; simp [DatedEntries, ih, Ok]

theorem DatedList_iff (l : List PyVal) : DatedList l ↔ ∀ v ∈ l, Dated v := by
  induction l with
  | nil => simp [DatedList]
  | cons v l ih => simp [DatedList, ih]

theorem toJList_sort (l : List PyVal) : toJList (sortList l) = l.map fun v => toJ (sortKeys v) := by
  induction l with
  | nil => rfl
  | cons v l ih => rw [sortList, toJList, ih]; rfl

theorem toJDict_sort (d : Dict) : (toJDict (sortDict d)).Perm (d.map fun e => (e.1.toList, toJ (sortKeys e.2))) := by
  rw [toJDict_eq_map]
  have := (sortDict_perm d).map fun e : String × PyVal => (e.1.toList, toJ e.2)
  rwa [List.map_map] at this

theorem date_of_second {d d' : DateTime} (h : { d with microsecond := 0 } = { d' with microsecond := 0 }) :
    d.isoSeconds = d'.isoSeconds := by
  simp only [DateTime.mk.injEq] at h
  obtain ⟨h1, h2, h3, h4, h5, h6, -⟩ := h
  unfold DateTime.isoSeconds
  rw [h1, h2, h3, h4, h5, h6]

theorem second_of_date {d d' : DateTime} (hv : ValidDateTime d) (hv' : ValidDateTime d') (h : d.isoSeconds = d'.isoSeconds) :
    { d with microsecond := 0 } = { d' with microsecond := 0 } := by
  rw [isoSeconds_eq, isoSeconds_eq] at h
  obtain ⟨h1, h2, h3, h4, h5, h6⟩ := Props.isoText_inj d d' hv hv' h
  simp only [DateTime.mk.injEq]
  exact ⟨h1, h2, h3, h4, h5, h6, trivial⟩

/-- Values that are no dates, told apart by their texts. -/
theorem shown_of_text (n : Nat) : ∀ v v' : PyVal, sizeOf v < n → Dated v → Dated v' →
    toJ (sortKeys v) = toJ (sortKeys v') → SameShown v v' := by
  induction n with
  | zero => intro v v' h; omega
  | succ n ih =>
    intro v v' hn hd hd' h
    have place : ∀ k u u', sizeOf u < n → Ok k u → Ok k u' → toJ (sortKeys u) = toJ (sortKeys u') → SameShown u u' := by
      intro k u u' hu ho ho' he
      unfold Ok at ho ho'
      by_cases hk : k ∈ timeKeys
      · rw [if_pos hk] at ho ho'
        rcases ho with rfl | ⟨d, rfl, hv, -⟩ <;> rcases ho' with rfl | ⟨d', rfl, hv', -⟩
        · exact .none
        · simp [sortKeys, toJ] at he
        · simp [sortKeys, toJ] at he
        · simp only [sortKeys, toJ, JVal.str.injEq] at he
          exact .date (second_of_date hv hv' he)
      · rw [if_neg hk] at ho ho'
        exact ih u u' hu ho ho' he
    cases v with
    | none => cases v' <;> simp_all [sortKeys, toJ, Dated]; exact .none
    | int i => cases v' <;> simp_all [sortKeys, toJ, Dated]; exact .int _
    | str s => cases v' <;> simp_all [sortKeys, toJ, Dated]; exact .str _
    | dt d => exact absurd hd (by simp [Dated])
    | list l =>
      cases v' with
      | list l' =>
        rw [Dated, DatedList_iff] at hd hd'
        simp only [sortKeys, toJ, JVal.arr.injEq, toJList_sort] at h
        refine .list ?_
        simp only [PyVal.list.sizeOf_spec] at hn
        have hs : ∀ v ∈ l, sizeOf v < n := fun v hv => by have := List.sizeOf_lt_of_mem hv; omega
        clear hn
        induction l generalizing l' with
        | nil =>
          obtain rfl : l' = [] := by simpa using h.symm
          exact .nil
        | cons a l ihl =>
          rcases l' with _ | ⟨a', l'⟩
          · simp at h
          · simp only [List.map_cons, List.cons.injEq] at h
            exact .cons (ih a a' (hs a (by simp)) (hd a (by simp)) (hd' a' (by simp)) h.1)
              (ihl (fun v hv => hd v (by simp [hv])) l' (fun v hv => hd' v (by simp [hv])) h.2 fun v hv => hs v (by simp [hv]))
      | _ => simp [sortKeys, toJ] at h hd'
    | dict d =>
      cases v' with
      | dict d' =>
        rw [Dated, DatedEntries_iff] at hd hd'
        simp only [sortKeys, toJ, JVal.obj.injEq] at h
        have hp := (toJDict_sort d).symm.trans ((List.Perm.of_eq h).trans (toJDict_sort d'))
        obtain ⟨e, he, hm⟩ := perm_of_map _ _ _ hp
        have hde : ∀ kv ∈ e, Ok kv.1 kv.2 := fun kv hkv => hd' kv (he.mem_iff.1 hkv)
        have hs : ∀ kv ∈ d, sizeOf kv.2 < n := by
          intro kv hkv
          have := List.sizeOf_lt_of_mem hkv
          obtain ⟨k, v⟩ := kv
          simp only [PyVal.dict.sizeOf_spec, Prod.mk.sizeOf_spec] at *
          omega
        refine .dict he ?_ ?_
        · have := congrArg (List.map fun p => String.ofList p.1) hm
          simpa [List.map_map, Function.comp_def] using this
        · clear hp he hn h
          induction d generalizing e with
          | nil =>
            obtain rfl : e = [] := by simpa using hm.symm
            exact .nil
          | cons a d ihd =>
            rcases e with _ | ⟨a', e⟩
            · simp at hm
            · simp only [List.map_cons, List.cons.injEq, Prod.mk.injEq, String.toList_inj] at hm ⊢
              refine .cons (place a.1 a.2 a'.2 (hs a (by simp)) (hd a (by simp)) ?_ hm.1.2)
                (ihd (fun v hv => hd v (by simp [hv])) e hm.2 (fun v hv => hde v (by simp [hv])) fun v hv => hs v (by simp [hv]))
              rw [hm.1.1]
              exact hde a' (by simp)
      | _ => simp [sortKeys, toJ] at h hd'

/-! ### the same texts -/

theorem toJList_map (l : List PyVal) : toJList l = l.map toJ := by
  induction l with
  | nil => rfl
  | cons v l ih => rw [toJList, ih]; rfl

mutual
theorem dump_of_toJ (n : Nat) (v v' : PyVal) (h : toJ v = toJ v') : dump n v = dump n v' := by
  match v, v' with
  | .none, .none => rfl
  | .int i, .int j => rw [toJ, toJ, JVal.num.injEq] at h; rw [h]
  | .str s, .str t => rw [toJ, toJ, JVal.str.injEq] at h; rw [h]
  | .str s, .dt d => rw [toJ, toJ, JVal.str.injEq] at h; rw [dump, dump, h]
  | .dt d, .str s => rw [toJ, toJ, JVal.str.injEq] at h; rw [dump, dump, h]
  | .dt d, .dt d' => rw [toJ, toJ, JVal.str.injEq] at h; rw [dump, dump, h]
  | .list [], .list [] => rfl
  | .list (v :: l), .list (v' :: l') =>
    rw [toJ, toJ, JVal.arr.injEq, toJList, toJList, List.cons.injEq] at h
    rw [dump, dump, dump_of_toJ _ v v' h.1, dumpList_of_toJ _ l l' h.2]
  | .dict [], .dict [] => rfl
  | .dict ((k, v) :: d), .dict ((k', v') :: d') =>
    rw [toJ, toJ, JVal.obj.injEq, toJDict, toJDict, List.cons.injEq, Prod.mk.injEq] at h
    rw [dump, dump, h.1.1, dump_of_toJ _ v v' h.1.2, dumpDict_of_toJ _ d d' h.2]
  | .list [], .list (_ :: _) => simp [toJ, toJList] at h
  | .list (_ :: _), .list [] => simp [toJ, toJList] at h
  | .dict [], .dict (_ :: _) => simp [toJ, toJDict] at h
  | .dict (_ :: _), .dict [] => simp [toJ, toJDict] at h
  | .none, .int _ | .none, .str _ | .none, .dt _ | .none, .list _ | .none, .dict _ => simp [toJ] at h
  | .int _, .none | .int _, .str _ | .int _, .dt _ | .int _, .list _ | .int _, .dict _ => simp [toJ] at h
  | .str _, .none | .str _, .int _ | .str _, .list _ | .str _, .dict _ => simp [toJ] at h
  | .dt _, .none | .dt _, .int _ | .dt _, .list _ | .dt _, .dict _ => simp [toJ] at h
  | .list _, .none | .list _, .int _ | .list _, .str _ | .list _, .dt _ | .list _, .dict _ => simp [toJ] at h
  | .dict _, .none | .dict _, .int _ | .dict _, .str _ | .dict _, .dt _ | .dict _, .list _ => simp [toJ] at h
theorem dumpList_of_toJ (n : Nat) (l l' : List PyVal) (h : toJList l = toJList l') : dumpList n l = dumpList n l' := by
  match l, l' with
  | [], [] => rfl
  | [], _ :: _ => simp [toJList] at h
  | _ :: _, [] => simp [toJList] at h
  | v :: l, v' :: l' =>
    rw [toJList, toJList, List.cons.injEq] at h
    rw [dumpList, dumpList, dump_of_toJ _ v v' h.1, dumpList_of_toJ _ l l' h.2]
theorem dumpDict_of_toJ (n : Nat) (d d' : List (String × PyVal)) (h : toJDict d = toJDict d') : dumpDict n d = dumpDict n d' := by
  match d, d' with
  | [], [] => rfl
  | [], _ :: _ => simp [toJDict] at h
  | _ :: _, [] => simp [toJDict] at h
  | (k, v) :: d, (k', v') :: d' =>
    rw [toJDict, toJDict, List.cons.injEq, Prod.mk.injEq] at h
    rw [dumpDict, dumpDict, h.1.1, dump_of_toJ _ v v' h.1.2, dumpDict_of_toJ _ d d' h.2]
end

theorem DistinctList_iff (l : List PyVal) : DistinctList l ↔ ∀ v ∈ l, Distinct v := by
  induction l with
  | nil => simp [DistinctList]
  | cons v l ih => simp [DistinctList, ih]

theorem DistinctEntries_iff (d : Dict) : DistinctEntries d ↔ ∀ kv ∈ d, Distinct kv.2 := by
  induction d with
  | nil => simp [DistinctEntries]
  | cons kv d ih => obtain ⟨k, v⟩ := kv; simp [DistinctEntries, ih]

theorem sorted_eq {o o' : List (List Char × JVal)} (hp : o.Perm o') (hs : o.Pairwise fun a b => a.1 ≤ b.1)
    (hs' : o'.Pairwise fun a b => a.1 ≤ b.1) (hn : (o.map (·.1)).Nodup) : o = o' := by
  refine List.Perm.eq_of_pairwise (le := fun a b => a.1 ≤ b.1) ?_ hs hs' hp
  intro a b ha hb h1 h2
  have hab : a.1 = b.1 := List.le_antisymm h1 h2
  have hb' : b ∈ o := hp.mem_iff.2 hb
  exact List.inj_on_of_nodup_map hn ha hb' hab

theorem sorted_toJ (d : Dict) : (toJDict (sortDict d)).Pairwise fun a b => a.1 ≤ b.1 := by
  rw [toJDict_eq_map, List.pairwise_map]
  exact sortDict_sorted d

theorem text_of_shown (n : Nat) : ∀ v v' : PyVal, sizeOf v < n → Distinct v → SameShown v v' →
    toJ (sortKeys v) = toJ (sortKeys v') := by
  induction n with
  | zero => intro v v' h; omega
  | succ n ih =>
    intro v v' hn hd h
    cases h with
    | none => rfl
    | int i => rfl
    | str s => rfl
    | date h => rw [sortKeys, sortKeys, toJ, toJ, date_of_second h]
    | @list l l' h =>
      rw [Distinct, DistinctList_iff] at hd
      simp only [sortKeys, toJ, JVal.arr.injEq, toJList_sort]
      simp only [PyVal.list.sizeOf_spec] at hn
      have hs : ∀ v ∈ l, sizeOf v < n := fun v hv => by have := List.sizeOf_lt_of_mem hv; omega
      clear hn
      induction h with
      | nil => rfl
      | @cons a b l l' hab _ ihl =>
        rw [List.map_cons, List.map_cons, ih a b (hs a (by simp)) (hd a (by simp)) hab,
          ihl (fun v hv => hd v (by simp [hv])) fun v hv => hs v (by simp [hv])]
    | @dict d e d' hp hk hv =>
      obtain ⟨hd1, hd2⟩ := hd
      rw [DistinctEntries_iff] at hd2
      have hs : ∀ kv ∈ d, sizeOf kv.2 < n := by
        intro kv hkv
        have := List.sizeOf_lt_of_mem hkv
        obtain ⟨k, v⟩ := kv
        simp only [PyVal.dict.sizeOf_spec, Prod.mk.sizeOf_spec] at *
        omega
      have hm : (d.map fun e => (e.1.toList, toJ (sortKeys e.2))) = e.map fun e => (e.1.toList, toJ (sortKeys e.2)) := by
        clear hp hd1 hn
        induction d generalizing e with
        | nil =>
          obtain rfl : e = [] := by simpa using hk.symm
          rfl
        | cons a d ihd =>
          rcases e with _ | ⟨a', e⟩
          · simp at hk
          · simp only [List.map_cons, List.cons.injEq, List.forall₂_cons] at hk hv
            rw [List.map_cons, List.map_cons, ihd hk.2 hv.2 (fun v hv => hd2 v (by simp [hv])) fun v hv => hs v (by simp [hv]),
              ih a.2 a'.2 (hs a (by simp)) (hd2 a (by simp)) hv.1, hk.1]
      simp only [sortKeys, toJ, JVal.obj.injEq]
      refine sorted_eq ?_ (sorted_toJ d) (sorted_toJ d') ?_
      · refine (toJDict_sort d).trans ?_
        rw [hm]
        exact (hp.map _).trans (toJDict_sort d').symm
      · rw [((toJDict_sort d).map _).nodup_iff, List.map_map]
        have : ((fun x : List Char × JVal => x.1) ∘ fun e : String × PyVal => (e.1.toList, toJ (sortKeys e.2))) =
            String.toList ∘ Prod.fst := rfl
        rw [this, ← List.map_map]
        exact hd1.map fun a b h => String.toList_inj.1 h

/-- The texts of trees with dates at the right keys are the same just when the trees are the same up to the order of entries
and parts of seconds. -/
theorem dumps_same {v v' : PyVal} (h : Dated v) (h' : Dated v') (hd : Distinct v) :
    dumps v = dumps v' ↔ SameShown v v' := by
  constructor
  · intro he
    refine shown_of_text _ v v' (Nat.lt_succ_self _) h h' ?_
    have h1 := Json.decode_dump (sortKeys v)
    have h2 := Json.decode_dump (sortKeys v')
    unfold dumps at he
    rw [he, h2] at h1
    exact (Option.some.inj h1).symm
  · intro hs
    exact dump_of_toJ 0 _ _ (text_of_shown _ v v' (Nat.lt_succ_self _) hd hs)

end Verif
