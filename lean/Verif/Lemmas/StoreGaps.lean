import Verif.Lemmas.ItemGaps
import Verif.Lemmas.Metadata
import Verif.Lemmas.LogExtra
import Verif.Spec.StoreGaps

/-
Bytes of a property store that are not looked at.
-/

namespace Verif

open Spec Py Metadata

namespace Gaps

variable {i i' : Bytes}

theorem slice_drop (x : Bytes) (o s e : Nat) : slice (x.drop o) s e = slice x (o + s) (o + e) := by
  unfold slice
  rw [List.drop_drop]
  congr 1
  omega

theorem short_int (x : Bytes) (s : Nat) : unpackI 4 (slice x s (s + 2)) = Py.raise .structError := by
  unfold unpackI
  rw [if_neg]
  simp only [slice, List.length_take]
  omega

theorem value_gap {o : Nat} (hl : i.length = i'.length) (hu : ∀ r ∈ valueUsed i o, slice i r.1 r.2 = slice i' r.1 r.2) :
    typedValue (i'.drop o) = typedValue (i.drop o) ∧ valueType (i'.drop o) = valueType (i.drop o) := by
  have a : slice i o (o + 4) = slice i' o (o + 4) := hu (o, o + 4) (by simp [valueUsed])
  have e1 : slice i' o (o + 2) = slice i o (o + 2) := slice_part a (by omega) (by omega) (by omega)
  have e2 : slice i' (o + 2) (o + 4) = slice i (o + 2) (o + 4) := slice_part a (by omega) (by omega) (by omega)
  have s6 : ∀ x : Bytes, slice x (o + 4) (o + 6) = slice x (o + 4) (o + 4 + 2) := fun x => rfl
  unfold typedValue valuePadding valueType
  simp only [slice_drop, Nat.add_zero, e1, e2, s6, short_int, and_true]
  rcases unpack_cases 2 (by omega) i (o + 2) with e | e
  swap
  · simp only [e, raise_bind]
  rw [show o + 2 + 2 = o + 4 from rfl] at e
  simp only [e, pure_bind]
  split
  · rfl
  rename_i hp
  rcases unpack_cases 2 (by omega) i o with f | f
  swap
  · simp only [f, raise_bind]
  simp only [f, pure_bind]
  split
  · rfl
  split
  swap
  · rfl
  rename_i h2 ht
  have hc : u2 i (o + 2) = 0 ∧ u2 i o = 0x1F := ⟨Decidable.not_not.1 hp, ht⟩
  have b : slice i (o + 4) (o + 8) = slice i' (o + 4) (o + 8) := hu (o + 4, o + 8) (by unfold valueUsed; rw [if_pos hc]; simp)
  rw [← b]
  rcases unpack_cases 4 (by omega) i (o + 4) with g | g
  swap
  · rw [show o + 4 + 4 = o + 8 from rfl] at g
    simp only [g, raise_bind]
  rw [show o + 4 + 4 = o + 8 from rfl] at g
  simp only [g, pure_bind]
  have := wide_in (s := o + 8) (e := o + 8 + u4 i (o + 4) * 2) hl (hu _ (by unfold valueUsed; rw [if_pos hc]; simp))
  unfold u4 at this
  rw [show ∀ n, o + (8 + n) = o + 8 + n from fun n => by omega, this]

theorem int_gap {o : Nat} (hl : i.length = i'.length) (hu : ∀ r ∈ propertyUsed false i o, slice i r.1 r.2 = slice i' r.1 r.2) :
    integerNameAsDict (i'.drop o) = integerNameAsDict (i.drop o) := by
  have a : slice i o (o + 8) = slice i' o (o + 8) := hu (o, o + 8) (by simp [propertyUsed])
  obtain ⟨v1, v2⟩ := value_gap (o := o + 9) hl fun r hr => hu r (by unfold propertyUsed; exact List.mem_cons_of_mem _ hr)
  unfold integerNameAsDict
  simp only [slice_drop, List.drop_drop, Nat.add_zero, v1, v2, slice_part a (x := o) (y := o + 4) (by omega) (by omega) (by omega),
    slice_part a (x := o + 4) (y := o + 8) (by omega) (by omega) (by omega)]

theorem str_gap {o : Nat} (hl : i.length = i'.length) (hu : ∀ r ∈ propertyUsed true i o, slice i r.1 r.2 = slice i' r.1 r.2) :
    stringNameAsDict (i'.drop o) = stringNameAsDict (i.drop o) := by
  have a : slice i o (o + 8) = slice i' o (o + 8) := hu (o, o + 8) (by simp [propertyUsed])
  have n := wide_in (s := o + 9) (e := o + 9 + u4 i (o + 4)) hl (hu _ (by unfold propertyUsed; rw [if_pos rfl]; simp))
  obtain ⟨v1, v2⟩ := value_gap (o := o + 9 + u4 i (o + 4)) hl fun r hr => hu r (by
    unfold propertyUsed
    rw [if_pos rfl]
    exact List.mem_cons_of_mem _ (List.mem_cons_of_mem _ hr))
  unfold stringNameAsDict
  simp only [slice_drop, List.drop_drop, Nat.add_zero, slice_part a (x := o) (y := o + 4) (by omega) (by omega) (by omega),
    slice_part a (x := o + 4) (y := o + 8) (by omega) (by omega) (by omega)]
  congr 1; funext _
  rcases unpack_cases 4 (by omega) i (o + 4) with g | g
  swap
  · rw [show o + 4 + 4 = o + 8 from rfl] at g
    simp only [g, raise_bind]
  rw [show o + 4 + 4 = o + 8 from rfl] at g
  simp only [g, pure_bind]
  rw [show ∀ n, o + (9 + n) = o + 9 + n from fun n => by omega]
  unfold u4 at n v1 v2
  rw [n, v1, v2]

/-- The places of the records. -/
theorem chain_gap (f : Nat → List (Nat × Nat)) (hl : i.length = i'.length) (o : Nat)
    (hu : ∀ r ∈ recordsUsed f i o, slice i r.1 r.2 = slice i' r.1 r.2) :
    ∃ P : Py (List Nat), sizeChain (i.drop o) = (do let l ← P; pure (l.map i.drop)) ∧
      sizeChain (i'.drop o) = (do let l ← P; pure (l.map i'.drop)) ∧
      ∀ l, P.res = .ok l → ∀ x ∈ l, ∀ r ∈ f x, slice i r.1 r.2 = slice i' r.1 r.2 := by
  generalize hk : i.length - o = k
  induction k using Nat.strong_induction_on generalizing o with
  | _ k ih =>
    have a : slice i o (o + 4) = slice i' o (o + 4) := hu (o, o + 4) (by unfold recordsUsed; simp)
    rw [sizeChain_eq, sizeChain_eq]
    simp only [slice_drop, Nat.add_zero, ← a]
    rw [unpackU_slice i 4 o (by omega)]
    rcases h0 : uAt 4 i o with _ | n
    · exact ⟨Py.raise .structError, rfl, rfl, fun l hl => by cases hl⟩
    simp only [pure_bind]
    by_cases hn : n = 0
    · simp only [hn, if_true]
      exact ⟨pure [], rfl, rfl, fun l hl x hx => by cases hl; cases hx⟩
    simp only [if_neg hn]
    have h4 := ExtraData.uAt_some_length h0
    rw [if_pos (by simp only [List.length_drop]; omega), if_pos (by simp only [List.length_drop]; omega)]
    rw [recordsUsed] at hu
    split at hu
    · rename_i h
      rw [h0] at h
      cases h
    rename_i m h
    rw [h0] at h
    cases h
    rw [dif_neg hn] at hu
    obtain ⟨P, p1, p2, p3⟩ := ih (i.length - (o + n)) (by omega) (o + n)
      (fun r hr => hu r (List.mem_cons_of_mem _ (List.mem_append.2 (.inr hr)))) rfl
    refine ⟨(do let l ← P; pure (o :: l)), ?_, ?_, fun l hl => ?_⟩
    · rw [List.drop_drop, p1]
      simp only [bind_assoc, pure_bind, List.map_cons]
    · rw [List.drop_drop, p2]
      simp only [bind_assoc, pure_bind, List.map_cons]
    · obtain ⟨l', q1, q2⟩ := bind_ok_iff.1 hl
      cases q2
      intro x hx
      rcases List.mem_cons.1 hx with rfl | hx
      · exact fun r hr => hu r (List.mem_cons_of_mem _ (List.mem_append.2 (.inl hr)))
      · exact p3 l' q1 x hx

theorem collect_gap {g g' : Bytes → Py Dict} {l : List Nat} (h : ∀ x ∈ l, g' (i'.drop x) = g (i.drop x)) :
    collect g' (l.map i'.drop) = collect g (l.map i.drop) := by
  induction l with
  | nil => rfl
  | cons x l ih =>
    rw [List.map_cons, List.map_cons, collect, collect, h x List.mem_cons_self, ih fun y hy => h y (List.mem_cons_of_mem _ hy)]

theorem records_gap {f : Nat → List (Nat × Nat)} {g g' : Bytes → Py Dict} (hl : i.length = i'.length) (o : Nat)
    (hu : ∀ r ∈ recordsUsed f i o, slice i r.1 r.2 = slice i' r.1 r.2)
    (hg : ∀ x, (∀ r ∈ f x, slice i r.1 r.2 = slice i' r.1 r.2) → g' (i'.drop x) = g (i.drop x)) :
    (sizeChain (i'.drop o) >>= collect g') = (sizeChain (i.drop o) >>= collect g) := by
  obtain ⟨P, p1, p2, p3⟩ := chain_gap f hl o hu
  rw [p1, p2]
  simp only [bind_assoc, pure_bind]
  exact bind_congr_ok fun l hl' => collect_gap fun x hx => hg x (p3 l hl' x hx)

theorem storage_gap {o : Nat} (hl : i.length = i'.length) (hu : ∀ r ∈ storageUsed i o, slice i r.1 r.2 = slice i' r.1 r.2) :
    storageAsDict (i'.drop o) = storageAsDict (i.drop o) := by
  have a : slice i o (o + 24) = slice i' o (o + 24) := hu (o, o + 24) (by simp [storageUsed])
  unfold storageAsDict formatId
  simp only [slice_drop, List.drop_drop, Nat.add_zero, slice_part a (x := o) (y := o + 4) (by omega) (by omega) (by omega),
    slice_part a (x := o + 4) (y := o + 8) (by omega) (by omega) (by omega), slice_part a (x := o + 8) (y := o + 24) (by omega) (by omega) (by omega)]
  congr 1; funext _
  congr 1; funext _
  by_cases h24 : o + 24 ≤ i.length
  swap
  · have : (slice i (o + 8) (o + 24)).length < 16 := by
      simp only [slice, List.length_take, List.length_drop]
      omega
    rw [parseUuid_short this, raise_bind, raise_bind]
  obtain ⟨g, hg⟩ := Props.guid_every_16_bytes (slice i (o + 8) (o + 24)) (by simp; omega)
  have hd : (between i (o + 8) (o + 24) = stringNamedFormat.encode) ↔ g.text = stringNameFormat := by
    rw [formatText_inj]
    have : between i (o + 8) (o + 24) = g.encode := hg.symm
    rw [this]
    exact ⟨fun h => Guid_encode_inj h, fun h => by rw [h]⟩
  rw [← hg, parseUuid_encode, pure_bind, pure_bind, pure_bind, pure_bind]
  have := records_gap (g := if g.text = stringNameFormat then stringNameAsDict else integerNameAsDict)
    (g' := if g.text = stringNameFormat then stringNameAsDict else integerNameAsDict) hl (o + 24)
    (fun r hr => hu r (List.mem_cons_of_mem _ hr)) fun x hx => by
      by_cases h : g.text = stringNameFormat
      · rw [decide_eq_true (hd.2 h)] at hx
        rw [if_pos h]
        exact str_gap hl hx
      · rw [decide_eq_false (mt hd.1 h)] at hx
        rw [if_neg h]
        exact int_gap hl hx
  rw [← bind_assoc, ← bind_assoc, this]

theorem store_gap (tp : TextProc) (hl : i.length = i'.length) (hu : ∀ r ∈ storeUsed i, slice i r.1 r.2 = slice i' r.1 r.2) :
    Extra.asDict ⟨extraKind 0xA0000009, tp, i'⟩ = Extra.asDict ⟨extraKind 0xA0000009, tp, i⟩ := by
  have k : extraKind 0xA0000009 = .metadata := by decide +kernel
  have a : slice i 0 8 = slice i' 0 8 := hu (0, 8) (by simp [storeUsed])
  have := records_gap (g := storageAsDict) (g' := storageAsDict) hl 8 (fun r hr => hu r (List.mem_cons_of_mem _ hr)) fun x hx => storage_gap hl hx
  simp only [k, Extra.asDict, Extra.size, Extra.fields, Extra.metadataFields, propertyStore, this,
    uint_same _ tp a (x := 0) (y := 4) (by omega) (by omega) (by omega)]

end Gaps

end Verif
