import Verif.Lemmas.ItemGaps
import Verif.Props.Hidden

/-
C97: what of a shell item is not looked at.
-/

namespace Verif.Props

open Spec Py Log OpenEnd Hidden

/-- C97: bytes of shell items that are not part of what is reported for their types can be anything. -/
theorem item_gaps (env : Env) (cp : Option String) (allow : Bool) (ht : Tame (TextProc.mk' env cp)) (a z : Bytes) (L : Layout)
    (items items' : List Bytes) (hL : Spec.layout (a ++ items.flatMap itemBytes ++ 0 :: 0 :: z) = some L) (ha : a.length = L.headerSize + 2)
    (h0 : ∀ p ∈ items, p ≠ []) (hl : ∀ p ∈ items, p.length + 2 < 65536) (hi : SameItems items items')
    (he : a.length + (items.flatMap itemBytes).length + 2 ≤ L.infoAt) (src src' : Source)
    (hs : src.bytes = a ++ items.flatMap itemBytes ++ 0 :: 0 :: z) (hs' : src'.bytes = a ++ items'.flatMap itemBytes ++ 0 :: 0 :: z) :
    NothingSeen env cp allow src src' := by
  have hE := elsewhere_append a (items.flatMap itemBytes) (items'.flatMap itemBytes) (0 :: 0 :: z) (Gaps.same_length hi)
  have hw : (L.headerSize + 2 ≤ a.length ∧ a.length + (items.flatMap itemBytes).length ≤ L.infoAt) ∨
      (L.infoAt + 12 ≤ a.length ∧ a.length + (items.flatMap itemBytes).length ≤ L.stringsAt) := .inl ⟨by omega, by omega⟩
  have hL' := layout_elsewhere hE hL hw
  refine nothing_seen (P := LnkFile.process env cp allow (a ++ items.flatMap itemBytes ++ 0 :: 0 :: z)) (g := id)
    (g' := replaced env cp (a ++ items'.flatMap itemBytes ++ 0 :: 0 :: z) L)
    (by rw [hs]; exact not_nil hL) (by rw [hs']; exact not_nil hL') (by rw [hs]; exact (bind_pure _).symm)
    (by rw [hs']; exact process_elsewhere env cp allow hE hL hw) fun f hfr => ?_
  obtain ⟨L₁, l, last, h1, -, hP, -⟩ := LnkFile.parts_tame ht hfr
  rw [hL] at h1
  cases h1
  refine ⟨rfl, rfl, rfl, Hidden.target_same hE (by omega) hP fun _ => ?_, Hidden.info_same hP fun _ => ?_, rfl⟩
  · have key : ∀ x : Bytes, x.length = (items.flatMap itemBytes).length → slice (a ++ x ++ 0 :: 0 :: z) (L.headerSize + 2) L.infoAt =
        x ++ 0 :: 0 :: z.take (L.infoAt - a.length - (items.flatMap itemBytes).length - 2) := by
      intro x hx
      unfold slice
      obtain ⟨m, hm⟩ : ∃ m, L.infoAt - a.length - (items.flatMap itemBytes).length - 2 = m := ⟨_, rfl⟩
      rw [hm, ← ha, List.append_assoc, List.drop_left, show x ++ 0 :: 0 :: z = (x ++ [0, 0]) ++ z by rw [List.append_assoc]; rfl,
        show L.infoAt - a.length = (x ++ [0, 0]).length + m by
          rw [List.length_append, hx]; simp only [List.length_cons, List.length_nil]; omega, List.take_length_add_append]
      rw [List.append_assoc]
      rfl
    rw [key _ rfl, key _ (Gaps.same_length hi).symm]
    exact (Gaps.items_gap _ hi h0 hl _).symm
  · refine ⟨?_, .inl (hE.drop (by omega))⟩
    unfold infoLocation
    rw [hE.uAt (.inr (by omega))]

/-- C97: in particular, of an item of an unknown type, and of one of the types of which only the name is reported, nothing is seen but its
size. -/
theorem opaque_items (env : Env) (cp : Option String) (allow : Bool) (ht : Tame (TextProc.mk' env cp)) (a z : Bytes) (L : Layout)
    (before behind : List Bytes) (t : UInt8) (x x' : Bytes)
    (hL : Spec.layout (a ++ (before ++ [t :: x] ++ behind).flatMap itemBytes ++ 0 :: 0 :: z) = some L) (ha : a.length = L.headerSize + 2)
    (h0 : ∀ p ∈ before ++ [t :: x] ++ behind, p ≠ []) (hl : ∀ p ∈ before ++ [t :: x] ++ behind, p.length + 2 < 65536)
    (ho : itemClass t.toNat ∈ [none, some "Compressed folder", some "Internet", some "Printers", some "Common places folder"])
    (hx : x.length = x'.length) (he : a.length + ((before ++ [t :: x] ++ behind).flatMap itemBytes).length + 2 ≤ L.infoAt) (src src' : Source)
    (hs : src.bytes = a ++ (before ++ [t :: x] ++ behind).flatMap itemBytes ++ 0 :: 0 :: z)
    (hs' : src'.bytes = a ++ (before ++ [t :: x'] ++ behind).flatMap itemBytes ++ 0 :: 0 :: z) :
    NothingSeen env cp allow src src' := by
  refine item_gaps env cp allow ht a z L _ _ hL ha h0 hl ?_ he src src' hs hs'
  have refl : ∀ l : List Bytes, SameItems l l := by
    intro l
    induction l with
    | nil => exact .nil
    | cons p l ih => exact .cons rfl (fun _ => .inl rfl) ih
  have hu : ∀ y, itemUsed (t :: y) = [(0, 1)] := by
    intro y
    have key : ∀ n < 256, ¬ itemClass n ∈ [none, some "Compressed folder", some "Internet", some "Printers", some "Common places folder"] ∨
        ¬ n / 16 % 8 = 2 ∧ ¬ n / 16 % 8 = 3 ∧ ¬ n / 16 % 8 = 4 ∧ ¬ n = 0 ∧ ¬ n = 1 ∧ ¬ (n = 0x1E ∨ n = 0x1F) ∧ ¬ (n = 0x70 ∨ n = 0x71) ∧
          ¬ n = 0x74 := by decide +kernel
    obtain ⟨k1, k2, k3, k4, k5, k6, k7, k8⟩ := (key _ t.toNat_lt).resolve_left (not_not_intro ho)
    unfold itemUsed
    rw [List.headD_cons]
    simp only [if_neg k1, if_neg k2, if_neg k3, if_neg k4, if_neg k5, if_neg k6, if_neg k7, if_neg k8]
  rw [List.append_assoc, List.append_assoc]
  clear hL h0 hl he hs hs'
  induction before with
  | nil =>
    refine .cons (by simp [hx]) (fun k => ?_) (refl _)
    cases k with
    | zero => exact .inl rfl
    | succ k =>
      right
      intro r hr
      rw [List.cons_append, hu, List.mem_singleton] at hr
      subst hr
      right
      simp
  | cons p l ih => exact .cons rfl (fun _ => .inl rfl) ih

/-! ### examples -/

/-- A list with a file entry: its type, a byte that is skipped, size, date and attributes, the name "a.exe" with its zero, and an extension
of which nothing is read. -/
def extendedEntry (r : Bytes) : Bytes := [0x32, 0] ++ List.replicate 10 0 ++ [0x61, 0x2E, 0x65, 0x78, 0x65, 0] ++ r

/-- Forty bytes behind the name, where other tools find the long name of the file and its dates. -/
example (env : Env) (r : Bytes) (h : r.length = 40) :
    NothingSeen env none false
      (.indata (le 4 76 ++ shellLinkCLSID.encode ++ le 4 1 ++ List.replicate 52 0 ++ le 2 62 ++
        [extendedEntry (List.replicate 40 0)].flatMap itemBytes ++ 0 :: 0 :: le 4 0))
      (.indata (le 4 76 ++ shellLinkCLSID.encode ++ le 4 1 ++ List.replicate 52 0 ++ le 2 62 ++
        [extendedEntry r].flatMap itemBytes ++ 0 :: 0 :: le 4 0)) := by
  have hu : itemUsed (extendedEntry (List.replicate 40 0) ++ [0, 0]) = [(0, 1), (0, 1), (2, 12), (12, 18)] := by decide +kernel
  refine item_gaps env none false (tame_usable (usable_default env))
    (le 4 76 ++ shellLinkCLSID.encode ++ le 4 1 ++ List.replicate 52 0 ++ le 2 62) (le 4 0) ⟨76, 1, 140, 140, 140⟩ _ _
    (by decide +kernel) (by decide +kernel) (by decide +kernel) (by decide +kernel) ?_ (by decide +kernel) _ _ rfl rfl
  refine .cons (by unfold extendedEntry; simp only [List.length_append, List.length_replicate, h]) (fun k => ?_) .nil
  by_cases hk : k < 18
  · left
    unfold extendedEntry
    rw [List.getElem?_append_left (l₂ := List.replicate 40 0) (by exact hk), List.getElem?_append_left (l₂ := r) (by exact hk)]
  · right
    intro q hq
    rw [show ([] : List Bytes).flatMap itemBytes ++ [0, 0] = [0, 0] from rfl, show ([0, 0] : Bytes).take 2 = [0, 0] from rfl, hu] at hq
    simp only [List.mem_cons, List.not_mem_nil, or_false] at hq
    rcases hq with rfl | rfl | rfl | rfl <;> right <;> simp <;> omega

/-- A network location: its type, a byte that is skipped, the flags, the location "ab" and the description "c" that is announced, and more
behind them, which is not read as comments because none are announced. -/
def remoteEntry (a : UInt8) (r : Bytes) : Bytes := [0x42, a, 0x80, 0x61, 0x62, 0, 0x63, 0] ++ r

example (env : Env) (a : UInt8) (r : Bytes) (h : r.length = 9) :
    NothingSeen env none false
      (.indata (le 4 76 ++ shellLinkCLSID.encode ++ le 4 1 ++ List.replicate 52 0 ++ le 2 21 ++
        [remoteEntry 0 (List.replicate 9 0x64)].flatMap itemBytes ++ 0 :: 0 :: le 4 0))
      (.indata (le 4 76 ++ shellLinkCLSID.encode ++ le 4 1 ++ List.replicate 52 0 ++ le 2 21 ++
        [remoteEntry a r].flatMap itemBytes ++ 0 :: 0 :: le 4 0)) := by
  have hu : itemUsed (remoteEntry 0 (List.replicate 9 0x64) ++ [0, 0]) = [(0, 1), (2, 3), (3, 8)] := by decide +kernel
  refine item_gaps env none false (tame_usable (usable_default env))
    (le 4 76 ++ shellLinkCLSID.encode ++ le 4 1 ++ List.replicate 52 0 ++ le 2 21) (le 4 0) ⟨76, 1, 99, 99, 99⟩ _ _
    (by decide +kernel) (by decide +kernel) (by decide +kernel) (by decide +kernel) ?_ (by decide +kernel) _ _ rfl rfl
  refine .cons (by unfold remoteEntry; simp only [List.length_append, List.length_replicate, h]; rfl) (fun k => ?_) .nil
  rw [show ([] : List Bytes).flatMap itemBytes ++ [0, 0] = [0, 0] from rfl, show ([0, 0] : Bytes).take 2 = [0, 0] from rfl, hu]
  rcases k with _ | _ | k
  · exact .inl rfl
  · right
    simp
  · by_cases hk : k < 6
    · left
      unfold remoteEntry
      rw [List.getElem?_append_left (l₂ := List.replicate 9 0x64) (by simp only [List.length_cons, List.length_nil]; omega), List.getElem?_append_left (l₂ := r) (by simp only [List.length_cons, List.length_nil]; omega)]
      rfl
    · right
      simp only [List.mem_cons, List.not_mem_nil, or_false]
      rintro q (rfl | rfl | rfl) <;> right <;> simp <;> omega

/-- An item of a type that is not known, between two others. -/
example (env : Env) (x : Bytes) (h : x.length = 6) :
    NothingSeen env none false
      (.indata (le 4 76 ++ shellLinkCLSID.encode ++ le 4 1 ++ List.replicate 52 0 ++ le 2 17 ++
        ([[0x61]] ++ [(0x99 : UInt8) :: List.replicate 6 7] ++ [[0x72]]).flatMap itemBytes ++ 0 :: 0 :: le 4 0))
      (.indata (le 4 76 ++ shellLinkCLSID.encode ++ le 4 1 ++ List.replicate 52 0 ++ le 2 17 ++
        ([[0x61]] ++ [(0x99 : UInt8) :: x] ++ [[0x72]]).flatMap itemBytes ++ 0 :: 0 :: le 4 0)) :=
  opaque_items env none false (tame_usable (usable_default env))
    (le 4 76 ++ shellLinkCLSID.encode ++ le 4 1 ++ List.replicate 52 0 ++ le 2 17) (le 4 0) ⟨76, 1, 95, 95, 95⟩ [[0x61]] [[0x72]] 0x99
    (List.replicate 6 7) x
    (by decide +kernel) (by decide +kernel) (by decide +kernel) (by decide +kernel) (by decide +kernel) (by rw [h]; rfl) (by decide +kernel)
    _ _ rfl rfl

end Verif.Props
