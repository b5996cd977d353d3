import Verif.Lemmas.StoreGaps
import Verif.Props.Hidden

/-
C99: what of a property store, and of a list of shell items in a block, is not looked at.
-/

namespace Verif.Props

open Spec Py Log OpenEnd Hidden

/-- C99: of the values of a property store only the texts are looked at; bytes that belong to nothing that is reported can be anything. -/
theorem property_gaps (env : Env) (cp : Option String) (allow : Bool) (ht : Tame (TextProc.mk' env cp)) (b : Bytes) (L : Layout)
    (l : List Piece) (hO : OpenEnd b L l) (n : Nat) (x x' z : Bytes) (hn : n = 8 + x.length) (hn' : n < 2 ^ 32) (hr : x.length = x'.length)
    (hd : ∀ k, x[k]? = x'[k]? ∨ ∀ r ∈ storeUsed (le 4 n ++ le 4 0xA0000009 ++ x), 8 + k < r.1 ∨ r.2 ≤ 8 + k) (src src' : Source)
    (hs : src.bytes = b ++ (le 4 n ++ le 4 0xA0000009 ++ x ++ z)) (hs' : src'.bytes = b ++ (le 4 n ++ le 4 0xA0000009 ++ x' ++ z)) :
    NothingSeen env cp allow src src' := by
  refine block_seen env cp allow ht b L l hO n 0xA0000009 x x' z hn hn' (by omega) hr
    (Gaps.store_gap _ (by simp [hr]) fun r hr => ?_).symm src src' hs hs'
  have h8 : (le 4 n ++ le 4 0xA0000009).length = 8 := by simp
  refine List.ext_getElem? fun k => ?_
  unfold slice
  rw [List.getElem?_take, List.getElem?_take]
  split
  · rw [List.getElem?_drop, List.getElem?_drop]
    by_cases hk : r.1 + k < 8
    · rw [List.getElem?_append_left (l₂ := x) (by omega), List.getElem?_append_left (l₂ := x') (by omega)]
    · rw [List.getElem?_append_right (l₂ := x) (by omega), List.getElem?_append_right (l₂ := x') (by omega), h8]
      rcases hd (r.1 + k - 8) with h | h
      · exact h
      · have := h r hr
        omega
  · rfl

/-- C99: of the shell items in a block as much is looked at as of those of the ID list, and nothing of what is behind their terminal id. -/
theorem item_block_gaps (env : Env) (cp : Option String) (allow : Bool) (ht : Tame (TextProc.mk' env cp)) (b : Bytes) (L : Layout)
    (l : List Piece) (hO : OpenEnd b L l) (n : Nat) (items items' : List Bytes) (t t' z : Bytes)
    (hn : n = 8 + (items.flatMap itemBytes).length + 2 + t.length) (hn' : n < 2 ^ 32) (h0 : ∀ p ∈ items, p ≠ [])
    (hl : ∀ p ∈ items, p.length + 2 < 65536) (hi : SameItems items items') (htt : t.length = t'.length) (src src' : Source)
    (hs : src.bytes = b ++ (le 4 n ++ le 4 0xA000000C ++ (items.flatMap itemBytes ++ 0 :: 0 :: t) ++ z))
    (hs' : src'.bytes = b ++ (le 4 n ++ le 4 0xA000000C ++ (items'.flatMap itemBytes ++ 0 :: 0 :: t') ++ z)) :
    NothingSeen env cp allow src src' := by
  have hlen := Gaps.same_length hi
  have hx : ∀ y u : Bytes, (y ++ 0 :: 0 :: u).length = y.length + 2 + u.length := fun y u => by
    rw [List.length_append]
    simp only [List.length_cons]
    omega
  refine block_seen env cp allow ht b L l hO n 0xA000000C (items.flatMap itemBytes ++ 0 :: 0 :: t) (items'.flatMap itemBytes ++ 0 :: 0 :: t') z
    (by rw [hx]; omega) hn' (by omega) (by rw [hx, hx]; omega) ?_ src src' hs hs'
  have k : extraKind 0xA000000C = .shellItem := by decide +kernel
  have key : ∀ y : Bytes, n = 8 + y.length → slice (le 4 n ++ le 4 0xA000000C ++ y) 0 4 = le 4 n ∧ slice (le 4 n ++ le 4 0xA000000C ++ y) 8 n = y := by
    intro y hy
    refine ⟨by rw [List.append_assoc]; exact slice_append_exact (by simp), ?_⟩
    unfold slice
    rw [List.drop_left' (by simp), List.take_of_length_le (by omega)]
  obtain ⟨a1, a2⟩ := key (items.flatMap itemBytes ++ 0 :: 0 :: t) (by rw [hx]; omega)
  obtain ⟨b1, b2⟩ := key (items'.flatMap itemBytes ++ 0 :: 0 :: t') (by rw [hx]; omega)
  simp only [k, Extra.asDict, Extra.size, Extra.fields, Extra.shellItemFields, Extra.shellItemIter, Extra.uint, a1, b1,
    unpackU_le (show n < 256 ^ 4 by omega), pure_res, a2, b2]
  rw [list_tail _ items h0 hl t t', Gaps.items_gap _ hi h0 hl]

/-! ### examples -/

/-- A block with a store of one storage with one property of type VT_FILETIME. -/
def timeProperty (r : Bytes) : Bytes := (le 4 49 ++ le 4 0x53505331 ++ List.replicate 16 0 ++ (le 4 21 ++ le 4 14 ++ [0] ++ le 2 0x40 ++ le 2 0)) ++
  (r ++ (le 4 0 ++ le 4 0))

/-- The time itself. -/
example (env : Env) (r : Bytes) (h : r.length = 8) :
    NothingSeen env none false (.indata (bareHeader ++ (le 4 61 ++ le 4 0xA0000009 ++ timeProperty (List.replicate 8 0) ++ le 4 0)))
      (.indata (bareHeader ++ (le 4 61 ++ le 4 0xA0000009 ++ timeProperty r ++ le 4 0))) := by
  have hu : storeUsed (le 4 61 ++ le 4 0xA0000009 ++ timeProperty (List.replicate 8 0)) =
      [(0, 8), (8, 12), (8, 32), (32, 36), (32, 40), (41, 45), (53, 57), (57, 61)] := by decide +kernel
  have hx : ∀ y : Bytes, timeProperty y = (timeProperty []).take 37 ++ (y ++ (le 4 0 ++ le 4 0)) := fun y => rfl
  have hl : ((timeProperty []).take 37).length = 37 := by decide +kernel
  refine property_gaps env none false (tame_usable (usable_default env)) bareHeader ⟨76, 0, 76, 76, 76⟩ [] bareHeader_open 61
    (timeProperty (List.replicate 8 0)) (timeProperty r) (le 4 0) (by decide +kernel) (by omega)
    (by rw [hx, hx r]; simp only [List.length_append, List.length_replicate, h]) (fun k => ?_) _ _ rfl rfl
  by_cases h1 : k < 37
  · left
    rw [hx (List.replicate 8 0), hx r, List.getElem?_append_left (by omega), List.getElem?_append_left (by omega)]
  by_cases h2 : k < 45
  · right
    rw [hu]
    intro q hq
    simp only [List.mem_cons, List.not_mem_nil, or_false] at hq
    rcases hq with rfl | rfl | rfl | rfl | rfl | rfl | rfl | rfl <;> dsimp only <;> omega
  · left
    have key : ∀ y : Bytes, y.length = 8 → (timeProperty y)[k]? = (le 4 0 ++ le 4 0)[k - 37 - 8]? := by
      intro y hy
      rw [hx y, List.getElem?_append_right (by omega), hl, List.getElem?_append_right (by omega), hy]
    rw [key _ List.length_replicate, key r h]

/-- A block with an item of an unknown type, and four bytes behind the terminal id. -/
example (env : Env) (x t : Bytes) (h : x.length = 5) (h' : t.length = 4) :
    NothingSeen env none true
      (.indata (bareHeader ++ (le 4 22 ++ le 4 0xA000000C ++ ([(0x99 : UInt8) :: List.replicate 5 0].flatMap itemBytes ++ 0 :: 0 :: List.replicate 4 0) ++ le 4 0)))
      (.indata (bareHeader ++ (le 4 22 ++ le 4 0xA000000C ++ ([(0x99 : UInt8) :: x].flatMap itemBytes ++ 0 :: 0 :: t) ++ le 4 0))) := by
  refine item_block_gaps env none true (tame_usable (usable_default env)) bareHeader ⟨76, 0, 76, 76, 76⟩ [] bareHeader_open 22 _ _ _ _ _
    (by decide +kernel) (by omega) (by decide) (by decide) ?_ (by rw [h']; rfl) _ _ rfl rfl
  refine .cons (by simp [h]) (fun k => ?_) .nil
  cases k with
  | zero => exact .inl rfl
  | succ k =>
    right
    rw [show itemUsed _ = [(0, 1)] by decide +kernel]
    intro r hr
    rw [List.mem_singleton] at hr
    subst hr
    right
    simp

end Verif.Props
