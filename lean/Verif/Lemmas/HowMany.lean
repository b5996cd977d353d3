import Verif.Lemmas.Log
import Verif.Lemmas.Extra

/-
How many warnings a log has at most.
-/

namespace Verif.HowMany

open Spec Spec.Log

/-- At most `k` warnings, however it ends. -/
def Most (k : Nat) (l : Log) : Prop := ∀ w e, l w e → w.length ≤ k

theorem most_mono {j k : Nat} {l : Log} (h : Most j l) (hk : j ≤ k) : Most k l := fun w e hw => Nat.le_trans (h w e hw) hk

theorem most_quiet : Most 0 quiet := by
  rintro _ _ ⟨rfl, -⟩
  exact Nat.le_refl _

theorem most_say (W : List Warn) : Most W.length (say W) := by
  rintro _ _ ⟨rfl, -⟩
  exact Nat.le_refl _

theorem most_fail (x : PyErr) : Most 0 (fail x) := by
  rintro _ _ ⟨rfl, -⟩
  exact Nat.le_refl _

theorem most_need (c : Prop) (x : PyErr) : Most 0 (need c x) := by
  rintro _ _ ⟨rfl, -⟩
  exact Nat.le_refl _

theorem most_room (n : Nat) (b : Bytes) : Most 0 (room n b) := most_need _ _

theorem most_andThen {j k : Nat} {l m : Log} (hl : Most j l) (hm : Most k m) : Most (j + k) (andThen l m) := by
  rintro w e (⟨h, -⟩ | ⟨u, v, rfl, h1, h2⟩)
  · exact Nat.le_trans (hl w e h) (Nat.le_add_right _ _)
  · rw [List.length_append]
    exact Nat.add_le_add (hl u none h1) (hm v e h2)

theorem most_nil : Most 0 (all []) := most_quiet

theorem most_cons {j k : Nat} {l : Log} {ls : List Log} (hl : Most j l) (hm : Most k (all ls)) : Most (j + k) (all (l :: ls)) :=
  most_andThen hl hm

theorem most_given (c : Prop) {k : Nat} {l : Log} (h : Most k l) : Most k (given c l) := by
  intro w e hw
  by_cases hc : c
  · exact h w e (hw.1 hc)
  · exact Nat.le_trans (most_quiet w e (hw.2 hc)) (Nat.zero_le _)

theorem most_ite {c : Prop} [Decidable c] {j k : Nat} {l m : Log} (hl : Most j l) (hm : Most k m) : Most (max j k) (if c then l else m) := by
  split
  · exact most_mono hl (Nat.le_max_left _ _)
  · exact most_mono hm (Nat.le_max_right _ _)

theorem most_caught (name : String) {k : Nat} {l : Log} (h : Most k l) : Most (k + 1) (caught name l) := by
  rintro w e (⟨u, x, -, hu, rfl, -⟩ | ⟨hw, -⟩)
  · have := h u _ hu
    simp only [List.length_append, List.length_cons, List.length_nil]
    omega
  · have := h w e hw
    omega

/-! ### texts -/

theorem most_decoded (tp : TextProc) (a : Bytes) : Most 1 (decoded tp a) := by
  unfold decoded
  split
  · exact most_mono most_quiet (by omega)
  split
  · exact most_mono (most_fail _) (by omega)
  split
  · exact most_mono most_quiet (by omega)
  rintro w e (⟨-, h⟩ | ⟨-, ⟨-, h⟩ | ⟨-, h⟩⟩)
  · exact most_mono (most_fail _) (by omega) w e h
  · exact most_mono most_quiet (by omega) w e h
  · split at h
    · exact most_say _ w e h
    · exact most_mono (most_fail _) (by omega) w e h

theorem most_narrow (tp : TextProc) (b : Bytes) : Most 1 (narrow tp b) := most_decoded _ _

theorem most_utf16 (b : Bytes) : Most 1 (utf16Read b) := by
  rintro w e (⟨-, h⟩ | ⟨-, s, -, h⟩)
  · exact most_mono most_quiet (by omega) w e h
  · exact most_say _ w e h

theorem most_wide (b : Bytes) : Most 1 (wide b) := by
  rintro w e ⟨us, -, ⟨_, -, -, h⟩ | ⟨_, -, h⟩⟩
  · exact most_utf16 _ w e h
  · exact most_utf16 _ w e h

theorem most_either (tp : TextProc) (u : Bool) (b : Bytes) : Most 1 (either tp u b) := by
  unfold either
  split
  · exact most_wide _
  · exact most_narrow _ _

theorem most_again (tp : TextProc) (b : Bytes) : Most 2 (again tp b) :=
  most_cons (most_narrow _ _) (most_cons (most_given _ (most_narrow _ _)) most_nil)

/-! ### header -/

theorem most_unlessEqual (name : String) (v k : MustVal) : Most 1 (say (unlessEqual name v k)) := by
  unfold unlessEqual
  split
  · exact most_mono (most_say _) (by simp)
  · exact most_say _

theorem most_time (h : Bytes) (off : Nat) : Most 1 (time h off) := by
  rintro w e ⟨t, -, ⟨-, -, hw⟩ | ⟨-, hw⟩⟩
  · exact most_say _ w e hw
  · exact most_mono most_quiet (by omega) w e hw

theorem most_classId (h : Bytes) : Most 1 (classId h) := by
  rintro w e ⟨g, -, hw⟩
  exact most_unlessEqual _ _ _ w e hw

theorem most_header (h : Bytes) : Most 8 (header h) :=
  most_cons (most_room _ _) <| most_cons (most_classId _) <| most_cons (most_room _ _) <| most_cons (most_time _ _) <|
  most_cons (most_room _ _) <| most_cons (most_time _ _) <| most_cons (most_room _ _) <| most_cons (most_time _ _) <|
  most_cons (most_room _ _) <| most_cons (most_unlessEqual _ _ _) <| most_cons (most_room _ _) <|
  most_cons (most_unlessEqual _ _ _) <| most_cons (most_room _ _) <| most_cons (most_unlessEqual _ _ _) <|
  most_cons (most_room _ _) <| most_cons (most_unlessEqual _ _ _) most_nil

/-! ### items -/

theorem kindNotices_length (w : Bytes) : (kindNotices w).length ≤ 1 := by
  unfold kindNotices
  split
  · simp
  · split <;> simp

theorem timeNotices_length (w : Bytes) : (timeNotices w).length ≤ 1 := by
  unfold timeNotices
  split
  · split <;> simp
  · simp

theorem typeNotices_length (t : Nat) : (typeNotices t).length ≤ 1 := by
  unfold typeNotices
  split <;> simp

theorem most_file (tp : TextProc) (w : Bytes) : Most 3 (file tp w) :=
  most_cons (most_room _ _) <| most_cons (most_mono (most_say _) (kindNotices_length w)) <| most_cons (most_room _ _) <|
  most_cons (most_mono (most_say _) (timeNotices_length w)) <| most_cons (most_room _ _) <| most_cons (most_either _ _ _) most_nil

theorem most_cpl (tp : TextProc) (w : Bytes) : Most 3 (cpl tp w) := by
  refine most_cons (most_room _ _) (most_cons (k := 0) (j := 3) ?_ most_nil)
  split
  · exact most_cons (most_wide _) <| most_cons (most_wide _) <| most_cons (most_given _ (most_wide _)) most_nil
  · exact most_cons (most_narrow _ _) <| most_cons (most_room _ _) <| most_cons (most_narrow _ _) <| most_cons (most_room _ _) <|
      most_cons (most_given _ (most_narrow _ _)) most_nil

theorem most_piece (tp : TextProc) (x : PyErr) (ps : List Bytes) (k : Nat) : Most 1 (piece tp x ps k) :=
  most_cons (most_need _ _) <| most_cons (most_narrow _ _) most_nil

theorem most_networkStrings (tp : TextProc) (x : PyErr) (w : Bytes) : Most 3 (networkStrings tp x w) :=
  most_cons (most_narrow _ _) <| most_cons (most_room _ _) <| most_cons (most_given _ (most_piece _ _ _ _)) <|
    most_cons (most_given _ (most_piece _ _ _ _)) most_nil

theorem most_item (tp : TextProc) (cls : String) (w : Bytes) : Most 4 (item tp cls w) := by
  have hn : cls = "Control panel category" ∨ cls = "Root Folder" → (itemNotices cls w).length ≤ 1 := by
    rintro (rfl | rfl)
    · unfold itemNotices
      rw [if_pos rfl]
      split
      · split <;> simp
      · simp
    · unfold itemNotices
      rw [if_neg (by decide), if_pos rfl]
      split
      · split <;> simp
      · simp
  unfold item
  split
  · exact most_mono (most_cpl _ _) (by omega)
  split
  · exact most_mono (most_cons (most_room _ _) (most_cons (most_mono (most_say _) (hn (.inl ‹_›))) most_nil)) (by omega)
  split
  · exact most_mono (most_cons (most_room _ _) (most_cons (most_mono (most_say _) (hn (.inr ‹_›))) (most_cons (most_room _ _) most_nil))) (by omega)
  split
  · exact most_mono (most_cons (most_room _ _) (most_cons (most_ite (most_narrow _ _) (most_room _ _)) most_nil)) (by decide)
  split
  · exact most_mono (most_file _ _) (by omega)
  split
  · exact most_cons (most_networkStrings _ _ _) (most_cons (most_mono (most_say _) (kindNotices_length w)) most_nil)
  split
  · exact most_mono (most_room _ _) (by omega)
  split
  · exact most_mono (most_cons (most_room _ _) (most_cons (most_file _ _) (most_cons (most_room _ _) most_nil))) (by omega)
  · exact most_mono most_quiet (by omega)

theorem most_list (tp : TextProc) (b : Bytes) : Most (5 * b.length) (list tp b) := by
  generalize hm : b.length = m
  induction m using Nat.strong_induction_on generalizing b with
  | _ m ih =>
    rw [list]
    split
    · exact most_mono most_quiet (by omega)
    rename_i hb
    have hpos : 0 < b.length := List.length_pos_iff.2 hb
    split
    · exact most_mono (most_fail _) (by omega)
    · exact most_mono most_quiet (by omega)
    · split
      · exact most_mono (most_fail _) (by omega)
      · rename_i n _ _ t _
        have hd : (b.drop (n + 1)).length < m := by rw [List.length_drop]; omega
        refine most_mono (most_cons (most_mono (most_say _) (typeNotices_length _)) (most_cons (most_item _ _ _)
          (most_cons (ih _ hd _ rfl) most_nil))) ?_
        omega

/-! ### link info -/

theorem most_volume (tp : TextProc) (i : Bytes) (o : Nat) : Most 2 (volume tp i o) :=
  most_cons (most_room _ _) <| most_cons (most_given _ (most_narrow _ _)) <|
  most_cons (most_given _ (most_cons (most_room _ _) (most_cons (most_given _ (most_wide _)) most_nil))) most_nil

theorem most_networkLink (tp : TextProc) (i : Bytes) (o : Nat) : Most 4 (networkLink tp i o) := by
  refine most_cons (most_room _ _) (most_cons (j := 4) (k := 0) ?_ most_nil)
  split
  · exact most_mono (most_cons (most_room _ _) <| most_cons (most_given _ (most_wide _)) <| most_cons (most_room _ _) <|
      most_cons (most_given _ (most_wide _)) most_nil) (by omega)
  · exact most_cons (most_again _ _) <| most_cons (most_again _ _) most_nil

theorem most_info (tp : TextProc) (i : Bytes) (kind : String) : Most 8 (info tp i kind) :=
  most_cons (most_room _ _) <| most_cons (most_given _ (most_narrow _ _)) <| most_cons (most_given _ (most_narrow _ _)) <|
  most_cons (most_given _ (most_cons (most_room _ _) (most_cons (most_given _ (most_wide _)) most_nil))) <|
  most_cons (most_given _ (most_cons (most_room _ _) (most_cons (most_given _ (most_wide _)) most_nil))) <|
  most_cons (most_ite (most_volume _ _ _) (most_networkLink _ _ _)) most_nil

/-! ### extra blocks -/

theorem most_typed (v : Bytes) : Most 1 (typed v) := by
  refine most_cons (most_room _ _) (most_cons (j := 1) (k := 0) (most_given _ ?_) (most_cons (most_need _ _) most_nil))
  exact most_ite (most_fail _) (most_given _ (most_cons (most_room _ _) (most_cons (most_wide _) most_nil)))

theorem most_property (named : Bool) (v : Bytes) : Most 2 (property named v) :=
  most_cons (most_room _ _) <| most_cons (most_given _ (most_wide _)) <| most_cons (most_typed _) most_nil

theorem records_length {b : Bytes} {l : List Bytes} (h : Records b l) : l.length ≤ b.length := by
  induction h with
  | stop => exact Nat.zero_le _
  | @next b n l h hn _ ih =>
    have := ExtraData.uAt_some_length h
    rw [List.length_drop] at ih
    rw [List.length_cons]
    omega

theorem most_map {f : Bytes → Log} {k : Nat} (h : ∀ v, Most k (f v)) (l : List Bytes) : Most (k * l.length) (all (l.map f)) := by
  induction l with
  | nil => exact most_nil
  | cons v l ih =>
    have := most_cons (h v) ih
    rw [List.length_cons, Nat.mul_add, Nat.mul_one, Nat.add_comm]
    exact this

theorem most_storage (s : Bytes) : Most (2 * s.length) (storage s) := by
  refine most_mono (most_cons (most_room _ _) (most_cons (k := 0) (j := 2 * (s.drop 24).length) ?_ most_nil)) (by rw [List.length_drop]; omega)
  rintro w e (⟨l, h1, h2⟩ | ⟨-, h⟩)
  · have := most_map (most_property _) l w e h2
    have := records_length h1
    omega
  · exact most_mono (most_fail _) (Nat.zero_le _) w e h

theorem most_storages (b : Bytes) : Most (b.length * (b.length + 1)) (records storage b) := by
  rintro w e (⟨l, h1, h2⟩ | ⟨-, h⟩)
  · refine (?_ : Most _ (all (l.map storage))) w e h2
    clear h2
    induction h1 with
    | stop => exact most_mono most_nil (Nat.zero_le _)
    | @next b n l h hn _ ih =>
      have hb := ExtraData.uAt_some_length h
      refine most_mono (most_cons (most_storage _) ih) ?_
      have hd : (b.drop n).length + 1 ≤ b.length := by rw [List.length_drop]; omega
      calc 2 * b.length + (b.drop n).length * ((b.drop n).length + 1)
          ≤ 2 * b.length + (b.length - 1) * b.length :=
            Nat.add_le_add_left (Nat.mul_le_mul (by omega) hd) _
        _ = b.length * (b.length + 1) := by
            obtain ⟨m, hm⟩ : ∃ m, b.length = m + 1 := ⟨b.length - 1, by omega⟩
            rw [hm, Nat.add_sub_cancel]
            ring
  · exact most_mono (most_fail _) (Nat.zero_le _) w e h

theorem most_descriptor (b : Bytes) : Most 4 (descriptor b) :=
  most_cons (most_wide _) <| most_cons (most_wide _) <| most_cons (most_need _ _) <| most_cons (most_wide _) <|
  most_cons (most_wide _) <| most_cons (most_need _ _) most_nil

theorem most_block (tp : TextProc) {s : Nat} (hs : s ≠ 0xA0000009) (b : Bytes) (hb : 0 < b.length) :
    Most (6 * b.length - 1) (block tp s b) := by
  unfold block
  split
  · exact most_mono (most_cons (most_narrow _ _) (most_cons (most_wide _) most_nil)) (by omega)
  split
  · exact most_mono (most_cons (most_room _ _) (most_cons (most_wide _) (most_cons (most_room _ _) most_nil))) (by omega)
  split
  · exact most_mono (most_cons (most_room _ _) <| most_cons (most_unlessEqual _ _ _) <| most_cons (most_room _ _) <|
      most_cons (most_unlessEqual _ _ _) <| most_cons (most_narrow _ _) <| most_cons (most_room _ _) most_nil) (by omega)
  split
  · exact most_mono (most_room _ _) (by omega)
  split
  · exact most_mono (most_room _ _) (by omega)
  split
  · exact most_mono (most_cons (most_narrow _ _) (most_cons (most_descriptor _) most_nil)) (by omega)
  split
  · exact most_mono (most_narrow _ _) (by omega)
  split
  · exact most_mono (most_room _ _) (by omega)
  split
  · exact most_mono (most_list _ _) (by rw [List.length_drop]; omega)
  · exact most_mono most_quiet (by omega)

theorem most_metadata (tp : TextProc) (b : Bytes) (hb : 0 < b.length) :
    Most (b.length * b.length + 6 * b.length - 1) (block tp 0xA0000009 b) := by
  refine most_mono (most_storages (b.drop 8)) ?_
  have hd : (b.drop 8).length ≤ b.length := by rw [List.length_drop]; omega
  have : (b.drop 8).length * (b.drop 8).length ≤ b.length * b.length := Nat.mul_le_mul hd hd
  rw [Nat.mul_add]
  omega

theorem most_extra (tp : TextProc) (p : Piece) (hb : 0 < p.bytes.length) :
    Most ((if p.signature = some 0xA0000009 then p.bytes.length * p.bytes.length else 0) + 6 * p.bytes.length) (extra tp p) := by
  unfold extra
  rcases p.signature with _ | s
  · exact most_mono most_quiet (Nat.zero_le _)
  · dsimp only
    by_cases h9 : s = 0xA0000009
    · subst h9
      refine most_mono (most_caught _ (most_metadata tp _ hb)) ?_
      rw [if_pos rfl]
      generalize p.bytes.length * p.bytes.length = q
      omega
    · refine most_mono (most_caught _ (most_block tp h9 _ hb)) ?_
      omega

theorem most_extras (tp : TextProc) {b : Bytes} {l : List Piece} {last : Bytes} (h : Cut b l last) :
    Most ((if ∃ p ∈ l, p.signature = some 0xA0000009 then b.length * b.length else 0) + 6 * b.length) (all (l.map (extra tp))) := by
  induction h with
  | stop => exact most_mono most_nil (Nat.zero_le _)
  | @block b n l last h hn _ ih =>
    have hb := ExtraData.uAt_some_length h
    have ht : (b.take n).length + (b.drop n).length = b.length := by rw [← List.length_append, List.take_append_drop]
    have h0 : 0 < (b.take n).length := by rw [List.length_take]; omega
    refine most_mono (most_cons (most_extra tp ⟨n, b.take n, uAt 4 b 4⟩ h0) ih) ?_
    have hq : b.length * b.length = (b.take n).length * (b.take n).length + (b.drop n).length * (b.drop n).length +
        2 * ((b.take n).length * (b.drop n).length) := by
      rw [← ht]
      ring
    by_cases h1 : uAt 4 b 4 = some 0xA0000009 <;> by_cases h2 : ∃ p ∈ l, p.signature = some 0xA0000009
    all_goals
      simp only [List.mem_cons, exists_eq_or_imp, h1, h2, or_self, or_true, true_or, if_true, if_false]
      omega

/-! ### the whole -/

theorem most_strings (tp : TextProc) (flags : Nat) (b : Bytes) (fs : List (Nat × Nat)) (pos : Nat) :
    Most fs.length (strings tp flags b fs pos) := by
  induction fs generalizing pos with
  | nil => exact most_quiet
  | cons p fs ih =>
    obtain ⟨bit, limit⟩ := p
    rw [strings, List.length_cons]
    split
    · split
      · exact most_mono (most_say _) (by simp)
      · refine most_mono (most_cons (most_either _ _ _) (most_cons (ih _) most_nil)) (by omega)
    · exact most_mono (ih _) (by omega)

/-- Fewer than eight bytes are left when a signature is missing. -/
theorem unsigned_few {b : Bytes} {l : List Piece} {last : Bytes} (h : Cut b l last) :
    (l.filter fun p => p.signature.isNone).length ≤ min 4 (b.length - 3) := by
  induction h with
  | stop => exact Nat.zero_le _
  | @block b n l last h hn _ ih =>
    have hb := ExtraData.uAt_some_length h
    rw [List.length_drop] at ih
    rw [List.filter_cons]
    split
    · rename_i hs
      have : b.length < 8 := by
        by_contra h8
        have h9 : uAt 4 b 4 = some _ := if_pos (by omega)
        simp [h9] at hs
      rw [List.length_cons]
      omega
    · omega

theorem most_pieces {b : Bytes} {l : List Piece} {last : Bytes} (h : Cut b l last) : Most 5 (pieces l last) := by
  refine most_cons (most_mono (most_say _) (k := 4) ?_) (most_cons (most_mono (most_say _) (k := 1) ?_)
    (most_cons (most_need _ _) most_nil))
  · have := unsigned_few h
    rw [List.length_map]
    omega
  · split <;> simp

theorem most_construction (tp : TextProc) (b : Bytes) : Most 13 (construction tp b) := by
  refine most_cons (most_room _ _) <| most_cons (most_unlessEqual _ _ _) <| most_cons (most_room _ _) <|
    most_cons (most_unlessEqual _ _ _) <| most_cons (most_need _ _) <| most_cons (j := 11) (k := 0) ?_ most_nil
  rintro w e ⟨L, l, last, -, hc, h⟩
  refine most_cons (most_mono (most_say _) (k := 1) ?_) (most_cons (most_strings _ _ _ _ _)
    (most_cons (most_pieces hc) most_nil)) w e h
  split <;> simp

theorem stringsEnd_le (flags : Nat) (b : Bytes) (fs : List (Nat × Nat)) (pos : Nat) : pos ≤ stringsEnd flags b fs pos := by
  induction fs generalizing pos with
  | nil => exact Nat.le_refl _
  | cons p fs ih =>
    obtain ⟨bit, limit⟩ := p
    unfold stringsEnd
    split
    · split
      · exact Nat.le_refl _
      · refine Nat.le_trans ?_ (ih _)
        omega
    · exact ih _

theorem layout_order {b : Bytes} {L : Layout} (h : layout b = some L) : L.infoAt ≤ L.extraAt := by
  unfold layout at h
  split at h
  · cases h
  split at h
  · cases h
  split at h
  · cases h
  cases h
  refine Nat.le_trans ?_ (stringsEnd_le _ _ _ _)
  dsimp only
  split <;> omega

theorem most_report (tp : TextProc) {b : Bytes} {L : Layout} {l : List Piece} {last : Bytes} (hL : layout b = some L)
    (hc : Cut (b.drop L.extraAt) l last) :
    Most ((if ∃ p ∈ l, p.signature = some 0xA0000009 then b.length * b.length else 0) + 6 * b.length + 16) (report tp b L l) := by
  have ho := layout_order hL
  refine most_mono (most_cons (most_header _) <| most_cons (most_given _ (most_list _ _)) <|
    most_cons (j := 8) (most_given _ ?_) <| most_cons (most_extras tp hc) most_nil) ?_
  · split
    · exact most_mono most_quiet (by omega)
    · exact most_info _ _ _
  · have h1 : (between b (L.headerSize + 2) L.infoAt).length + (b.drop L.extraAt).length ≤ b.length := by
      unfold between
      rw [List.length_take, List.length_drop, List.length_drop]
      omega
    have h2 : (b.drop L.extraAt).length ≤ b.length := by omega
    have := Nat.mul_le_mul h2 h2
    split <;> omega

end Verif.HowMany
