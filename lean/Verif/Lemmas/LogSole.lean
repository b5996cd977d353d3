import Verif.Lemmas.LogFile

/-
A log says one thing only.
-/

namespace Verif

open Spec Py

namespace Spec.Log

/-- There is at most one sequence of warnings and one outcome. -/
def Sole (l : Log) : Prop := ∀ w e w' e', l w e → l w' e' → w = w' ∧ e = e'

theorem sole_quiet : Sole quiet := by rintro w e w' e' ⟨rfl, rfl⟩ ⟨rfl, rfl⟩; exact ⟨rfl, rfl⟩
theorem sole_say (W : List Warn) : Sole (say W) := by rintro w e w' e' ⟨rfl, rfl⟩ ⟨rfl, rfl⟩; exact ⟨rfl, rfl⟩
theorem sole_fail (x : PyErr) : Sole (fail x) := by rintro w e w' e' ⟨rfl, rfl⟩ ⟨rfl, rfl⟩; exact ⟨rfl, rfl⟩

theorem sole_need (c : Prop) (x : PyErr) : Sole (need c x) := by
  by_cases h : c
  · rw [need_pos h]; exact sole_quiet
  · rw [need_neg h]; exact sole_fail x

theorem sole_room (n : Nat) (b : Bytes) : Sole (room n b) := sole_need _ _

theorem sole_andThen {l m : Log} (hl : Sole l) (hm : Sole m) : Sole (andThen l m) := by
  rintro w e w' e' (⟨h1, h2⟩ | ⟨u, v, rfl, h1, h2⟩) (⟨h3, h4⟩ | ⟨u', v', rfl, h3, h4⟩)
  · exact hl _ _ _ _ h1 h3
  · exact absurd (hl _ _ _ _ h1 h3).2 h2
  · exact absurd (hl _ _ _ _ h3 h1).2 h4
  · obtain ⟨rfl, -⟩ := hl _ _ _ _ h1 h3
    obtain ⟨rfl, rfl⟩ := hm _ _ _ _ h2 h4
    exact ⟨rfl, rfl⟩

theorem sole_nil : Sole (all []) := sole_quiet
theorem sole_cons {l : Log} {ls : List Log} (hl : Sole l) (hs : Sole (all ls)) : Sole (all (l :: ls)) := sole_andThen hl hs

theorem sole_all {ls : List Log} (h : ∀ l ∈ ls, Sole l) : Sole (all ls) := by
  induction ls with
  | nil => exact sole_quiet
  | cons l ls ih => exact sole_cons (h l (by simp)) (ih fun m hm => h m (by simp [hm]))

theorem sole_given (c : Prop) {l : Log} (h : Sole l) : Sole (given c l) := by
  by_cases hc : c
  · rw [given_pos hc]; exact h
  · rw [given_neg hc]; exact sole_quiet

theorem sole_ite {c : Prop} [Decidable c] {l m : Log} (hl : Sole l) (hm : Sole m) : Sole (if c then l else m) := by
  split
  · exact hl
  · exact hm

theorem sole_caught (name : String) {l : Log} (h : Sole l) : Sole (caught name l) := by
  have no : ∀ {x : PyErr} {e : Option PyErr}, (x = .structError ∨ x = .valueError ∨ x = .unicodeDecode) → some x = e →
      ¬ ∀ x, e = some x → x ≠ .structError ∧ x ≠ .valueError ∧ x ≠ .unicodeDecode := by
    rintro x e hx rfl hn
    have := hn x rfl
    rcases hx with h | h | h
    · exact this.1 h
    · exact this.2.1 h
    · exact this.2.2 h
  rintro w e w' e' (⟨u, x, hx, h1, rfl, rfl⟩ | ⟨h1, h2⟩) (⟨u', x', hx', h3, rfl, rfl⟩ | ⟨h3, h4⟩)
  · obtain ⟨rfl, h5⟩ := h _ _ _ _ h1 h3
    cases h5
    exact ⟨rfl, rfl⟩
  · exact absurd h4 (no hx (h _ _ _ _ h1 h3).2)
  · exact absurd h2 (no hx' (h _ _ _ _ h3 h1).2)
  · exact h _ _ _ _ h1 h3

/-! ### texts -/

theorem sole_decoded (tp : TextProc) (a : Bytes) : Sole (decoded tp a) := by
  unfold decoded
  split
  · exact sole_quiet
  split
  · exact sole_fail _
  split
  · exact sole_quiet
  rename_i c hc x hx
  rintro w e w' e' (⟨h1, h2⟩ | ⟨h1, ⟨⟨s, h2⟩, h3⟩ | ⟨h2, h3⟩⟩) (⟨h4, h5⟩ | ⟨h4, ⟨⟨t, h5⟩, h6⟩ | ⟨h5, h6⟩⟩)
  · exact sole_fail _ _ _ _ _ h2 h5
  · exact absurd h4 h1
  · exact absurd h4 h1
  · exact absurd h1 h4
  · exact sole_quiet _ _ _ _ h3 h6
  · exact absurd h2 (h5 s)
  · exact absurd h1 h4
  · exact absurd h5 (h2 t)
  · split at h3
    · rename_i r hr
      rw [hr] at h6
      exact sole_say _ _ _ _ _ h3 h6
    · rename_i r hr
      rw [hr] at h6
      exact sole_fail _ _ _ _ _ h3 h6

theorem sole_narrow (tp : TextProc) (b : Bytes) : Sole (narrow tp b) := sole_decoded _ _

theorem sole_utf16 (b : Bytes) : Sole (utf16Read b) := by
  rintro w e w' e' (⟨⟨s, h1⟩, h2⟩ | ⟨h1, s, h2, h3⟩) (⟨⟨t, h4⟩, h5⟩ | ⟨h4, t, h5, h6⟩)
  · exact sole_quiet _ _ _ _ h2 h5
  · exact absurd h1 (h4 s)
  · exact absurd h4 (h1 t)
  · have h7 := utf16Lenient_pieces h2
    have h8 := utf16Lenient_pieces h5
    rw [h7] at h8
    subst h8
    exact sole_say _ _ _ _ _ h3 h6

theorem sole_wide (b : Bytes) : Sole (wide b) := by
  have key : ∀ w e, wide b w e → w = (TextProc.readUnicodeString b).warns ∧ e = (TextProc.readUnicodeString b).err := by
    rintro w e ⟨us, h, ⟨tail, ht, rfl, h1⟩ | ⟨rest, rfl, h1⟩⟩
    · exact sole_utf16 _ _ _ _ _ h1 (logs_utf16 us h tail ht)
    · rw [Props.wide_stops_at_nul us rest h]
      have := logs_utf16 us h [] (by simp)
      rw [List.append_nil] at this
      exact sole_utf16 _ _ _ _ _ h1 this
  intro w e w' e' h1 h2
  obtain ⟨rfl, rfl⟩ := key _ _ h1
  obtain ⟨rfl, rfl⟩ := key _ _ h2
  exact ⟨rfl, rfl⟩

theorem sole_either (tp : TextProc) (u : Bool) (b : Bytes) : Sole (either tp u b) := sole_ite (sole_wide b) (sole_narrow tp b)

theorem sole_again (tp : TextProc) (b : Bytes) : Sole (again tp b) :=
  sole_cons (sole_narrow _ _) (sole_cons (sole_given _ (sole_narrow _ _)) sole_nil)

/-! ### header -/

theorem sole_time (h : Bytes) (off : Nat) : Sole (time h off) := by
  rintro w e w' e' ⟨t, h1, h2⟩ ⟨t', h1', h2'⟩
  rw [h1] at h1'
  cases h1'
  by_cases hc : t ≠ 0 ∧ OutOfCalendar t
  · rcases h2 with ⟨-, -, h2⟩ | ⟨h, -⟩
    · rcases h2' with ⟨-, -, h2'⟩ | ⟨h, -⟩
      · exact sole_say _ _ _ _ _ h2 h2'
      · exact absurd hc h
    · exact absurd hc h
  · rcases h2 with ⟨ha, hb, -⟩ | ⟨-, h2⟩
    · exact absurd ⟨ha, hb⟩ hc
    · rcases h2' with ⟨ha, hb, -⟩ | ⟨-, h2'⟩
      · exact absurd ⟨ha, hb⟩ hc
      · exact sole_quiet _ _ _ _ h2 h2'

theorem sole_classId (h : Bytes) : Sole (classId h) := by
  rintro w e w' e' ⟨g, h1, h2⟩ ⟨g', h1', h2'⟩
  rw [h1] at h1'
  obtain rfl := Guid_encode_inj h1'
  exact sole_say _ _ _ _ _ h2 h2'

theorem sole_header (h : Bytes) : Sole (header h) := by
  unfold header
  repeat' first
    | exact sole_nil | exact sole_room _ _ | exact sole_say _ | exact sole_time _ _ | exact sole_classId _ | apply sole_cons

/-! ### items -/

theorem sole_file (tp : TextProc) (w : Bytes) : Sole (file tp w) := by
  unfold file
  repeat' first
    | exact sole_nil | exact sole_room _ _ | exact sole_say _ | exact sole_either _ _ _ | apply sole_cons

theorem sole_cpl (tp : TextProc) (w : Bytes) : Sole (cpl tp w) := by
  unfold cpl
  repeat' first
    | exact sole_nil | exact sole_room _ _ | exact sole_say _ | exact sole_wide _ | exact sole_narrow _ _ | apply sole_cons
    | apply sole_ite | apply sole_given

theorem sole_piece (tp : TextProc) (x : PyErr) (ps : List Bytes) (k : Nat) : Sole (piece tp x ps k) :=
  sole_cons (sole_need _ _) (sole_cons (sole_narrow _ _) sole_nil)

theorem sole_networkStrings (tp : TextProc) (x : PyErr) (w : Bytes) : Sole (networkStrings tp x w) := by
  unfold networkStrings
  repeat' first
    | exact sole_nil | exact sole_room _ _ | exact sole_narrow _ _ | exact sole_piece _ _ _ _ | apply sole_cons | apply sole_given

theorem sole_item (tp : TextProc) (cls : String) (w : Bytes) : Sole (item tp cls w) := by
  unfold item
  repeat' first
    | exact sole_nil | exact sole_quiet | exact sole_room _ _ | exact sole_say _ | exact sole_narrow _ _ | exact sole_cpl _ _
    | exact sole_file _ _ | exact sole_networkStrings _ _ _ | apply sole_cons | apply sole_ite

theorem sole_list (tp : TextProc) (b : Bytes) : Sole (list tp b) := by
  generalize hm : b.length = m
  induction m using Nat.strong_induction_on generalizing b with
  | _ m ih =>
    rw [list]
    split
    · exact sole_quiet
    rename_i hb
    split
    · exact sole_fail _
    · exact sole_quiet
    split
    · exact sole_fail _
    · refine sole_cons (sole_say _) (sole_cons (sole_item _ _ _) (sole_cons (ih _ ?_ _ rfl) sole_nil))
      have := List.length_pos_iff.2 hb
      simp
      omega

/-! ### link info -/

theorem sole_volume (tp : TextProc) (i : Bytes) (o : Nat) : Sole (volume tp i o) := by
  unfold volume
  repeat' first
    | exact sole_nil | exact sole_room _ _ | exact sole_narrow _ _ | exact sole_wide _ | apply sole_cons | apply sole_given

theorem sole_networkLink (tp : TextProc) (i : Bytes) (o : Nat) : Sole (networkLink tp i o) := by
  unfold networkLink
  repeat' first
    | exact sole_nil | exact sole_room _ _ | exact sole_again _ _ | exact sole_wide _ | apply sole_cons | apply sole_given | apply sole_ite

theorem sole_info (tp : TextProc) (i : Bytes) (kind : String) : Sole (Log.info tp i kind) := by
  unfold Log.info
  repeat' first
    | exact sole_nil | exact sole_room _ _ | exact sole_narrow _ _ | exact sole_wide _ | exact sole_volume _ _ _
    | exact sole_networkLink _ _ _ | apply sole_cons | apply sole_given | apply sole_ite

/-! ### extra blocks -/

theorem sole_records {f : Bytes → Log} (hf : ∀ b, Sole (f b)) (b : Bytes) : Sole (records f b) := by
  rintro w e w' e' (⟨l, h1, h2⟩ | ⟨h1, h2⟩) (⟨l', h3, h4⟩ | ⟨h3, h4⟩)
  · obtain rfl := Values.records_unique h1 h3
    refine sole_all (fun m hm => ?_) _ _ _ _ h2 h4
    obtain ⟨x, -, rfl⟩ := List.mem_map.1 hm
    exact hf x
  · exact absurd h1 (h3 l)
  · exact absurd h3 (h1 l')
  · exact sole_fail _ _ _ _ _ h2 h4

theorem sole_typed (v : Bytes) : Sole (typed v) := by
  unfold typed
  repeat' first
    | exact sole_nil | exact sole_room _ _ | exact sole_need _ _ | exact sole_fail _ | exact sole_wide _ | apply sole_cons
    | apply sole_given | apply sole_ite

theorem sole_property (named : Bool) (v : Bytes) : Sole (property named v) :=
  sole_cons (sole_room _ _) (sole_cons (sole_given _ (sole_wide _)) (sole_cons (sole_typed _) sole_nil))

theorem sole_storage (s : Bytes) : Sole (storage s) :=
  sole_cons (sole_room _ _) (sole_cons (sole_records (sole_property _) _) sole_nil)

theorem sole_descriptor (b : Bytes) : Sole (descriptor b) := by
  unfold descriptor
  repeat' first | exact sole_nil | exact sole_need _ _ | exact sole_wide _ | apply sole_cons

theorem sole_block (tp : TextProc) (s : Nat) (b : Bytes) : Sole (block tp s b) := by
  unfold block
  repeat' first
    | exact sole_nil | exact sole_quiet | exact sole_room _ _ | exact sole_say _ | exact sole_narrow _ _ | exact sole_wide _
    | exact sole_descriptor _ | exact sole_records sole_storage _ | exact sole_list _ _ | apply sole_cons | apply sole_ite

theorem sole_extra (tp : TextProc) (p : Piece) : Sole (extra tp p) := by
  unfold extra
  split
  · exact sole_quiet
  · exact sole_caught _ (sole_block _ _ _)

/-! ### the whole -/

theorem sole_report (tp : TextProc) (b : Bytes) (L : Layout) (l : List Piece) : Sole (report tp b L l) := by
  refine sole_cons (sole_header _) (sole_cons (sole_given _ (sole_list _ _)) (sole_cons (sole_given _ ?_) (sole_cons ?_ sole_nil)))
  · split
    · exact sole_quiet
    · exact sole_info _ _ _
  · refine sole_all fun m hm => ?_
    obtain ⟨x, -, rfl⟩ := List.mem_map.1 hm
    exact sole_extra _ _

theorem sole_strings (tp : TextProc) (flags : Nat) (b : Bytes) (fs : List (Nat × Nat)) (pos : Nat) : Sole (strings tp flags b fs pos) := by
  induction fs generalizing pos with
  | nil => exact sole_quiet
  | cons f fs ih =>
    obtain ⟨bit, limit⟩ := f
    unfold strings
    split
    · split
      · exact sole_say _
      · exact sole_cons (sole_either _ _ _) (sole_cons (ih _) sole_nil)
    · exact ih _

theorem sole_pieces (l : List Piece) (last : Bytes) : Sole (pieces l last) :=
  sole_cons (sole_say _) (sole_cons (sole_say _) (sole_cons (sole_need _ _) sole_nil))

theorem sole_construction (tp : TextProc) (b : Bytes) : Sole (construction tp b) := by
  refine sole_cons (sole_room _ _) (sole_cons (sole_say _) (sole_cons (sole_room _ _) (sole_cons (sole_say _) (sole_cons (sole_need _ _)
    (sole_cons ?_ sole_nil)))))
  rintro w e w' e' ⟨L, l, last, h1, h2, h3⟩ ⟨L', l', last', h1', h2', h3'⟩
  rw [h1] at h1'
  cases h1'
  obtain ⟨rfl, rfl⟩ := Props.cut_unique h2 h2'
  exact sole_cons (sole_say _) (sole_cons (sole_strings _ _ _ _ _) (sole_cons (sole_pieces _ _) sole_nil)) _ _ _ _ h3 h3'

end Spec.Log

/-- The log of a computation is its log. -/
theorem Py.logs_iff {x : Py α} {l : Log} (hs : Log.Sole l) (hx : Py.Logs x l) (w : List Warn) (e : Option PyErr) :
    l w e ↔ w = x.warns ∧ e = x.err := by
  constructor
  · exact fun h => hs _ _ _ _ h hx
  · rintro ⟨rfl, rfl⟩
    exact hx

end Verif
