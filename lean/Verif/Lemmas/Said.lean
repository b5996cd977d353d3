import Verif.Lemmas.Log
import Verif.Model.Messages
import Verif.Spec.Shown

/-
What is said in a log, one warning at a time; and which characters messages are made of.
-/

namespace Verif.Said

open Spec Spec.Log

/-- Everything that is said has the property, however it ends. -/
def Each (P : Warn → Prop) (l : Log) : Prop := ∀ w e, l w e → ∀ x ∈ w, P x

variable {P : Warn → Prop}

theorem each_quiet : Each P quiet := by
  rintro _ _ ⟨rfl, -⟩ x hx
  cases hx

theorem each_say {W : List Warn} (h : ∀ x ∈ W, P x) : Each P (say W) := by
  rintro _ _ ⟨rfl, -⟩
  exact h

theorem each_fail (x : PyErr) : Each P (fail x) := by
  rintro _ _ ⟨rfl, -⟩ x hx
  cases hx

theorem each_need (c : Prop) (x : PyErr) : Each P (need c x) := by
  rintro _ _ ⟨rfl, -⟩ x hx
  cases hx

theorem each_room (n : Nat) (b : Bytes) : Each P (room n b) := each_need _ _

theorem each_andThen {l m : Log} (hl : Each P l) (hm : Each P m) : Each P (andThen l m) := by
  rintro w e (⟨h, -⟩ | ⟨u, v, rfl, h1, h2⟩)
  · exact hl w e h
  · intro x hx
    rcases List.mem_append.1 hx with hx | hx
    · exact hl u none h1 x hx
    · exact hm v e h2 x hx

theorem each_nil : Each P (all []) := each_quiet

theorem each_cons {l : Log} {ls : List Log} (hl : Each P l) (hm : Each P (all ls)) : Each P (all (l :: ls)) := each_andThen hl hm

theorem each_given (c : Prop) {l : Log} (h : Each P l) : Each P (given c l) := by
  intro w e hw
  by_cases hc : c
  · exact h w e (hw.1 hc)
  · exact each_quiet w e (hw.2 hc)

theorem each_ite {c : Prop} [Decidable c] {l m : Log} (hl : Each P l) (hm : Each P m) : Each P (if c then l else m) := by
  split
  · exact hl
  · exact hm

theorem each_caught {name : String} (hn : ∀ x, P (.extraBlock name x)) {l : Log} (h : Each P l) : Each P (caught name l) := by
  rintro w e (⟨u, x, -, hu, rfl, -⟩ | ⟨hw, -⟩)
  · intro y hy
    rcases List.mem_append.1 hy with hy | hy
    · exact h u _ hu y hy
    · rw [List.mem_singleton.1 hy]
      exact hn x
  · exact h w e hw

theorem each_map {α : Type} {f : α → Log} (h : ∀ v, Each P (f v)) (l : List α) : Each P (all (l.map f)) := by
  induction l with
  | nil => exact each_nil
  | cons v l ih => exact each_cons (h v) ih

theorem each_records {f : Bytes → Log} (h : ∀ v, Each P (f v)) (b : Bytes) : Each P (records f b) := by
  rintro w e (⟨l, -, h2⟩ | ⟨-, h⟩)
  · exact each_map h l w e h2
  · exact each_fail _ w e h

/-! ### texts -/

section

variable (hd : ∀ s, P (.decode s))

include hd

theorem each_decode (s : Str) : Each P (say [.decode s]) := each_say (by simpa using hd s)

theorem each_decoded (tp : TextProc) (a : Bytes) : Each P (decoded tp a) := by
  unfold decoded
  split
  · exact each_quiet
  split
  · exact each_fail _
  split
  · exact each_quiet
  rintro w e (⟨-, h⟩ | ⟨-, ⟨-, h⟩ | ⟨-, h⟩⟩)
  · exact each_fail _ w e h
  · exact each_quiet w e h
  · split at h
    · exact each_decode hd _ w e h
    · exact each_fail _ w e h

theorem each_narrow (tp : TextProc) (b : Bytes) : Each P (narrow tp b) := each_decoded hd _ _

theorem each_utf16 (b : Bytes) : Each P (utf16Read b) := by
  rintro w e (⟨-, h⟩ | ⟨-, s, -, h⟩)
  · exact each_quiet w e h
  · exact each_decode hd _ w e h

theorem each_wide (b : Bytes) : Each P (wide b) := by
  rintro w e ⟨us, -, ⟨_, -, -, h⟩ | ⟨_, -, h⟩⟩
  · exact each_utf16 hd _ w e h
  · exact each_utf16 hd _ w e h

theorem each_either (tp : TextProc) (u : Bool) (b : Bytes) : Each P (either tp u b) := by
  unfold either
  split
  · exact each_wide hd _
  · exact each_narrow hd _ _

theorem each_again (tp : TextProc) (b : Bytes) : Each P (again tp b) :=
  each_cons (each_narrow hd _ _) (each_cons (each_given _ (each_narrow hd _ _)) each_nil)

end

/-- What else can be said: everything but that a text cannot be decoded, with the numbers and names that occur. -/
structure Holds (P : Warn → Prop) : Prop where
  decode : ∀ s, P (.decode s)
  number : ∀ name ∈ ["size", "reserved0", "reserved1", "reserved2", "length", "version"], ∀ m n, P (.mustBe name (.int m) (.int n))
  classId : ∀ g : Guid, P (.mustBe "link_cls_id" (.str shellLinkCLSID.text) (.str g.text))
  filetime : ∀ b, P (.invalidFiletime b)
  dostime : ∀ b, P (.invalidDostime b)
  itemType : ∀ n < 256, P (.itemType n)
  itemFlags : ∀ n < 16, P (.itemFlags n)
  sortIndex : ∀ n < 256, P (.sortIndex n)
  category : ∀ n, P (.category n)
  block : ∀ s x, P (.extraBlock (blockName s) x)
  infoClass : P .infoClass
  stringData : P .stringData
  extraSize : P .extraSize
  extraSignature : P .extraSignature

variable (hP : Holds P)

include hP

theorem each_number {name : String} (hn : name ∈ ["size", "reserved0", "reserved1", "reserved2", "length", "version"]) (m n : Nat) :
    Each P (say (unlessEqual name (.int m) (.int n))) := by
  unfold unlessEqual
  split
  · exact each_say (by simp)
  · exact each_say (by simpa using hP.number name hn m n)

theorem each_time (h : Bytes) (off : Nat) : Each P (time h off) := by
  rintro w e ⟨t, -, ⟨-, -, hw⟩ | ⟨-, hw⟩⟩
  · exact each_say (by simpa using hP.filetime _) w e hw
  · exact each_quiet w e hw

theorem each_classId (h : Bytes) : Each P (classId h) := by
  rintro w e ⟨g, -, hw⟩
  refine each_say ?_ w e hw
  unfold unlessEqual
  split
  · simp
  · simpa using hP.classId g

theorem each_header (h : Bytes) : Each P (header h) :=
  each_cons (each_room _ _) <| each_cons (each_classId hP _) <| each_cons (each_room _ _) <| each_cons (each_time hP _ _) <|
  each_cons (each_room _ _) <| each_cons (each_time hP _ _) <| each_cons (each_room _ _) <| each_cons (each_time hP _ _) <|
  each_cons (each_room _ _) <| each_cons (each_number hP (by simp) _ _) <| each_cons (each_room _ _) <|
  each_cons (each_number hP (by simp) _ _) <| each_cons (each_room _ _) <| each_cons (each_number hP (by simp) _ _) <|
  each_cons (each_room _ _) <| each_cons (each_number hP (by simp) _ _) each_nil

/-! ### items -/

theorem each_kind (w : Bytes) : Each P (say (kindNotices w)) := by
  refine each_say ?_
  unfold kindNotices
  split
  · simp
  · split
    · simpa using hP.itemFlags _ (Nat.mod_lt _ (by decide))
    · simp

theorem each_dosTime (w : Bytes) : Each P (say (timeNotices w)) := by
  refine each_say ?_
  unfold timeNotices
  split
  · split
    · simp
    · simpa using hP.dostime _
  · simp

theorem each_type {t : Nat} (ht : t < 256) : Each P (say (typeNotices t)) := by
  refine each_say ?_
  unfold typeNotices
  split
  · simpa using hP.itemType t ht
  · simp

theorem each_file (tp : TextProc) (w : Bytes) : Each P (file tp w) :=
  each_cons (each_room _ _) <| each_cons (each_kind hP w) <| each_cons (each_room _ _) <| each_cons (each_dosTime hP w) <|
  each_cons (each_room _ _) <| each_cons (each_either hP.decode _ _ _) each_nil

theorem each_cpl (tp : TextProc) (w : Bytes) : Each P (cpl tp w) := by
  have hd := hP.decode
  refine each_cons (each_room _ _) (each_cons ?_ each_nil)
  split
  · exact each_cons (each_wide hd _) <| each_cons (each_wide hd _) <| each_cons (each_given _ (each_wide hd _)) each_nil
  · exact each_cons (each_narrow hd _ _) <| each_cons (each_room _ _) <| each_cons (each_narrow hd _ _) <| each_cons (each_room _ _) <|
      each_cons (each_given _ (each_narrow hd _ _)) each_nil

theorem each_piece (tp : TextProc) (x : PyErr) (ps : List Bytes) (k : Nat) : Each P (piece tp x ps k) :=
  each_cons (each_need _ _) <| each_cons (each_narrow hP.decode _ _) each_nil

theorem each_networkStrings (tp : TextProc) (x : PyErr) (w : Bytes) : Each P (networkStrings tp x w) :=
  each_cons (each_narrow hP.decode _ _) <| each_cons (each_room _ _) <| each_cons (each_given _ (each_piece hP _ _ _ _)) <|
    each_cons (each_given _ (each_piece hP _ _ _ _)) each_nil

theorem each_item (tp : TextProc) (cls : String) (w : Bytes) : Each P (item tp cls w) := by
  have hn : cls = "Control panel category" ∨ cls = "Root Folder" → Each P (say (itemNotices cls w)) := by
    rintro (rfl | rfl)
    · refine each_say ?_
      unfold itemNotices
      rw [if_pos rfl]
      split
      · split
        · simpa using hP.category _
        · simp
      · simp
    · refine each_say ?_
      unfold itemNotices
      rw [if_neg (by decide), if_pos rfl]
      split
      · split
        · simpa using hP.sortIndex _ (uAt_lt ‹_›)
        · simp
      · simp
  unfold item
  split
  · exact each_cpl hP _ _
  split
  · exact each_cons (each_room _ _) (each_cons (hn (.inl ‹_›)) each_nil)
  split
  · exact each_cons (each_room _ _) (each_cons (hn (.inr ‹_›)) (each_cons (each_room _ _) each_nil))
  split
  · exact each_cons (each_room _ _) (each_cons (each_ite (each_narrow hP.decode _ _) (each_room _ _)) each_nil)
  split
  · exact each_file hP _ _
  split
  · exact each_cons (each_networkStrings hP _ _ _) (each_cons (each_kind hP w) each_nil)
  split
  · exact each_room _ _
  split
  · exact each_cons (each_room _ _) (each_cons (each_file hP _ _) (each_cons (each_room _ _) each_nil))
  · exact each_quiet

theorem each_list (tp : TextProc) (b : Bytes) : Each P (list tp b) := by
  generalize hm : b.length = m
  induction m using Nat.strong_induction_on generalizing b with
  | _ m ih =>
    rw [list]
    split
    · exact each_quiet
    rename_i hb
    have hpos : 0 < b.length := List.length_pos_iff.2 hb
    split
    · exact each_fail _
    · exact each_quiet
    · split
      · exact each_fail _
      · rename_i n _ _ t _
        have hd : (b.drop (n + 1)).length < m := by rw [List.length_drop]; omega
        exact each_cons (each_type hP t.toNat_lt) (each_cons (each_item hP _ _ _) (each_cons (ih _ hd _ rfl) each_nil))

/-! ### link info -/

theorem each_volume (tp : TextProc) (i : Bytes) (o : Nat) : Each P (volume tp i o) :=
  each_cons (each_room _ _) <| each_cons (each_given _ (each_narrow hP.decode _ _)) <|
  each_cons (each_given _ (each_cons (each_room _ _) (each_cons (each_given _ (each_wide hP.decode _)) each_nil))) each_nil

theorem each_networkLink (tp : TextProc) (i : Bytes) (o : Nat) : Each P (networkLink tp i o) := by
  have hd := hP.decode
  refine each_cons (each_room _ _) (each_cons ?_ each_nil)
  split
  · exact each_cons (each_room _ _) <| each_cons (each_given _ (each_wide hd _)) <| each_cons (each_room _ _) <|
      each_cons (each_given _ (each_wide hd _)) each_nil
  · exact each_cons (each_again hd _ _) <| each_cons (each_again hd _ _) each_nil

theorem each_info (tp : TextProc) (i : Bytes) (kind : String) : Each P (info tp i kind) :=
  have hd := hP.decode
  each_cons (each_room _ _) <| each_cons (each_given _ (each_narrow hd _ _)) <| each_cons (each_given _ (each_narrow hd _ _)) <|
  each_cons (each_given _ (each_cons (each_room _ _) (each_cons (each_given _ (each_wide hd _)) each_nil))) <|
  each_cons (each_given _ (each_cons (each_room _ _) (each_cons (each_given _ (each_wide hd _)) each_nil))) <|
  each_cons (each_ite (each_volume hP _ _ _) (each_networkLink hP _ _ _)) each_nil

/-! ### extra blocks -/

theorem each_typed (v : Bytes) : Each P (typed v) :=
  each_cons (each_room _ _) (each_cons (each_given _ (each_ite (each_fail _) (each_given _ (each_cons (each_room _ _)
    (each_cons (each_wide hP.decode _) each_nil))))) (each_cons (each_need _ _) each_nil))

theorem each_property (named : Bool) (v : Bytes) : Each P (property named v) :=
  each_cons (each_room _ _) <| each_cons (each_given _ (each_wide hP.decode _)) <| each_cons (each_typed hP _) each_nil

theorem each_storage (s : Bytes) : Each P (storage s) :=
  each_cons (each_room _ _) (each_cons (each_records (each_property hP _) _) each_nil)

theorem each_descriptor (b : Bytes) : Each P (descriptor b) :=
  have hd := hP.decode
  each_cons (each_wide hd _) <| each_cons (each_wide hd _) <| each_cons (each_need _ _) <| each_cons (each_wide hd _) <|
  each_cons (each_wide hd _) <| each_cons (each_need _ _) each_nil

theorem each_block (tp : TextProc) (s : Nat) (b : Bytes) : Each P (block tp s b) := by
  have hd := hP.decode
  unfold block
  split
  · exact each_cons (each_narrow hd _ _) (each_cons (each_wide hd _) each_nil)
  split
  · exact each_cons (each_room _ _) (each_cons (each_wide hd _) (each_cons (each_room _ _) each_nil))
  split
  · exact each_cons (each_room _ _) <| each_cons (each_number hP (by simp) _ _) <| each_cons (each_room _ _) <|
      each_cons (each_number hP (by simp) _ _) <| each_cons (each_narrow hd _ _) <| each_cons (each_room _ _) each_nil
  split
  · exact each_room _ _
  split
  · exact each_room _ _
  split
  · exact each_cons (each_narrow hd _ _) (each_cons (each_descriptor hP _) each_nil)
  split
  · exact each_narrow hd _ _
  split
  · exact each_records (each_storage hP) _
  split
  · exact each_room _ _
  split
  · exact each_list hP _ _
  · exact each_quiet

theorem each_extra (tp : TextProc) (p : Piece) : Each P (extra tp p) := by
  unfold extra
  split
  · exact each_quiet
  · exact each_caught (hP.block _) (each_block hP _ _ _)

/-! ### the whole -/

theorem each_strings (tp : TextProc) (flags : Nat) (b : Bytes) (fs : List (Nat × Nat)) (pos : Nat) :
    Each P (strings tp flags b fs pos) := by
  induction fs generalizing pos with
  | nil => exact each_quiet
  | cons p fs ih =>
    obtain ⟨bit, limit⟩ := p
    rw [strings]
    split
    · split
      · exact each_say (by simpa using hP.stringData)
      · exact each_cons (each_either hP.decode _ _ _) (each_cons (ih _) each_nil)
    · exact ih _

theorem each_pieces (l : List Piece) (last : Bytes) : Each P (pieces l last) := by
  refine each_cons (each_say ?_) (each_cons (each_say ?_) (each_cons (each_need _ _) each_nil))
  · intro x hx
    obtain ⟨_, -, rfl⟩ := List.mem_map.1 hx
    exact hP.extraSignature
  · split
    · simpa using hP.extraSize
    · simp

theorem each_construction (tp : TextProc) (b : Bytes) : Each P (construction tp b) := by
  refine each_cons (each_room _ _) <| each_cons (each_number hP (by simp) _ _) <| each_cons (each_room _ _) <|
    each_cons (each_number hP (by simp) _ _) <| each_cons (each_need _ _) <| each_cons ?_ each_nil
  rintro w e ⟨L, l, last, -, hc, h⟩
  refine each_cons (each_say ?_) (each_cons (each_strings hP _ _ _ _ _) (each_cons (each_pieces hP _ _) each_nil)) w e h
  split
  · simpa using hP.infoClass
  · simp

theorem each_report (tp : TextProc) (b : Bytes) (L : Layout) (l : List Piece) : Each P (report tp b L l) := by
  refine each_cons (each_header hP _) <| each_cons (each_given _ (each_list hP _ _)) <|
    each_cons (each_given _ ?_) <| each_cons (each_map (each_extra hP tp) l) each_nil
  split
  · exact each_quiet
  · exact each_info hP _ _ _

theorem each_tool (tp : TextProc) (target : Bool) (b : Bytes) : Each P (tool tp target b) := by
  unfold tool
  split
  · exact each_fail _
  refine each_andThen (each_construction hP _ _) ?_
  rintro w e ⟨L, l, last, -, -, h⟩
  split at h
  · exact each_need _ _ w e h
  · exact each_report hP _ _ _ _ w e h

end Verif.Said
