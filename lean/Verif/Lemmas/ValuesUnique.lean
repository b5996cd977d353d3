import Verif.Lemmas.ValuesExtra
import Verif.Lemmas.Utf8

/-
The description of the report leaves nothing open but the last digits of the header times.
-/

namespace Verif.Values

open Spec Py

/-- At most one value meets the condition. -/
def Sole (P : PyVal → Prop) : Prop := ∀ v w, P v → P w → v = w

def Soles (es : Entries) : Prop := ∀ e ∈ es, Sole e.2

theorem soles_nil : Soles [] := fun _ h => by cases h

theorem soles_cons {k : String} {P : PyVal → Prop} {es : Entries} (h : Sole P) (hs : Soles es) : Soles ((k, P) :: es) := by
  intro e he
  rcases List.mem_cons.1 he with rfl | he
  · exact h
  · exact hs e he

theorem soles_append {a b : Entries} (ha : Soles a) (hb : Soles b) : Soles (a ++ b) := by
  intro e he
  rcases List.mem_append.1 he with he | he
  · exact ha e he
  · exact hb e he

theorem soles_if {p : Prop} [Decidable p] {a b : Entries} (ha : Soles a) (hb : Soles b) : Soles (if p then a else b) := by
  split
  · exact ha
  · exact hb

theorem fits_sole {es : Entries} (hs : Soles es) {d d' : Dict} (h : Fits d es) (h' : Fits d' es) : d = d' := by
  induction es generalizing d d' with
  | nil =>
    cases d <;> cases d' <;> simp_all [Fits]
  | cons e es ih =>
    rcases d with _ | ⟨⟨k, v⟩, d⟩
    · exact h.elim
    rcases d' with _ | ⟨⟨k', v'⟩, d'⟩
    · exact h'.elim
    obtain ⟨h1, h2, h3⟩ := h
    obtain ⟨h1', h2', h3'⟩ := h'
    dsimp only at h1 h1' h2 h2'
    rw [h1, h1', hs e List.mem_cons_self _ _ h2 h2', ih (fun e he => hs e (List.mem_cons_of_mem _ he)) h3 h3']

theorem sole_eq (x : PyVal) : Sole (fun v => v = x) := fun _ _ h h' => h.trans h'.symm

theorem sole_is (s : String) : Sole (Is s) := sole_eq _

/-- A value made of something there is only one of. -/
theorem sole_of {α : Type} {x : Option α} {f : α → PyVal} : Sole (fun v => ∃ a, x = some a ∧ v = f a) := by
  rintro v w ⟨a, h, rfl⟩ ⟨b, h', rfl⟩
  rw [h] at h'
  rw [Option.some.inj h']

theorem sole_under {α : Type} {x : Option α} {Q : α → PyVal → Prop} (h : ∀ a, Sole (Q a)) : Sole (fun v => ∃ a, x = some a ∧ Q a v) := by
  rintro v w ⟨a, h1, h2⟩ ⟨b, h1', h2'⟩
  rw [h1] at h1'
  cases h1'
  exact h a v w h2 h2'

theorem sole_ite {p : Prop} [Decidable p] {P Q : PyVal → Prop} (h : Sole P) (h' : Sole Q) : Sole (fun v => if p then P v else Q v) := by
  intro v w h1 h2
  split at h1
  · rw [if_pos ‹_›] at h2; exact h v w h1 h2
  · rw [if_neg ‹_›] at h2; exact h' v w h1 h2

theorem sole_dict {es : Entries} (h : Soles es) : Sole (fun v => ∃ d, v = .dict d ∧ Fits d es) := by
  rintro v w ⟨d, rfl, h1⟩ ⟨d', rfl, h2⟩
  rw [fits_sole h h1 h2]

theorem sole_nat (n : Nat) (b : Bytes) (off : Nat) : Sole (NatAt n b off) := sole_of
theorem sole_int (n : Nat) (b : Bytes) (off : Nat) : Sole (IntAt n b off) := sole_of
theorem sole_hex (b : Bytes) (off : Nat) : Sole (HexAt b off) := sole_of
theorem sole_bits (names : List String) (b : Bytes) (off : Nat) : Sole (BitsAt names b off) := sole_of

theorem encode_inj_text {g g' : Guid} (h : g.encode = g'.encode) : g.text = g'.text := by
  have := congrArg (fun b => (parseUuid b).res) h
  simpa only [parseUuid_encode, pure_res, Except.ok.injEq] using this

theorem sole_guid (b : Bytes) (off : Nat) : Sole (GuidAt b off) := by
  rintro v w ⟨g, h, rfl⟩ ⟨g', h', rfl⟩
  rw [encode_inj_text (h.symm.trans h')]

theorem sole_dostime (b : Bytes) (off : Nat) : Sole (DostimeAt b off) := by
  rintro v w ⟨d, t, h1, h2, rfl⟩ ⟨d', t', h1', h2', rfl⟩
  rw [h1] at h1'
  rw [h2] at h2'
  cases h1'
  cases h2'
  rfl

theorem narrowText_unique {tp : TextProc} {b : Bytes} {s t : Str} (h : NarrowText tp b s) (h' : NarrowText tp b t) : s = t := by
  unfold NarrowText at h h'
  dsimp only at h h'
  generalize b.takeWhile (fun x => decide (x ≠ 0)) = a at h h'
  rcases h with ⟨ha, rfl⟩ | ⟨ha, c, hc, h⟩ <;> rcases h' with ⟨ha', rfl⟩ | ⟨ha', c', hc', h'⟩
  · rfl
  · exact absurd ha ha'
  · exact absurd ha' ha
  rw [hc] at hc'
  cases hc'
  rcases h with h | ⟨he, h⟩ <;> rcases h' with h' | ⟨he', h'⟩
  · rw [h] at h'; exact Except.ok.inj h'
  · rw [h] at he'; cases he'
  · rw [h'] at he; cases he
  rcases h with h | ⟨hn, h⟩ <;> rcases h' with h' | ⟨hn', h'⟩
  · have h1 := utf8Decode_eq_some_iff.2 h
    have h2 := utf8Decode_eq_some_iff.2 h'
    exact Option.some.inj (h1.symm.trans h2)
  · exact absurd h (hn' s)
  · exact absurd h' (hn t)
  · rw [h] at h'; exact Except.ok.inj h'

theorem sole_narrow (tp : TextProc) (b : Bytes) : Sole (Narrow tp b) := by
  rintro v w ⟨s, h, rfl⟩ ⟨t, h', rfl⟩
  rw [narrowText_unique h h']

theorem wideText_unique {b : Bytes} {s t : Str} (h : WideText b s) (h' : WideText b t) : s = t := by
  have h1 := (wideText_iff _ _).2 h
  have h2 := (wideText_iff _ _).2 h'
  exact Except.ok.inj (h1.symm.trans h2)

theorem sole_wide (b : Bytes) : Sole (Wide b) := by
  rintro v w ⟨s, h, rfl⟩ ⟨t, h', rfl⟩
  rw [wideText_unique h h']

theorem sole_either (tp : TextProc) (wide : Bool) (b : Bytes) : Sole (Either tp wide b) := sole_ite (sole_wide b) (sole_narrow tp b)

/-! ### items -/

theorem soles_file (tp : TextProc) (w : Bytes) : Soles (fileEntries tp w) :=
  soles_cons (sole_is _) <| soles_cons (sole_under fun _ => sole_is _) <| soles_cons (sole_nat _ _ _) <| soles_cons (sole_dostime _ _) <|
    soles_cons (sole_nat _ _ _) <| soles_cons (sole_under fun _ => sole_either _ _ _) soles_nil

theorem sole_piece (tp : TextProc) (asked : Bool) (p : Option Bytes) : Sole (PieceText tp asked p) :=
  sole_ite (sole_under fun _ => sole_narrow _ _) (sole_eq _)

theorem sole_cplText (tp : TextProc) (w : Bytes) (n : Nat) : Sole (CplText tp w n) := sole_ite (sole_wide _) (sole_narrow _ _)

theorem sole_cplTextAt (tp : TextProc) (w : Bytes) (a b : Nat) : Sole (CplTextAt tp w a b) := sole_under fun _ => sole_cplText _ _ _

theorem soles_tail {es : Entries} (h : Soles es) : Soles es.tail := fun e he => h e (List.mem_of_mem_tail he)

theorem soles_item (tp : TextProc) (n : Nat) (t : UInt8) (w : Bytes) (cls : String) : Soles (itemFields tp n t w cls) := by
  unfold itemFields
  refine soles_if ?_ <| soles_if ?_ <| soles_if ?_ <| soles_if ?_ <| soles_if (soles_tail (soles_file _ _)) <| soles_if ?_ <|
    soles_if ?_ <| soles_if ?_ <| soles_if ?_ soles_nil
  · exact soles_cons sole_of <| soles_cons (sole_cplText _ _ _) <| soles_cons (sole_cplTextAt _ _ _ _) <|
      soles_cons (sole_ite (sole_eq _) (sole_cplTextAt _ _ _ _)) soles_nil
  · exact soles_cons (sole_nat _ _ _) <| soles_cons (sole_under fun _ => sole_is _) soles_nil
  · exact soles_cons (sole_under fun _ => sole_is _) <| soles_cons (sole_nat _ _ _) <| soles_cons (sole_guid _ _) soles_nil
  · refine soles_cons (sole_eq _) ?_
    split
    · exact soles_cons (sole_narrow _ _) soles_nil
    · exact soles_cons (sole_guid _ _) soles_nil
  · exact soles_cons (sole_is _) <| soles_cons (sole_nat _ _ _) <| soles_cons (sole_piece _ _ _) <|
      soles_cons (sole_under fun _ => sole_piece _ _ _) <| soles_cons (sole_under fun _ => sole_piece _ _ _) soles_nil
  · exact soles_cons (sole_guid _ _) soles_nil
  · refine soles_cons (sole_eq _) <| soles_cons ?_ <| soles_cons (sole_under fun _ => sole_guid _ _) <|
      soles_cons (sole_under fun _ => sole_guid _ _) soles_nil
    rintro v v' ⟨m, d, h1, rfl, h2⟩ ⟨m', d', h1', rfl, h2'⟩
    rw [h1] at h1'
    cases h1'
    rw [fits_sole (soles_file _ _) h2 h2']
  · exact soles_cons (sole_eq _) soles_nil

theorem items_unique {tp : TextProc} {b : Bytes} {l l' : List PyVal} (h : ItemsAt tp b l) (h' : ItemsAt tp b l') : l = l' := by
  induction h generalizing l' with
  | stop hs =>
    cases h' with
    | stop => rfl
    | item h1 h2 =>
      rcases hs with rfl | hs
      · simp [uAt] at h1
      · rw [hs] at h1
        exact absurd (Option.some.inj h1).symm h2
  | item h1 h2 h3 h4 _ ih =>
    cases h' with
    | stop hs =>
      rcases hs with rfl | hs
      · simp [uAt] at h1
      · rw [hs] at h1
        exact absurd (Option.some.inj h1).symm h2
    | item h1' h2' h3' h4' h5' =>
      rw [h1] at h1'
      cases h1'
      rw [h3] at h3'
      cases h3'
      rw [fits_sole (soles_cons (sole_is _) (soles_item _ _ _ _ _)) h4 h4', ih h5']

theorem sole_items {tp : TextProc} {b : Bytes} : Sole (fun v => ∃ l, v = .list l ∧ ItemsAt tp b l) := by
  rintro v w ⟨l, rfl, h⟩ ⟨l', rfl, h'⟩
  rw [items_unique h h']

theorem soles_target (tp : TextProc) (b : Bytes) (L : Layout) : Soles (targetEntries tp b L) :=
  soles_cons (sole_nat _ _ _) <| soles_cons sole_items <| soles_cons (sole_eq _) soles_nil

/-! ### link info, strings -/

theorem soles_volume (tp : TextProc) (i : Bytes) (o : Nat) : Soles (volumeEntries tp i o) :=
  soles_append (soles_cons (sole_nat _ _ _) <| soles_cons (sole_nat _ _ _) <| soles_cons (sole_nat _ _ _) <| soles_cons (sole_hex _ _) <|
    soles_cons sole_of <| soles_cons (sole_under fun _ => sole_ite (sole_eq _) (sole_narrow _ _)) soles_nil)
    (soles_if (soles_cons (sole_nat _ _ _) <| soles_cons (sole_wide _) soles_nil) soles_nil)

theorem soles_numbers (i : Bytes) (o : Nat) : Soles (networkNumbers i o) := by
  refine soles_append (soles_cons (sole_nat _ _ _) <| soles_cons (sole_nat _ _ _) <| soles_cons (sole_nat _ _ _) <|
    soles_cons (sole_nat _ _ _) <| soles_cons (sole_hex _ _) soles_nil) ?_
  split
  · exact soles_nil
  · exact soles_cons (sole_is _) soles_nil

theorem network_unique {tp : TextProc} {i : Bytes} {o : Nat} {d d' : Dict} (h : NetworkReport tp i o d) (h' : NetworkReport tp i o d') :
    d = d' := by
  unfold NetworkReport at h h'
  split at h
  · rw [if_pos ‹_›] at h'
    refine fits_sole (soles_append (soles_append (soles_numbers _ _) (soles_if soles_nil ?_)) (soles_if soles_nil ?_)) h h'
    · exact soles_cons (sole_nat _ _ _) <| soles_cons (sole_wide _) soles_nil
    · exact soles_cons (sole_nat _ _ _) <| soles_cons (sole_wide _) soles_nil
  · rw [if_neg ‹_›] at h'
    obtain ⟨a, c, h1, h2, h3⟩ := h
    obtain ⟨a', c', h1', h2', h3'⟩ := h'
    obtain rfl := narrowText_unique h1 h1'
    obtain rfl := narrowText_unique h2 h2'
    refine fits_sole (soles_append (soles_append (soles_numbers _ _) (soles_if soles_nil ?_)) (soles_if soles_nil ?_)) h3 h3'
    · exact soles_cons (sole_eq _) soles_nil
    · exact soles_cons (sole_eq _) soles_nil

theorem soles_info (tp : TextProc) (i : Bytes) (kind : String) : Soles (infoEntries tp i kind) := by
  refine soles_append (soles_append (soles_append (soles_append (soles_append ?_ ?_) ?_) ?_) ?_) ?_
  · exact soles_cons (sole_nat _ _ _) <| soles_cons (sole_nat _ _ _) <| soles_cons (sole_nat _ _ _) <| soles_cons (sole_nat _ _ _) <|
      soles_cons (sole_nat _ _ _) <| soles_cons (sole_nat _ _ _) <| soles_cons (sole_nat _ _ _) soles_nil
  · exact soles_if soles_nil (soles_cons (sole_narrow _ _) soles_nil)
  · exact soles_if soles_nil (soles_cons (sole_narrow _ _) soles_nil)
  · exact soles_if soles_nil (soles_cons (sole_nat _ _ _) <| soles_cons (sole_wide _) soles_nil)
  · exact soles_if soles_nil (soles_cons (sole_nat _ _ _) <| soles_cons (sole_wide _) soles_nil)
  · refine soles_cons ?_ <| soles_cons (sole_is _) soles_nil
    rintro v w ⟨d, rfl, h⟩ ⟨d', rfl, h'⟩
    split at h
    · rw [if_pos ‹_›] at h'
      rw [fits_sole (soles_volume _ _ _) h h']
    · rw [if_neg ‹_›] at h'
      rw [network_unique h h']

theorem soles_strings (tp : TextProc) (flags : Nat) (b : Bytes) (fs : List (String × Nat × Nat)) (pos : Nat) :
    Soles (stringEntries tp flags b fs pos) := by
  induction fs generalizing pos with
  | nil => exact soles_nil
  | cons x fs ih =>
    obtain ⟨key, bit, limit⟩ := x
    unfold stringEntries
    split
    · split
      · exact soles_nil
      · exact soles_cons (sole_either _ _ _) (ih _)
    · exact ih _

/-! ### extra blocks -/

theorem records_unique {b : Bytes} {l l' : List Bytes} (h : Records b l) (h' : Records b l') : l = l' := by
  induction h generalizing l' with
  | stop h0 =>
    cases h' with
    | stop => rfl
    | next h1 h2 =>
      rw [h0] at h1
      exact absurd (Option.some.inj h1).symm h2
  | next h1 h2 _ ih =>
    cases h' with
    | stop h0 =>
      rw [h0] at h1
      exact absurd (Option.some.inj h1).symm h2
    | next h1' h2' h3' =>
      rw [h1] at h1'
      cases h1'
      rw [ih h3']

theorem fitsEach_unique {f : Bytes → Entries} (hf : ∀ b, Soles (f b)) {vs ws : List PyVal} {l : List Bytes} (h : FitsEach f vs l)
    (h' : FitsEach f ws l) : vs = ws := by
  induction l generalizing vs ws with
  | nil => cases vs <;> cases ws <;> simp_all [FitsEach]
  | cons b l ih =>
    rcases vs with _ | ⟨v, vs⟩
    · exact h.elim
    rcases ws with _ | ⟨w, ws⟩
    · exact h'.elim
    obtain ⟨⟨d, rfl, h1⟩, h2⟩ := h
    obtain ⟨⟨d', rfl, h1'⟩, h2'⟩ := h'
    rw [fits_sole (hf b) h1 h1', ih h2 h2']

theorem sole_records {f : Bytes → Entries} (hf : ∀ b, Soles (f b)) {b : Bytes} :
    Sole (fun v => ∃ vs l, v = .list vs ∧ Records b l ∧ FitsEach f vs l) := by
  rintro v w ⟨vs, l, rfl, h1, h2⟩ ⟨ws, l', rfl, h1', h2'⟩
  obtain rfl := records_unique h1 h1'
  rw [fitsEach_unique hf h2 h2']

theorem soles_typed (v : Bytes) : Soles (typedEntries v) := by
  refine soles_cons ?_ <| soles_cons ?_ soles_nil
  · rintro x y ⟨t, p, h1, h2, h3⟩ ⟨t', p', h1', h2', h3'⟩
    rw [h1] at h1'
    cases h1'
    rw [h2] at h2'
    cases h2'
    split at h3
    · rw [if_pos ‹_›] at h3'
      exact sole_under (fun n => sole_wide (between v 8 (8 + n * 2))) x y h3 h3'
    · rw [if_neg ‹_›] at h3'
      rw [h3, h3']
  · rintro x y ⟨t, n, h1, h2, h3⟩ ⟨t', n', h1', h2', h3'⟩
    rw [h1] at h1'
    cases h1'
    rw [h2] at h2'
    cases h2'
    exact sole_is n x y h3 h3'

theorem soles_property (named : Bool) (v : Bytes) : Soles (propertyEntries named v) :=
  soles_if (soles_append (soles_cons (sole_nat _ _ _) <| soles_cons (sole_nat _ _ _) <| soles_cons (sole_wide _) soles_nil) (soles_typed _))
    (soles_append (soles_cons (sole_nat _ _ _) <| soles_cons (sole_nat _ _ _) soles_nil) (soles_typed _))

theorem soles_storage (b : Bytes) : Soles (storageEntries b) :=
  soles_cons (sole_nat _ _ _) <| soles_cons (sole_hex _ _) <| soles_cons (sole_guid _ _) <|
    soles_cons (sole_records (soles_property _)) soles_nil

theorem soles_descriptor (s : Str) : Soles (descriptorEntries s) :=
  soles_cons (sole_eq _) <| soles_cons (sole_eq _) <| soles_cons (sole_eq _) <| soles_cons (sole_eq _) soles_nil

theorem block_unique {tp : TextProc} {s : Nat} {b : Bytes} {d d' : Dict} (h : blockFields tp s b d) (h' : blockFields tp s b d') : d = d' := by
  unfold blockFields at h h'
  split at h
  · rw [if_pos ‹_›] at h'
    exact fits_sole (soles_cons (sole_narrow _ _) <| soles_cons (sole_wide _) soles_nil) h h'
  rw [if_neg ‹_›] at h'
  split at h
  · rw [if_pos ‹_›] at h'
    refine fits_sole ?_ h h'
    exact soles_cons (sole_nat _ _ _) <| soles_cons (sole_nat _ _ _) <| soles_cons (sole_int _ _ _) <| soles_cons (sole_int _ _ _) <|
      soles_cons (sole_int _ _ _) <| soles_cons (sole_int _ _ _) <| soles_cons (sole_int _ _ _) <| soles_cons (sole_int _ _ _) <|
      soles_cons (sole_nat _ _ _) <| soles_cons (sole_nat _ _ _) <| soles_cons (sole_nat _ _ _) <| soles_cons (sole_wide _) <|
      soles_cons (sole_nat _ _ _) <| soles_cons (sole_nat _ _ _) <| soles_cons (sole_nat _ _ _) <| soles_cons (sole_nat _ _ _) <|
      soles_cons (sole_nat _ _ _) <| soles_cons (sole_nat _ _ _) <| soles_cons (sole_nat _ _ _) <| soles_cons (sole_nat _ _ _) <|
      soles_cons (sole_nat _ _ _) soles_nil
  rw [if_neg ‹_›] at h'
  split at h
  · rw [if_pos ‹_›] at h'
    refine fits_sole ?_ h h'
    exact soles_cons (sole_nat _ _ _) <| soles_cons (sole_nat _ _ _) <| soles_cons (sole_narrow _ _) <| soles_cons (sole_guid _ _) <|
      soles_cons (sole_guid _ _) <| soles_cons (sole_guid _ _) <| soles_cons (sole_guid _ _) soles_nil
  rw [if_neg ‹_›] at h'
  split at h
  · rw [if_pos ‹_›] at h'
    exact fits_sole (soles_cons (sole_nat _ _ _) soles_nil) h h'
  rw [if_neg ‹_›] at h'
  split at h
  · rw [if_pos ‹_›] at h'
    exact fits_sole (soles_cons (sole_nat _ _ _) <| soles_cons (sole_nat _ _ _) soles_nil) h h'
  rw [if_neg ‹_›] at h'
  split at h
  · rw [if_pos ‹_›] at h'
    obtain ⟨s, h1, h2⟩ := h
    obtain ⟨s', h1', h2'⟩ := h'
    obtain rfl := wideText_unique h1 h1'
    exact fits_sole (soles_cons (sole_narrow _ _) (soles_descriptor _)) h2 h2'
  rw [if_neg ‹_›] at h'
  split at h
  · rw [if_pos ‹_›] at h'
    exact fits_sole (soles_cons (sole_narrow _ _) soles_nil) h h'
  rw [if_neg ‹_›] at h'
  split at h
  · rw [if_pos ‹_›] at h'
    exact fits_sole (soles_cons (sole_records soles_storage) soles_nil) h h'
  rw [if_neg ‹_›] at h'
  split at h
  · rw [if_pos ‹_›] at h'
    exact fits_sole (soles_cons (sole_guid _ _) <| soles_cons (sole_nat _ _ _) soles_nil) h h'
  rw [if_neg ‹_›] at h'
  split at h
  · rw [if_pos ‹_›] at h'
    exact fits_sole (soles_cons sole_items soles_nil) h h'
  rw [if_neg ‹_›] at h'
  exact fits_sole (soles_cons (sole_eq _) soles_nil) h h'

theorem blockReport_unique {tp : TextProc} {s : Nat} {p : Piece} {d d' : Dict} (h : BlockReport tp s p d) (h' : BlockReport tp s p d') :
    d = d' := by
  obtain ⟨r, rfl, h⟩ := h
  obtain ⟨r', rfl, h'⟩ := h'
  rw [block_unique h h']

theorem unknown_unique {tp : TextProc} {vs ws : List PyVal} {l : List Piece} (h : UnknownReports tp vs l) (h' : UnknownReports tp ws l) :
    vs = ws := by
  induction l generalizing vs ws with
  | nil => cases vs <;> cases ws <;> simp_all [UnknownReports]
  | cons p l ih =>
    rcases vs with _ | ⟨v, vs⟩
    · exact h.elim
    rcases ws with _ | ⟨w, ws⟩
    · exact h'.elim
    obtain ⟨⟨s, d, hs, rfl, h1⟩, h2⟩ := h
    obtain ⟨⟨s', d', hs', rfl, h1'⟩, h2'⟩ := h'
    rw [hs] at hs'
    cases hs'
    rw [blockReport_unique h1 h1', ih h2 h2']

/-- Dictionaries with the same keys in the same order, none twice, and the same values. -/
theorem dict_ext {d d' : Dict} (hk : d.keys = d'.keys) (hn : d.keys.Nodup) (h : ∀ k ∈ d.keys, d.get? k = d'.get? k) : d = d' := by
  induction d generalizing d' with
  | nil => cases d' <;> simp_all [Dict.keys]
  | cons kv d ih =>
    obtain ⟨k, v⟩ := kv
    rcases d' with _ | ⟨⟨k', v'⟩, d'⟩
    · simp [Dict.keys] at hk
    simp only [Dict.keys, List.map_cons, List.cons.injEq] at hk
    obtain ⟨rfl, hk⟩ := hk
    have h0 := h k (by simp [Dict.keys])
    simp only [Dict.get?, if_true, Option.some.injEq] at h0
    subst h0
    simp only [Dict.keys, List.map_cons, List.nodup_cons] at hn
    rw [ih hk hn.2 fun k' hk' => ?_]
    have := h k' (by simp only [Dict.keys, List.map_cons]; exact List.mem_cons_of_mem _ hk')
    have hne : k ≠ k' := fun e => hn.1 (e ▸ hk')
    simpa only [Dict.get?, if_neg hne] using this

end Verif.Values
