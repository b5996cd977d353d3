import Verif.Spec.Alike
import Verif.Lemmas.ValuesUnique

/-
Two descriptions of a report, for two code pages, describe reports that differ in texts only.
-/

namespace Verif.Values

open Spec Py

/-- Values that meet the one and the other condition are alike, or readings of the same bytes. -/
def Pair (b : Bytes) (tp tp' : TextProc) (texts : List String) (k : String) (P P' : PyVal → Prop) : Prop :=
  ∀ v w, P v → P' w → Alike b tp tp' v w ∨ (k ∈ texts ∧ Readings b tp tp' v w)

inductive Pairs (b : Bytes) (tp tp' : TextProc) (texts : List String) : Entries → Entries → Prop
  | nil : Pairs b tp tp' texts [] []
  | cons {k : String} {P P' : PyVal → Prop} {es es' : Entries} : Pair b tp tp' texts k P P' → Pairs b tp tp' texts es es' →
      Pairs b tp tp' texts ((k, P) :: es) ((k, P') :: es')

variable {b : Bytes} {tp tp' : TextProc} {texts : List String} {k : String}

theorem pairs_append {es es' fs fs' : Entries} (h : Pairs b tp tp' texts es es') (h' : Pairs b tp tp' texts fs fs') :
    Pairs b tp tp' texts (es ++ fs) (es' ++ fs') := by
  induction h with
  | nil => exact h'
  | cons h1 _ ih => exact .cons h1 ih

theorem pairs_if {p : Prop} [Decidable p] {es es' fs fs' : Entries} (h : p → Pairs b tp tp' texts es es')
    (h' : ¬ p → Pairs b tp tp' texts fs fs') : Pairs b tp tp' texts (if p then es else fs) (if p then es' else fs') := by
  split
  · exact h ‹_›
  · exact h' ‹_›

theorem pair_sole {P : PyVal → Prop} (h : Sole P) : Pair b tp tp' texts k P P := by
  intro v w hv hw
  rw [h v w hv hw]
  exact .inl (.same w)

theorem pairs_soles {es : Entries} (h : Soles es) : Pairs b tp tp' texts es es := by
  induction es with
  | nil => exact .nil
  | cons e es ih => exact .cons (pair_sole (h e List.mem_cons_self)) (ih fun x hx => h x (List.mem_cons_of_mem _ hx))

theorem pair_value {P P' : PyVal → Prop} (h : ∀ v w, P v → P' w → Alike b tp tp' v w) : Pair b tp tp' texts k P P' :=
  fun v w hv hw => .inl (h v w hv hw)

theorem pair_narrow {a : Bytes} (h : a <:+: b) (hk : k ∈ texts) : Pair b tp tp' texts k (Narrow tp a) (Narrow tp' a) := by
  rintro v w ⟨s, hs, rfl⟩ ⟨s', hs', rfl⟩
  exact .inr ⟨hk, a, s, s', h, hs, hs', rfl, rfl⟩

theorem pair_under {α : Type} {x : Option α} {Q Q' : α → PyVal → Prop} (h : ∀ a, x = some a → Pair b tp tp' texts k (Q a) (Q' a)) :
    Pair b tp tp' texts k (fun v => ∃ a, x = some a ∧ Q a v) (fun v => ∃ a, x = some a ∧ Q' a v) := by
  rintro v w ⟨a, h1, h2⟩ ⟨a', h1', h2'⟩
  rw [h1] at h1'
  cases h1'
  exact h a h1 v w h2 h2'

theorem pair_ite {p : Prop} [Decidable p] {P P' Q Q' : PyVal → Prop} (h : Pair b tp tp' texts k P P') (h' : Pair b tp tp' texts k Q Q') :
    Pair b tp tp' texts k (fun v => if p then P v else Q v) (fun v => if p then P' v else Q' v) := by
  intro v w h1 h2
  split at h1
  · rw [if_pos ‹_›] at h2; exact h v w h1 h2
  · rw [if_neg ‹_›] at h2; exact h' v w h1 h2

theorem fits_pairs {es es' : Entries} (h : Pairs b tp tp' texts es es') {d d' : Dict} (hd : Fits d es) (hd' : Fits d' es') :
    AlikeDict b tp tp' texts d d' := by
  induction h generalizing d d' with
  | nil =>
    cases d <;> cases d' <;> simp_all [Fits]
    exact .nil _
  | cons h1 _ ih =>
    rcases d with _ | ⟨⟨k, v⟩, d⟩
    · exact hd.elim
    rcases d' with _ | ⟨⟨k', v'⟩, d'⟩
    · exact hd'.elim
    obtain ⟨rfl, e1, e2⟩ := hd
    obtain ⟨rfl, e1', e2'⟩ := hd'
    rcases h1 _ _ e1 e1' with h | ⟨hk, h⟩
    · exact .value h (ih e2 e2')
    · exact .text hk h (ih e2 e2')

/-- Dictionaries with a first key. -/
theorem alike_fits {k : String} {P P' : PyVal → Prop} {es es' : Entries} (h : Pairs b tp tp' (textKeys k) ((k, P) :: es) ((k, P') :: es'))
    {d d' : Dict} (hd : Fits d ((k, P) :: es)) (hd' : Fits d' ((k, P') :: es')) : Alike b tp tp' (.dict d) (.dict d') := by
  refine .dict ?_
  have : firstKey d = k := by
    rcases d with _ | ⟨kv, d⟩
    · exact hd.elim
    · exact hd.1
  rw [this]
  exact fits_pairs h hd hd'

/-! ### parts of the file -/

theorem infix_drop {a : Bytes} (h : a <:+: b) (n : Nat) : a.drop n <:+: b := (List.drop_suffix n a).isInfix.trans h

theorem infix_take {a : Bytes} (h : a <:+: b) (n : Nat) : a.take n <:+: b := (List.take_prefix n a).isInfix.trans h

theorem infix_between {a : Bytes} (h : a <:+: b) (i j : Nat) : between a i j <:+: b := infix_take (infix_drop h i) _

theorem infix_zeroPieces {a : Bytes} : ∀ p ∈ zeroPieces a, p <:+: a := by
  suffices h : (∀ p ∈ zeroPieces a, p <:+: a) ∧ (zeroPieces a).headD [] <+: a from h.1
  induction a with
  | nil => simp [zeroPieces]
  | cons x a ih =>
    obtain ⟨ih1, ih2⟩ := ih
    unfold zeroPieces
    split
    · refine ⟨fun p hp => ?_, ?_⟩
      · rcases List.mem_cons.1 hp with rfl | hp
        · exact List.nil_infix
        · exact List.infix_cons (ih1 p hp)
      · exact List.nil_prefix
    · refine ⟨fun p hp => ?_, ?_⟩
      · rcases List.mem_cons.1 hp with rfl | hp
        · exact (List.prefix_cons_inj x).2 ih2 |>.isInfix
        · exact List.infix_cons (ih1 p (List.mem_of_mem_tail hp))
      · exact (List.prefix_cons_inj x).2 ih2

theorem infix_piece {c : Bytes} {l : List Piece} {last : Bytes} (h : Cut c l last) : ∀ p ∈ l, p.bytes <:+: c := by
  induction h with
  | stop => simp
  | @block c n l last _ _ _ ih =>
    intro p hp
    rcases List.mem_cons.1 hp with rfl | hp
    · exact (List.take_prefix _ _).isInfix
    · exact (ih p hp).trans (List.drop_suffix _ _).isInfix

/-! ### items -/

theorem pair_either {a : Bytes} (h : a <:+: b) (hk : k ∈ texts) (wide : Bool) :
    Pair b tp tp' texts k (Either tp wide a) (Either tp' wide a) := pair_ite (pair_sole (sole_wide _)) (pair_narrow h hk)

theorem pairs_file {w : Bytes} (h : w <:+: b) : Pairs b tp tp' (textKeys "class") (fileEntries tp w) (fileEntries tp' w) :=
  .cons (pair_sole (sole_is _)) <| .cons (pair_sole (sole_under fun _ => sole_is _)) <| .cons (pair_sole (sole_nat _ _ _)) <|
    .cons (pair_sole (sole_dostime _ _)) <| .cons (pair_sole (sole_nat _ _ _)) <|
    .cons (pair_under fun _ _ => pair_either (infix_drop h _) (by decide) _) .nil

theorem pair_piece {w : Bytes} (h : w <:+: b) (hk : k ∈ texts) (asked : Bool) (i : Nat) :
    Pair b tp tp' texts k (PieceText tp asked (zeroPieces w)[i]?) (PieceText tp' asked (zeroPieces w)[i]?) :=
  pair_ite (pair_under fun _ hp => pair_narrow ((infix_zeroPieces _ (List.mem_of_getElem? hp)).trans h) hk) (pair_sole (sole_eq _))

theorem pair_cplText {w : Bytes} (h : w <:+: b) (hk : k ∈ texts) (n : Nat) :
    Pair b tp tp' texts k (CplText tp w n) (CplText tp' w n) :=
  pair_ite (pair_sole (sole_wide _)) (pair_narrow (infix_drop h _) hk)

theorem pair_cplTextAt {w : Bytes} (h : w <:+: b) (hk : k ∈ texts) (x y : Nat) :
    Pair b tp tp' texts k (CplTextAt tp w x y) (CplTextAt tp' w x y) := pair_under fun _ _ => pair_cplText h hk _

theorem pairs_tail {es es' : Entries} (h : Pairs b tp tp' texts es es') : Pairs b tp tp' texts es.tail es'.tail := by
  cases h with
  | nil => exact .nil
  | cons _ h => exact h

theorem pairs_item {w : Bytes} (h : w <:+: b) (n : Nat) (t : UInt8) (cls : String) :
    Pairs b tp tp' (textKeys "class") (itemFields tp n t w cls) (itemFields tp' n t w cls) := by
  unfold itemFields
  refine pairs_if (fun _ => ?_) fun _ => pairs_if (fun _ => ?_) fun _ => pairs_if (fun _ => ?_) fun _ => pairs_if (fun _ => ?_) fun _ =>
    pairs_if (fun _ => pairs_tail (pairs_file h)) fun _ => pairs_if (fun _ => ?_) fun _ => pairs_if (fun _ => ?_) fun _ =>
    pairs_if (fun _ => ?_) fun _ => pairs_if (fun _ => ?_) fun _ => .nil
  · exact .cons (pair_sole sole_of) <| .cons (pair_cplText h (by decide) _) <| .cons (pair_cplTextAt h (by decide) _ _) <|
      .cons (pair_ite (pair_sole (sole_eq _)) (pair_cplTextAt h (by decide) _ _)) .nil
  · exact .cons (pair_sole (sole_nat _ _ _)) <| .cons (pair_sole (sole_under fun _ => sole_is _)) .nil
  · exact .cons (pair_sole (sole_under fun _ => sole_is _)) <| .cons (pair_sole (sole_nat _ _ _)) <| .cons (pair_sole (sole_guid _ _)) .nil
  · refine .cons (pair_sole (sole_eq _)) ?_
    split
    · exact .cons (pair_narrow (infix_between h _ _) (by decide)) .nil
    · exact .cons (pair_sole (sole_guid _ _)) .nil
  · exact .cons (pair_sole (sole_is _)) <| .cons (pair_sole (sole_nat _ _ _)) <| .cons (pair_piece (infix_drop h _) (by decide) _ _) <|
      .cons (pair_under fun _ _ => pair_piece (infix_drop h _) (by decide) _ _) <|
      .cons (pair_under fun _ _ => pair_piece (infix_drop h _) (by decide) _ _) .nil
  · exact .cons (pair_sole (sole_guid _ _)) .nil
  · refine .cons (pair_sole (sole_eq _)) <| .cons ?_ <| .cons (pair_sole (sole_under fun _ => sole_guid _ _)) <|
      .cons (pair_sole (sole_under fun _ => sole_guid _ _)) .nil
    refine pair_value ?_
    rintro v v' ⟨m, d, h1, rfl, h2⟩ ⟨m', d', h1', rfl, h2'⟩
    rw [h1] at h1'
    cases h1'
    exact alike_fits (pairs_file (infix_between h _ _)) h2 h2'
  · exact .cons (pair_sole (sole_eq _)) .nil

theorem items_alike {a : Bytes} (ha : a <:+: b) {l l' : List PyVal} (h : ItemsAt tp a l) (h' : ItemsAt tp' a l') : AlikeList b tp tp' l l' := by
  induction h generalizing l' with
  | stop hs =>
    cases h' with
    | stop => exact .nil
    | item h1 h2 =>
      rcases hs with rfl | hs
      · simp [uAt] at h1
      · rw [hs] at h1
        exact absurd (Option.some.inj h1).symm h2
  | item h1 h2 h3 h4 _ ih =>
    cases h' with
    | stop hs =>
      rcases hs with rfl | hs
      · simp [uAt] at h1
      · rw [hs] at h1
        exact absurd (Option.some.inj h1).symm h2
    | item h1' h2' h3' h4' h5' =>
      rw [h1] at h1'
      cases h1'
      rw [h3] at h3'
      cases h3'
      exact .cons (alike_fits (.cons (pair_sole (sole_is _)) (pairs_item (infix_take (infix_drop ha _) _) _ _ _)) h4 h4') (ih (infix_drop ha _) h5')

theorem pair_items {a : Bytes} (ha : a <:+: b) :
    Pair b tp tp' texts k (fun v => ∃ l, v = .list l ∧ ItemsAt tp a l) (fun v => ∃ l, v = .list l ∧ ItemsAt tp' a l) := by
  refine pair_value ?_
  rintro v w ⟨l, rfl, h⟩ ⟨l', rfl, h'⟩
  exact .list (items_alike ha h h')

theorem pairs_target (L : Layout) : Pairs b tp tp' (textKeys "size") (targetEntries tp b L) (targetEntries tp' b L) :=
  .cons (pair_sole (sole_nat _ _ _)) <| .cons (pair_items (infix_between List.infix_rfl _ _)) <| .cons (pair_sole (sole_eq _)) .nil

/-! ### link info, strings -/

theorem pairs_volume {i : Bytes} (hi : i <:+: b) (o : Nat) :
    Pairs b tp tp' (textKeys "volume_id_size") (volumeEntries tp i o) (volumeEntries tp' i o) :=
  pairs_append (.cons (pair_sole (sole_nat _ _ _)) <| .cons (pair_sole (sole_nat _ _ _)) <| .cons (pair_sole (sole_nat _ _ _)) <|
    .cons (pair_sole (sole_hex _ _)) <| .cons (pair_sole sole_of) <|
    .cons (pair_under fun _ _ => pair_ite (pair_sole (sole_eq _)) (pair_narrow (infix_drop hi _) (by decide))) .nil)
    (pairs_soles (soles_if (soles_cons (sole_nat _ _ _) <| soles_cons (sole_wide _) soles_nil) soles_nil))

theorem narrow_empty (ha : Audible tp) {a : Bytes} {s : Str} (h : NarrowText tp a s) : s = [] ↔ a.takeWhile (· ≠ 0) = [] := by
  unfold NarrowText at h
  dsimp only at h
  generalize a.takeWhile (fun x => decide (x ≠ 0)) = z at h
  rcases h with ⟨h1, h2⟩ | ⟨h1, c, hc, h⟩
  · simp [h1, h2]
  · refine ⟨fun hs => ?_, fun hz => absurd hz h1⟩
    subst hs
    exfalso
    obtain ⟨e1, e2⟩ := ha z h1
    unfold decodeNamed at e1
    unfold decodeNamedReplace at e2
    rw [if_neg h1, hc] at e1 e2
    rcases h with h | ⟨-, h | ⟨-, h⟩⟩
    · exact e1 h
    · exact h1 h
    · exact e2 h

theorem network_alike (ha : Audible tp) (ha' : Audible tp') {i : Bytes} (hi : i <:+: b) {o : Nat} {d d' : Dict}
    (h : NetworkReport tp i o d) (h' : NetworkReport tp' i o d') : Alike b tp tp' (.dict d) (.dict d') := by
  unfold NetworkReport at h h'
  split at h
  · rw [if_pos ‹_›] at h'
    have := fits_sole (soles_append (soles_append (soles_numbers _ _) (soles_if soles_nil ?_)) (soles_if soles_nil ?_)) h h'
    · rw [this]
      exact .same _
    · exact soles_cons (sole_nat _ _ _) <| soles_cons (sole_wide _) soles_nil
    · exact soles_cons (sole_nat _ _ _) <| soles_cons (sole_wide _) soles_nil
  · rw [if_neg ‹_›] at h'
    obtain ⟨a, c, h1, h2, h3⟩ := h
    obtain ⟨a', c', h1', h2', h3'⟩ := h'
    have e1 : a = [] ↔ a' = [] := (narrow_empty ha h1).trans (narrow_empty ha' h1').symm
    have e2 : c = [] ↔ c' = [] := (narrow_empty ha h2).trans (narrow_empty ha' h2').symm
    refine alike_fits (pairs_append (es := _ :: (_ ++ _)) (es' := _ :: (_ ++ _))
      (pairs_append (es := _ :: _) (es' := _ :: _) (pairs_soles (soles_numbers i o)) ?_) ?_) h3 h3'
    · simp only [e1]
      refine pairs_if (fun _ => .nil) fun _ => .cons ?_ .nil
      rintro v w rfl rfl
      exact .inr ⟨by decide, _, _, _, infix_drop hi _, h1, h1', rfl, rfl⟩
    · simp only [e2]
      refine pairs_if (fun _ => .nil) fun _ => .cons ?_ .nil
      rintro v w rfl rfl
      exact .inr ⟨by decide, _, _, _, infix_drop hi _, h2, h2', rfl, rfl⟩

theorem pairs_info (ha : Audible tp) (ha' : Audible tp') {i : Bytes} (hi : i <:+: b) (kind : String) :
    Pairs b tp tp' (textKeys "link_info_size") (infoEntries tp i kind) (infoEntries tp' i kind) := by
  refine pairs_append (pairs_append (pairs_append (pairs_append (pairs_append ?_ ?_) ?_) ?_) ?_) ?_
  · exact pairs_soles <| soles_cons (sole_nat _ _ _) <| soles_cons (sole_nat _ _ _) <| soles_cons (sole_nat _ _ _) <|
      soles_cons (sole_nat _ _ _) <| soles_cons (sole_nat _ _ _) <| soles_cons (sole_nat _ _ _) <| soles_cons (sole_nat _ _ _) soles_nil
  · exact pairs_if (fun _ => .nil) fun _ => .cons (pair_narrow (infix_drop hi _) (by decide)) .nil
  · exact pairs_if (fun _ => .nil) fun _ => .cons (pair_narrow (infix_drop hi _) (by decide)) .nil
  · exact pairs_soles (soles_if soles_nil (soles_cons (sole_nat _ _ _) <| soles_cons (sole_wide _) soles_nil))
  · exact pairs_soles (soles_if soles_nil (soles_cons (sole_nat _ _ _) <| soles_cons (sole_wide _) soles_nil))
  · refine .cons (pair_value ?_) <| .cons (pair_sole (sole_is _)) .nil
    rintro v w ⟨d, rfl, h⟩ ⟨d', rfl, h'⟩
    split at h
    · rw [if_pos ‹_›] at h'
      exact alike_fits (pairs_volume hi _) h h'
    · rw [if_neg ‹_›] at h'
      exact network_alike ha ha' hi h h'

theorem pairs_strings (flags : Nat) (fs : List (String × Nat × Nat)) (pos : Nat) (hk : ∀ f ∈ fs, f.1 ∈ texts) :
    Pairs b tp tp' texts (stringEntries tp flags b fs pos) (stringEntries tp' flags b fs pos) := by
  induction fs generalizing pos with
  | nil => exact .nil
  | cons x fs ih =>
    obtain ⟨key, bit, limit⟩ := x
    have ih := fun pos => ih pos fun f hf => hk f (List.mem_cons_of_mem _ hf)
    unfold stringEntries
    split
    · split
      · exact .nil
      · exact .cons (pair_either (infix_between List.infix_rfl _ _) (hk _ List.mem_cons_self) _) (ih _)
    · exact ih _

theorem strings_first {flags : Nat} {fs : List (String × Nat × Nat)} {pos : Nat} {d : Dict} (h : Fits d (stringEntries tp flags b fs pos)) :
    d = [] ∨ firstKey d ∈ fs.map Prod.fst := by
  induction fs generalizing pos d with
  | nil =>
    cases d
    · exact .inl rfl
    · exact h.elim
  | cons x fs ih =>
    obtain ⟨key, bit, limit⟩ := x
    unfold stringEntries at h
    split at h
    · split at h
      · cases d
        · exact .inl rfl
        · exact h.elim
      · rcases d with _ | ⟨kv, d⟩
        · exact .inl rfl
        · right
          rw [show firstKey (kv :: d) = key from h.1]
          exact List.mem_cons_self
    · rcases ih h with h | h
      · exact .inl h
      · exact .inr (List.mem_cons_of_mem _ h)

theorem textKeys_strings {k : String} (h : k ∈ stringKeys.map Prod.fst) : textKeys k = stringKeys.map Prod.fst := by
  simp only [stringKeys, List.map_cons, List.map_nil, List.mem_cons, List.not_mem_nil, or_false] at h
  rcases h with rfl | rfl | rfl | rfl | rfl <;> decide

theorem strings_alike {flags : Nat} {pos : Nat} {d d' : Dict} (h : Fits d (stringEntries tp flags b stringKeys pos))
    (h' : Fits d' (stringEntries tp' flags b stringKeys pos)) : Alike b tp tp' (.dict d) (.dict d') := by
  rcases strings_first h with rfl | hk
  · have hp := pairs_strings (b := b) (tp := tp) (tp' := tp') (texts := stringKeys.map Prod.fst) flags stringKeys pos
      (fun f hf => List.mem_map_of_mem hf)
    have := fits_pairs hp h h'
    cases this
    exact .same _
  · refine .dict ?_
    rw [textKeys_strings hk]
    exact fits_pairs (pairs_strings flags stringKeys pos fun f hf => List.mem_map_of_mem hf) h h'

/-! ### extra blocks -/

theorem block_alike (he : tp.env.sha256hex = tp'.env.sha256hex) {s : Nat} {a : Bytes} (ha : a <:+: b) {d d' : Dict}
    (h : blockFields tp s a d) (h' : blockFields tp' s a d') : AlikeDict b tp tp' (textKeys "size") d d' := by
  have hsole : ∀ {es : Entries} {d d' : Dict}, Soles es → Fits d es → Fits d' es → AlikeDict b tp tp' (textKeys "size") d d' :=
    fun hs h h' => fits_pairs (pairs_soles hs) h h'
  unfold blockFields at h h'
  split at h
  · rw [if_pos ‹_›] at h'
    exact fits_pairs (.cons (pair_narrow (infix_between ha _ _) (by decide)) <| .cons (pair_sole (sole_wide _)) .nil) h h'
  rw [if_neg ‹_›] at h'
  split at h
  · rw [if_pos ‹_›] at h'
    refine hsole ?_ h h'
    exact soles_cons (sole_nat _ _ _) <| soles_cons (sole_nat _ _ _) <| soles_cons (sole_int _ _ _) <| soles_cons (sole_int _ _ _) <|
      soles_cons (sole_int _ _ _) <| soles_cons (sole_int _ _ _) <| soles_cons (sole_int _ _ _) <| soles_cons (sole_int _ _ _) <|
      soles_cons (sole_nat _ _ _) <| soles_cons (sole_nat _ _ _) <| soles_cons (sole_nat _ _ _) <| soles_cons (sole_wide _) <|
      soles_cons (sole_nat _ _ _) <| soles_cons (sole_nat _ _ _) <| soles_cons (sole_nat _ _ _) <| soles_cons (sole_nat _ _ _) <|
      soles_cons (sole_nat _ _ _) <| soles_cons (sole_nat _ _ _) <| soles_cons (sole_nat _ _ _) <| soles_cons (sole_nat _ _ _) <|
      soles_cons (sole_nat _ _ _) soles_nil
  rw [if_neg ‹_›] at h'
  split at h
  · rw [if_pos ‹_›] at h'
    refine fits_pairs ?_ h h'
    exact .cons (pair_sole (sole_nat _ _ _)) <| .cons (pair_sole (sole_nat _ _ _)) <|
      .cons (pair_narrow (infix_between ha _ _) (by decide)) <| pairs_soles <| soles_cons (sole_guid _ _) <|
      soles_cons (sole_guid _ _) <| soles_cons (sole_guid _ _) <| soles_cons (sole_guid _ _) soles_nil
  rw [if_neg ‹_›] at h'
  split at h
  · rw [if_pos ‹_›] at h'
    exact hsole (soles_cons (sole_nat _ _ _) soles_nil) h h'
  rw [if_neg ‹_›] at h'
  split at h
  · rw [if_pos ‹_›] at h'
    exact hsole (soles_cons (sole_nat _ _ _) <| soles_cons (sole_nat _ _ _) soles_nil) h h'
  rw [if_neg ‹_›] at h'
  split at h
  · rw [if_pos ‹_›] at h'
    obtain ⟨s, h1, h2⟩ := h
    obtain ⟨s', h1', h2'⟩ := h'
    obtain rfl := wideText_unique h1 h1'
    exact fits_pairs (.cons (pair_narrow (infix_between ha _ _) (by decide)) (pairs_soles (soles_descriptor _))) h2 h2'
  rw [if_neg ‹_›] at h'
  split at h
  · rw [if_pos ‹_›] at h'
    exact fits_pairs (.cons (pair_narrow (infix_drop ha _) (by decide)) .nil) h h'
  rw [if_neg ‹_›] at h'
  split at h
  · rw [if_pos ‹_›] at h'
    exact hsole (soles_cons (sole_records soles_storage) soles_nil) h h'
  rw [if_neg ‹_›] at h'
  split at h
  · rw [if_pos ‹_›] at h'
    exact hsole (soles_cons (sole_guid _ _) <| soles_cons (sole_nat _ _ _) soles_nil) h h'
  rw [if_neg ‹_›] at h'
  split at h
  · rw [if_pos ‹_›] at h'
    exact fits_pairs (.cons (pair_items (infix_drop ha _)) .nil) h h'
  rw [if_neg ‹_›] at h'
  rw [← he] at h'
  exact hsole (soles_cons (sole_eq _) soles_nil) h h'

theorem blockReport_alike (he : tp.env.sha256hex = tp'.env.sha256hex) {s : Nat} {p : Piece} (hp : p.bytes <:+: b) {d d' : Dict}
    (h : BlockReport tp s p d) (h' : BlockReport tp' s p d') : Alike b tp tp' (.dict d) (.dict d') := by
  obtain ⟨r, rfl, h⟩ := h
  obtain ⟨r', rfl, h'⟩ := h'
  exact .dict (.value (.same _) (block_alike he hp h h'))

theorem unknown_alike (he : tp.env.sha256hex = tp'.env.sha256hex) {vs ws : List PyVal} {l : List Piece} (hl : ∀ p ∈ l, p.bytes <:+: b)
    (h : UnknownReports tp vs l) (h' : UnknownReports tp' ws l) : AlikeList b tp tp' vs ws := by
  induction l generalizing vs ws with
  | nil =>
    cases vs <;> cases ws <;> simp_all [UnknownReports]
    exact .nil
  | cons p l ih =>
    rcases vs with _ | ⟨v, vs⟩
    · exact h.elim
    rcases ws with _ | ⟨w, ws⟩
    · exact h'.elim
    obtain ⟨⟨s, d, hs, rfl, h1⟩, h2⟩ := h
    obtain ⟨⟨s', d', hs', rfl, h1'⟩, h2'⟩ := h'
    rw [hs] at hs'
    cases hs'
    exact .cons (blockReport_alike he (hl p List.mem_cons_self) h1 h1') (ih (fun q hq => hl q (List.mem_cons_of_mem _ hq)) h2 h2')

/-- Dictionaries with the same keys in the same order, none twice, and values that are alike. -/
theorem alikeDict_of_get {d d' : Dict} (hk : d.keys = d'.keys) (hn : d.keys.Nodup)
    (h : ∀ k v w, d.get? k = some v → d'.get? k = some w → Alike b tp tp' v w) : AlikeDict b tp tp' texts d d' := by
  induction d generalizing d' with
  | nil =>
    cases d' <;> simp_all [Dict.keys]
    exact .nil _
  | cons kv d ih =>
    obtain ⟨k, v⟩ := kv
    rcases d' with _ | ⟨⟨k', v'⟩, d'⟩
    · simp [Dict.keys] at hk
    simp only [Dict.keys, List.map_cons, List.cons.injEq] at hk
    obtain ⟨rfl, hk⟩ := hk
    simp only [Dict.keys, List.map_cons, List.nodup_cons] at hn
    refine .value (h k v v' (by simp [Dict.get?]) (by simp [Dict.get?])) (ih hk hn.2 fun k1 v1 w1 e1 e2 => ?_)
    have hne : k ≠ k1 := by
      rintro rfl
      exact hn.1 (by
        by_contra hc
        rw [(Dict.get?_none_iff d k).2 hc] at e1
        cases e1)
    exact h k1 v1 w1 (by simpa only [Dict.get?, if_neg hne] using e1) (by simpa only [Dict.get?, if_neg hne] using e2)

/-! ### one code page -/

theorem readings_same {v w : PyVal} (h : Readings b tp tp v w) : v = w := by
  obtain ⟨a, s, s', -, h, h', rfl, rfl⟩ := h
  rw [narrowText_unique h h']

mutual

theorem alike_same : ∀ {v w : PyVal}, Alike b tp tp v w → v = w
  | _, _, .same _ => rfl
  | _, _, .dict h => by rw [alikeDict_same h]
  | _, _, .list h => by rw [alikeList_same h]

theorem alikeDict_same : ∀ {texts : List String} {d d' : Dict}, AlikeDict b tp tp texts d d' → d = d'
  | _, _, _, .nil _ => rfl
  | _, _, _, .value h h' => by rw [alike_same h, alikeDict_same h']
  | _, _, _, .text _ h h' => by rw [readings_same h, alikeDict_same h']

theorem alikeList_same : ∀ {l l' : List PyVal}, AlikeList b tp tp l l' → l = l'
  | _, _, .nil => rfl
  | _, _, .cons h h' => by rw [alike_same h, alikeList_same h']

end

end Verif.Values
