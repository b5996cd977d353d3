import Verif.Spec.ItemsTold
import Verif.Props.StoreTold

/-
C108: what the report tells about shell items.
-/

namespace Verif.Props

open Spec Py Verif.Values

namespace ItemsTold

open InfoTold BlockTold StoreTold

/-- Two values are the same exactly if `S`. -/
structure Pin (P P' : PyVal → Prop) (S : Prop) : Prop where
  same : ∀ v, P v → P' v → S
  only : S → ∀ v v', P v → P' v' → v = v'

inductive Pins : Entries → Entries → Prop → Prop
  | nil : Pins [] [] True
  | cons {k P P' S es es' T} : Pin P P' S → Pins es es' T → Pins ((k, P) :: es) ((k, P') :: es') (S ∧ T)

theorem Pins.told {es es' : Entries} {S : Prop} (h : Pins es es' S) {d d' : Dict} (hd : Fits d es) (hd' : Fits d' es') : d = d' ↔ S := by
  induction h generalizing d d' with
  | nil => cases d <;> cases d' <;> simp_all [Fits]
  | cons hp _ ih =>
    rcases d with _ | ⟨⟨k, v⟩, d⟩
    · simp [Fits] at hd
    · rcases d' with _ | ⟨⟨k', v'⟩, d'⟩
      · simp [Fits] at hd'
      · obtain ⟨h1, h2, h3⟩ := hd
        obtain ⟨h1', h2', h3'⟩ := hd'
        dsimp only at h1 h1' h2 h2'
        subst h1
        subst h1'
        simp only [List.cons.injEq, Prod.mk.injEq, true_and]
        refine and_congr ⟨?_, fun s => hp.only s v v' h2 h2'⟩ (ih h3 h3')
        rintro rfl
        exact hp.same v h2 h2'

theorem pin_nat {n : Nat} {w w' : Bytes} {off : Nat} (hn : 0 < n) : Pin (NatAt n w off) (NatAt n w' off) (SameBytes w w' off (off + n)) :=
  ⟨fun v h h' => nat_same ⟨v, h, h'⟩, fun h _ _ => nat_only hn h⟩

theorem pin_guid {w w' : Bytes} {off : Nat} : Pin (GuidAt w off) (GuidAt w' off) (SameBytes w w' off (off + 16)) :=
  ⟨fun v h h' => guid_same ⟨v, h, h'⟩, fun h _ _ => guid_only h⟩

theorem pin_said {P P' : PyVal → Prop} (h : Sole P) (h' : Sole P') : Pin P P' (SameSaid P P') :=
  ⟨fun _ hv hv' _ => ⟨fun hx => h _ _ hv hx ▸ hv', fun hx => h' _ _ hv' hx ▸ hv⟩, fun hs v _ hv hv' => h' _ _ ((hs v).1 hv) hv'⟩

theorem pin_is (s : String) : Pin (Is s) (Is s) True := ⟨fun _ _ _ => trivial, fun _ _ _ h h' => h.trans h'.symm⟩

theorem pin_eq (x y : PyVal) : Pin (fun v => v = x) (fun v => v = y) (x = y) :=
  ⟨fun _ h h' => h.symm.trans h', fun e _ _ h h' => h.trans (e.trans h'.symm)⟩

theorem Pin.congr {P P' : PyVal → Prop} {S T : Prop} (h : Pin P P' S) (e : S ↔ T) : Pin P P' T :=
  ⟨fun v a b => e.1 (h.same v a b), fun s => h.only (e.2 s)⟩

theorem is_inj (s s' : String) : PyVal.str s.toList = PyVal.str s'.toList ↔ s = s' := by
  rw [PyVal.str.injEq, String.toList_inj]

theorem pin_kind (t t' : UInt8) : Pin (Is (fsKindText t)) (Is (fsKindText t')) (SameKind t t') :=
  (pin_eq _ _).congr ((is_inj _ _).trans (kind_same t t'))

/-- Of a thing there is at most one of. -/
theorem pin_under {α β : Type} {x : Option α} {y : Option β} {Q : α → PyVal → Prop} {R : β → PyVal → Prop} {S : α → β → Prop}
    (h : ∀ a b, x = some a → y = some b → Pin (Q a) (R b) (S a b)) :
    Pin (fun v => ∃ a, x = some a ∧ Q a v) (fun v => ∃ b, y = some b ∧ R b v) (∀ a b, x = some a → y = some b → S a b) := by
  refine ⟨?_, ?_⟩
  · rintro v ⟨a, ha, hq⟩ ⟨b, hb, hr⟩ a' b' ha' hb'
    rw [ha] at ha'
    rw [hb] at hb'
    cases ha'
    cases hb'
    exact (h a b ha hb).same v hq hr
  · rintro hs v v' ⟨a, ha, hq⟩ ⟨b, hb, hr⟩
    exact (h a b ha hb).only (hs a b ha hb) v v' hq hr

theorem dos_words {d t d' t' : Nat} (ht : t < 2 ^ 16) (ht' : t' < 2 ^ 16)
    (h : dosDateTime d t = dosDateTime d' t') : d = d' ∧ t = t' := by
  unfold dosDateTime at h
  simp only [DateTime.mk.injEq] at h
  constructor <;> omega

theorem pin_dostime {w w' : Bytes} : Pin (DostimeAt w 6) (DostimeAt w' 6) (SameBytes w w' 6 10 ∨ NoDosDate w ∧ NoDosDate w') := by
  have value : ∀ date time : Nat, (if (date ≠ 0 ∨ time ≠ 0) ∧ ValidDateTime (dosDateTime date time) then PyVal.dt (dosDateTime date time) else .none) =
      if ValidDateTime (dosDateTime date time) then PyVal.dt (dosDateTime date time) else .none := by
    intro date time
    by_cases h : date ≠ 0 ∨ time ≠ 0
    · simp [h]
    · push Not at h
      obtain ⟨rfl, rfl⟩ := h
      rw [if_neg (fun h => dos_zero h.2), if_neg dos_zero]
  constructor
  · rintro v ⟨d, t, hd, ht, hv⟩ ⟨d', t', hd', ht', hv'⟩
    rw [value] at hv hv'
    by_cases c : ValidDateTime (dosDateTime d t)
    · rw [if_pos c] at hv
      by_cases c' : ValidDateTime (dosDateTime d' t')
      · rw [if_pos c'] at hv'
        rw [hv] at hv'
        obtain ⟨rfl, rfl⟩ := dos_words (uAt_lt ht) (uAt_lt ht') (PyVal.dt.inj hv')
        exact .inl (sameBytes_append (num_bytes hd hd') (num_bytes ht ht'))
      · rw [if_neg c', hv] at hv'
        cases hv'
    · rw [if_neg c] at hv
      by_cases c' : ValidDateTime (dosDateTime d' t')
      · rw [if_pos c', hv] at hv'
        cases hv'
      · refine .inr ⟨fun a b ha hb => ?_, fun a b ha hb => ?_⟩
        · rw [hd] at ha
          rw [ht] at hb
          cases ha
          cases hb
          exact c
        · rw [hd'] at ha
          rw [ht'] at hb
          cases ha
          cases hb
          exact c'
  · rintro hs v v' ⟨d, t, hd, ht, rfl⟩ ⟨d', t', hd', ht', rfl⟩
    rw [value, value]
    rcases hs with hs | ⟨h1, h2⟩
    · rw [bytes_num (n := 2) (by omega) (sameBytes_sub hs (by omega) (by omega)), hd'] at hd
      rw [bytes_num (n := 2) (by omega) (sameBytes_sub hs (by omega) (by omega)), ht'] at ht
      cases hd
      cases ht
      rfl
    · rw [if_neg (h1 d t hd ht), if_neg (h2 d' t' hd' ht')]

theorem pins_entry (tp : TextProc) (w w' : Bytes) : Pins (fileEntries tp w).tail (fileEntries tp w').tail
    ((∀ t t', w[0]? = some t → w'[0]? = some t' → SameKind t t') ∧ SameBytes w w' 2 6 ∧ (SameBytes w w' 6 10 ∨ NoDosDate w ∧ NoDosDate w') ∧
      SameBytes w w' 10 12 ∧ SameSaid (fun v => ∃ t, w[0]? = some t ∧ Either tp (t.toNat.testBit 2) (w.drop 12) v)
        (fun v => ∃ t, w'[0]? = some t ∧ Either tp (t.toNat.testBit 2) (w'.drop 12) v) ∧ True) :=
  .cons (pin_under fun a b _ _ => pin_kind a b) <| .cons (pin_nat (by omega)) <| .cons pin_dostime <| .cons (pin_nat (by omega)) <|
    .cons (pin_said (sole_under fun _ => sole_either _ _ _) (sole_under fun _ => sole_either _ _ _)) .nil

theorem entry_tail {tp : TextProc} {w w' : Bytes} {d d' : Dict} (h : Fits d (fileEntries tp w).tail) (h' : Fits d' (fileEntries tp w').tail) :
    d = d' ↔ EqualEntry tp w w' :=
  ((pins_entry tp w w').told h h').trans ⟨fun ⟨a, b, c, d, e, _⟩ => ⟨a, b, c, d, e⟩, fun ⟨a, b, c, d, e⟩ => ⟨a, b, c, d, e, trivial⟩⟩

theorem entry_all {tp : TextProc} {w w' : Bytes} {d d' : Dict} (h : Fits d (fileEntries tp w)) (h' : Fits d' (fileEntries tp w')) :
    d = d' ↔ EqualEntry tp w w' :=
  ((Pins.cons (pin_is "File entry") (pins_entry tp w w')).told h h').trans
    ⟨fun ⟨_, a, b, c, d, e, _⟩ => ⟨a, b, c, d, e⟩, fun ⟨a, b, c, d, e⟩ => ⟨trivial, a, b, c, d, e, trivial⟩⟩

theorem pin_guid_at {w w' : Bytes} {a b : Nat} : Pin (GuidAt w a) (GuidAt w' b) (between w a (a + 16) = between w' b (b + 16)) := by
  constructor
  · rintro v ⟨g, hg, rfl⟩ ⟨g', hg', e⟩
    simp only [PyVal.str.injEq, text_inj] at e
    rw [hg, hg', e]
  · rintro h v v' ⟨g, hg, rfl⟩ ⟨g', hg', rfl⟩
    rw [hg, hg'] at h
    exact congrArg PyVal.str (encode_inj_text h)

theorem pin_by_number {f : Nat → String} {w w' : Bytes} {n off : Nat} :
    Pin (fun v => ∃ k, uAt n w off = some k ∧ Is (f k) v) (fun v => ∃ k, uAt n w' off = some k ∧ Is (f k) v)
      (∀ a b, uAt n w off = some a → uAt n w' off = some b → f a = f b) :=
  pin_under fun _ _ _ _ => (pin_eq _ _).congr (is_inj _ _)

theorem by_number {f : Nat → String} {w w' : Bytes} {n off : Nat} (hn : 0 < n) (h : SameBytes w w' off (off + n)) :
    ∀ a b, uAt n w off = some a → uAt n w' off = some b → f a = f b := by
  intro a b ha hb
  rw [bytes_num hn h, hb] at ha
  cases ha
  rfl

theorem pin_hex8 {w w' : Bytes} : Pin (fun v => ∃ k, uAt 4 w 2 = some k ∧ v = .str ("0x".toList ++ hexFixed 8 k))
    (fun v => ∃ k, uAt 4 w' 2 = some k ∧ v = .str ("0x".toList ++ hexFixed 8 k)) (SameBytes w w' 2 6) := by
  constructor
  · rintro v ⟨k, hk, rfl⟩ ⟨m, hm, e⟩
    rw [PyVal.str.injEq, List.append_cancel_left_eq] at e
    have := hexFixed_inj (uAt_lt hk) (uAt_lt hm) e
    subst this
    exact num_bytes hk hm
  · rintro h v v' ⟨k, hk, rfl⟩ ⟨m, hm, rfl⟩
    rw [bytes_num (by omega) h, hm] at hk
    cases hk
    rfl

theorem volume_told {tp : TextProc} {t t' : UInt8} {w w' : Bytes} {d d' : Dict}
    (h : Fits d [("flags", fun v => v = .str (hex0x (t.toNat % 16))),
      if t.toNat.testBit 0 then ("volume_name", Narrow tp (between w 1 21)) else ("volume_identifier", GuidAt w 2)])
    (h' : Fits d' [("flags", fun v => v = .str (hex0x (t'.toNat % 16))),
      if t'.toNat.testBit 0 then ("volume_name", Narrow tp (between w' 1 21)) else ("volume_identifier", GuidAt w' 2)]) :
    d = d' ↔ t.toNat % 16 = t'.toNat % 16 ∧
      if t.toNat % 2 = 1 then SameSaid (Narrow tp (between w 1 21)) (Narrow tp (between w' 1 21)) else SameBytes w w' 2 18 := by
  have flags : Pin (fun v => v = .str (hex0x (t.toNat % 16))) (fun v => v = .str (hex0x (t'.toNat % 16))) (t.toNat % 16 = t'.toNat % 16) :=
    (pin_eq _ _).congr (by rw [PyVal.str.injEq, hex0x_inj])
  simp only [Nat.testBit_zero, decide_eq_true_eq] at h h'
  by_cases e : t.toNat % 16 = t'.toNat % 16
  · by_cases b : t.toNat % 2 = 1
    · have b' : t'.toNat % 2 = 1 := by omega
      rw [if_pos b] at h ⊢
      rw [if_pos b'] at h'
      exact ((Pins.cons flags <| .cons (pin_said (sole_narrow _ _) (sole_narrow _ _)) .nil).told h h').trans (by simp only [and_true])
    · have b' : ¬ t'.toNat % 2 = 1 := by omega
      rw [if_neg b] at h ⊢
      rw [if_neg b'] at h'
      exact ((Pins.cons flags <| .cons pin_guid .nil).told h h').trans (by simp only [and_true])
  · refine ⟨?_, fun h => absurd h.1 e⟩
    rintro rfl
    rcases d with _ | ⟨⟨k, v⟩, d⟩
    · exact h.elim
    · exact absurd (flags.same v h.2.1 h'.2.1) e

theorem users_told {tp : TextProc} {w w' : Bytes} {f : UInt8 → Char} {d d' : Dict}
    (h : Fits d [ ("signature", fun v => v = .str ((between w 4 8).map f)),
      ("file_entry", fun v => ∃ m d, uAt 2 w 8 = some m ∧ v = .dict d ∧ Fits d (fileEntries tp (between w 10 (10 + m)))),
      ("delegate_class_id", fun v => ∃ k, uAt 2 w 2 = some k ∧ GuidAt w (4 + k) v),
      ("delegate_folder_id", fun v => ∃ k, uAt 2 w 2 = some k ∧ GuidAt w (20 + k) v) ])
    (h' : Fits d' [ ("signature", fun v => v = .str ((between w' 4 8).map f)),
      ("file_entry", fun v => ∃ m d, uAt 2 w' 8 = some m ∧ v = .dict d ∧ Fits d (fileEntries tp (between w' 10 (10 + m)))),
      ("delegate_class_id", fun v => ∃ k, uAt 2 w' 2 = some k ∧ GuidAt w' (4 + k) v),
      ("delegate_folder_id", fun v => ∃ k, uAt 2 w' 2 = some k ∧ GuidAt w' (20 + k) v) ]) :
    d = d' ↔ (between w 4 8).map f = (between w' 4 8).map f ∧
      (∀ m m', uAt 2 w 8 = some m → uAt 2 w' 8 = some m' → EqualEntry tp (between w 10 (10 + m)) (between w' 10 (10 + m'))) ∧
      ∀ k k', uAt 2 w 2 = some k → uAt 2 w' 2 = some k' →
        between w (4 + k) (20 + k) = between w' (4 + k') (20 + k') ∧ between w (20 + k) (36 + k) = between w' (20 + k') (36 + k') := by
  have entry : Pin (fun v => ∃ m d, uAt 2 w 8 = some m ∧ v = .dict d ∧ Fits d (fileEntries tp (between w 10 (10 + m))))
      (fun v => ∃ m d, uAt 2 w' 8 = some m ∧ v = .dict d ∧ Fits d (fileEntries tp (between w' 10 (10 + m))))
      (∀ m m', uAt 2 w 8 = some m → uAt 2 w' 8 = some m' → EqualEntry tp (between w 10 (10 + m)) (between w' 10 (10 + m'))) := by
    constructor
    · rintro v ⟨m, d, hm, rfl, hd⟩ ⟨m', d', hm', e, hd'⟩ a b ha hb
      cases e
      rw [hm] at ha
      rw [hm'] at hb
      cases ha
      cases hb
      exact (entry_all hd hd').1 rfl
    · rintro hs v v' ⟨m, d, hm, rfl, hd⟩ ⟨m', d', hm', rfl, hd'⟩
      rw [(entry_all hd hd').2 (hs m m' hm hm')]
  refine ((Pins.cons (pin_eq _ _) <| .cons entry <| .cons (pin_under fun _ _ _ _ => pin_guid_at) <|
    .cons (pin_under fun _ _ _ _ => pin_guid_at) .nil).told h h').trans ?_
  rw [PyVal.str.injEq]
  have e4 : ∀ k, 4 + k + 16 = 20 + k := fun k => by omega
  have e20 : ∀ k, 20 + k + 16 = 36 + k := fun k => by omega
  simp only [e4, e20, and_true]
  exact ⟨fun ⟨a, b, c, d⟩ => ⟨a, b, fun k k' hk hk' => ⟨c k k' hk hk', d k k' hk hk'⟩⟩,
    fun ⟨a, b, c⟩ => ⟨a, b, fun k k' hk hk' => (c k k' hk hk').1, fun k k' hk hk' => (c k k' hk hk').2⟩⟩

/-- The entries of two items of one class. -/
theorem fields_told {tp : TextProc} {cls : String} {n n' : Nat} {t t' : UInt8} {w w' : Bytes} {d d' : Dict}
    (h : Fits d (itemFields tp n t w cls)) (h' : Fits d' (itemFields tp n' t' w' cls)) : d = d' ↔ EqualFields tp cls n n' t t' w w' := by
  unfold itemFields at h h'
  unfold EqualFields
  by_cases c1 : cls = "Control panel CPL file"
  · rw [if_pos c1] at h h' ⊢
    exact ((Pins.cons pin_hex8 <| .cons (pin_said (sole_cplText _ _ _) (sole_cplText _ _ _)) <|
      .cons (pin_said (sole_cplTextAt _ _ _ _) (sole_cplTextAt _ _ _ _)) <|
      .cons (pin_said (P := CplComments tp w) (P' := CplComments tp w') (sole_ite (sole_eq _) (sole_cplTextAt _ _ _ _))
        (sole_ite (sole_eq _) (sole_cplTextAt _ _ _ _))) .nil).told h h').trans (by simp only [and_true])
  rw [if_neg c1] at h h' ⊢
  by_cases c2 : cls = "Control panel category"
  · rw [if_pos c2] at h h' ⊢
    refine ((Pins.cons (pin_nat (by omega)) <| .cons (pin_by_number (f := fun k => (categoryName k).getD "Unknown")) .nil).told h h').trans ?_
    exact ⟨fun h => h.1, fun h => ⟨h, by_number (by omega) h, trivial⟩⟩
  rw [if_neg c2] at h h' ⊢
  by_cases c3 : cls = "Root Folder"
  · rw [if_pos c3] at h h' ⊢
    refine ((Pins.cons (pin_by_number (f := fun k => (sortIndexName k).getD "Unknown")) <| .cons (pin_nat (by omega)) <|
      .cons pin_guid .nil).told h h').trans ?_
    refine ⟨fun h => sameBytes_append h.2.1 h.2.2.1, fun h => ?_⟩
    have h1 : SameBytes w w' 1 2 := sameBytes_sub h (by omega) (by omega)
    have h2 : SameBytes w w' 2 18 := sameBytes_sub h (by omega) (by omega)
    exact ⟨by_number (by omega) h1, h1, h2, trivial⟩
  rw [if_neg c3] at h h' ⊢
  by_cases c4 : cls = "Volume Item"
  · rw [if_pos c4] at h h' ⊢
    exact volume_told h h'
  rw [if_neg c4] at h h' ⊢
  by_cases c5 : cls = "File entry"
  · rw [if_pos c5] at h h' ⊢
    exact entry_tail h h'
  rw [if_neg c5] at h h' ⊢
  by_cases c6 : cls = "Network location"
  · rw [if_pos c6] at h h' ⊢
    exact ((Pins.cons (pin_kind t t') <| .cons (pin_nat (by omega)) <| .cons (pin_said (sole_piece _ _ _) (sole_piece _ _ _)) <|
      .cons (pin_said (P := LocationDescription tp w) (P' := LocationDescription tp w') (sole_under fun _ => sole_piece _ _ _)
        (sole_under fun _ => sole_piece _ _ _)) <|
      .cons (pin_said (P := LocationComments tp w) (P' := LocationComments tp w') (sole_under fun _ => sole_piece _ _ _)
        (sole_under fun _ => sole_piece _ _ _)) .nil).told h h').trans (by simp only [and_true])
  rw [if_neg c6] at h h' ⊢
  by_cases c7 : cls = "Control panel"
  · rw [if_pos c7] at h h' ⊢
    exact ((Pins.cons pin_guid .nil).told h h').trans (by simp only [and_true])
  rw [if_neg c7] at h h' ⊢
  by_cases c8 : cls = "Users files folder"
  · rw [if_pos c8] at h h' ⊢
    exact users_told h h'
  rw [if_neg c8] at h h' ⊢
  by_cases c9 : cls = "Unknown"
  · rw [if_pos c9] at h h' ⊢
    exact ((Pins.cons (pin_eq _ _) .nil).told h h').trans (by
      simp only [PyVal.int.injEq, Nat.cast_inj, and_true]
      omega)
  rw [if_neg c9] at h h' ⊢
  cases d <;> cases d' <;> simp_all [Fits]

/-- Items are reported alike exactly if they are the same. -/
theorem list_told {tp : TextProc} {b b' : Bytes} {l l' : List PyVal} (h : ItemsAt tp b l) (h' : ItemsAt tp b' l') :
    l = l' ↔ EqualItems tp b b' := by
  induction h generalizing b' l' with
  | stop hs =>
    cases h' with
    | stop hs' => exact ⟨fun _ => .stop hs hs', fun _ => rfl⟩
    | item h1 h2 h3 h4 h5 =>
      refine ⟨nofun, fun e => ?_⟩
      cases e with
      | stop _ hs' =>
        rcases hs' with rfl | hs'
        · simp [uAt] at h1
        · rw [h1] at hs'
          cases hs'
          exact absurd rfl h2
      | item g1 g2 =>
        rcases hs with rfl | hs
        · simp [uAt] at g1
        · rw [g1] at hs
          cases hs
          exact absurd rfl g2
  | @item b n t d l h1 h2 h3 h4 h5 ih =>
    cases h' with
    | stop hs' =>
      refine ⟨nofun, fun e => ?_⟩
      cases e with
      | stop hs _ =>
        rcases hs with rfl | hs
        · simp [uAt] at h1
        · rw [h1] at hs
          cases hs
          exact absurd rfl h2
      | item _ _ _ g1 g2 =>
        rcases hs' with rfl | hs'
        · simp [uAt] at g1
        · rw [g1] at hs'
          cases hs'
          exact absurd rfl g2
    | @item _ n' t' d' l' h1' h2' h3' h4' h5' =>
      rcases d with _ | ⟨⟨k, v⟩, d⟩
      · exact h4.elim
      rcases d' with _ | ⟨⟨k', v'⟩, d'⟩
      · exact h4'.elim
      obtain ⟨a1, a2, a3⟩ := h4
      obtain ⟨b1, b2, b3⟩ := h4'
      dsimp only at a1 b1 a2 b2
      subst a1
      subst b1
      rw [List.cons.injEq, PyVal.dict.injEq, List.cons.injEq, Prod.mk.injEq, ih h5']
      constructor
      · rintro ⟨⟨⟨-, e⟩, rfl⟩, hr⟩
        subst e
        unfold Is at a2 b2
        rw [a2] at b2
        have hc := String.toList_inj.1 (PyVal.str.inj b2)
        rw [← hc] at b3
        exact .item h1 h2 h3 h1' h2' h3' rfl hc.symm ((fields_told a3 b3).1 rfl) hr
      · intro e
        cases e with
        | stop hs _ =>
          rcases hs with rfl | hs
          · simp [uAt] at h1
          · rw [h1] at hs
            cases hs
            exact absurd rfl h2
        | item g1 g2 g3 g1' g2' g3' hc hc' hf hr =>
          rw [h1] at g1
          cases g1
          rw [h3] at g3
          cases g3
          rw [h1'] at g1'
          cases g1'
          rw [h3'] at g3'
          cases g3'
          subst hc
          rw [hc'] at b2 b3
          exact ⟨⟨⟨rfl, a2.trans b2.symm⟩, (fields_told a3 b3).2 hf⟩, hr⟩

/-- The target of a report: there if it is announced. -/
theorem target_of {tp : TextProc} {b : Bytes} {L : Layout} {allow : Bool} {l : List Piece} {last : Bytes} {j : Dict}
    (h : Fits j (reportEntries tp b L allow l last)) :
    if L.flags.testBit 0 then ∃ d, Dict.get? j "target" = some (.dict d) ∧ Fits d (targetEntries tp b L) else Dict.get? j "target" = none := by
  have := fits_get h "target"
  unfold reportEntries at this
  cases hb : L.flags.testBit 0
  · simpa [hb] using this
  · simp only [hb, if_true, List.cons_append, List.nil_append, List.find?_cons] at this
    obtain ⟨v, hv, d, rfl, hd⟩ := this
    rw [if_pos rfl]
    exact ⟨d, hv, hd⟩

theorem blockName_items {s : Nat} (h : blockName s = "SHELL_ITEM_IDENTIFIER_BLOCK") : s = 0xA000000C := by
  unfold blockName at h
  rcases hl : blockNames.lookup s with _ | x
  · rw [hl] at h
    exact absurd h (by decide)
  · rw [hl] at h
    cases h
    obtain ⟨l₁, l₂, h1, -⟩ := List.lookup_eq_some_iff.1 hl
    have hm : (s, "SHELL_ITEM_IDENTIFIER_BLOCK") ∈ blockNames := by
      rw [h1]
      simp
    simpa [blockNames] using hm

end ItemsTold

open ItemsTold Ends in
/-- C108: what the reports of two files say about their ID lists is the same exactly if both or neither has one and, if they have, its size and
place and the items are the same.  The same for the last shell item block that can be reported. -/
theorem items_told (env : Env) (cp : Option String) (hcp : UsableCodePage (TextProc.mk' env cp)) (allow allow' : Bool) (src src' : Source)
    (f f' : LnkFile) (hf : (LnkFile.init env cp allow src).res = .ok f) (hf' : (LnkFile.init env cp allow' src').res = .ok f') (j j' : Dict)
    (hj : (f.getJson true).res = .ok j) (hj' : (f'.getJson true).res = .ok j') :
    ∃ L l last L' l' last' E E', layout src.bytes = some L ∧ Cut (src.bytes.drop L.extraAt) l last ∧
      layout src'.bytes = some L' ∧ Cut (src'.bytes.drop L'.extraAt) l' last' ∧
      Dict.get? j "extra" = some (.dict E) ∧ Dict.get? j' "extra" = some (.dict E') ∧
      (Dict.get? j "target" = Dict.get? j' "target" ↔
        L.flags.testBit 0 = L'.flags.testBit 0 ∧ (L.flags.testBit 0 = true →
          L.headerSize = L'.headerSize ∧ uAt 2 src.bytes L.headerSize = uAt 2 src'.bytes L'.headerSize ∧
          EqualItems (TextProc.mk' env cp) (between src.bytes (L.headerSize + 2) L.infoAt) (between src'.bytes (L'.headerSize + 2) L'.infoAt))) ∧
      ∀ p p', LastReadable "SHELL_ITEM_IDENTIFIER_BLOCK" l p → LastReadable "SHELL_ITEM_IDENTIFIER_BLOCK" l' p' →
        (Dict.get? E "SHELL_ITEM_IDENTIFIER_BLOCK" = Dict.get? E' "SHELL_ITEM_IDENTIFIER_BLOCK" ↔
          p.declared = p'.declared ∧ EqualItems (TextProc.mk' env cp) (p.bytes.drop 8) (p'.bytes.drop 8)) := by
  have key : ∀ (allow : Bool) (src : Source) (f : LnkFile) (j : Dict), (LnkFile.init env cp allow src).res = .ok f →
      (f.getJson true).res = .ok j → ∃ L l last E, layout src.bytes = some L ∧ Cut (src.bytes.drop L.extraAt) l last ∧
        Dict.get? j "extra" = some (.dict E) ∧ ExtraReport (TextProc.mk' env cp) allow l last E ∧
        Fits j (reportEntries (TextProc.mk' env cp) src.bytes L allow l last) := by
    intro allow src f j hf hj
    obtain ⟨L, l, last, hL, hc, hv⟩ := report_values env cp hcp allow src f hf
    obtain ⟨v, h1, E, rfl, h2⟩ := value_at (k := "extra") (P := fun v => ∃ d, v = .dict d ∧ ExtraReport (TextProc.mk' env cp) allow l last d)
      (hv j hj) (by
        unfold reportEntries
        cases L.flags.testBit 0 <;> simp)
    exact ⟨L, l, last, E, hL, hc, h1, h2, hv j hj⟩
  obtain ⟨L, l, last, E, hL, hc, hE, hx, hall⟩ := key allow src f j hf hj
  obtain ⟨L', l', last', E', hL', hc', hE', hx', hall'⟩ := key allow' src' f' j' hf' hj'
  refine ⟨L, l, last, L', l', last', E, E', hL, hc, hL', hc', hE, hE', ?_, ?_⟩
  · have ht := target_of hall
    have ht' := target_of hall'
    cases hb : L.flags.testBit 0 <;> cases hb' : L'.flags.testBit 0 <;> simp only [hb, hb', Bool.false_eq_true, if_false, if_true] at ht ht'
    · simp [ht, ht']
    · obtain ⟨d', h1, -⟩ := ht'
      simp [ht, h1]
    · obtain ⟨d, h1, -⟩ := ht
      simp [ht', h1]
    · obtain ⟨d, h1, hd⟩ := ht
      obtain ⟨d', h1', hd'⟩ := ht'
      rw [h1, h1']
      simp only [Option.some.injEq, PyVal.dict.injEq, true_and, forall_const]
      have size : Pin (NatAt 2 src.bytes L.headerSize) (NatAt 2 src'.bytes L'.headerSize)
          (uAt 2 src.bytes L.headerSize = uAt 2 src'.bytes L'.headerSize) := by
        constructor
        · rintro v ⟨k, hk, rfl⟩ ⟨m, hm, e⟩
          simp only [PyVal.int.injEq, Nat.cast_inj] at e
          rw [hk, hm, e]
        · rintro h v v' ⟨k, hk, rfl⟩ ⟨m, hm, rfl⟩
          rw [hk, hm] at h
          cases h
          rfl
      have items : Pin (fun v => ∃ l, v = .list l ∧ ItemsAt (TextProc.mk' env cp) (between src.bytes (L.headerSize + 2) L.infoAt) l)
          (fun v => ∃ l, v = .list l ∧ ItemsAt (TextProc.mk' env cp) (between src'.bytes (L'.headerSize + 2) L'.infoAt) l)
          (EqualItems (TextProc.mk' env cp) (between src.bytes (L.headerSize + 2) L.infoAt)
            (between src'.bytes (L'.headerSize + 2) L'.infoAt)) := by
        constructor
        · rintro v ⟨k, rfl, hk⟩ ⟨m, e, hm⟩
          cases e
          exact (list_told hk hm).1 rfl
        · rintro h v v' ⟨k, rfl, hk⟩ ⟨m, rfl, hm⟩
          rw [(list_told hk hm).2 h]
      refine ((Pins.cons size <| .cons items <| .cons (pin_eq _ _) .nil).told hd hd').trans ?_
      simp only [PyVal.int.injEq, Nat.cast_inj, Nat.add_right_cancel_iff, and_true]
      tauto
  · rintro p p' ⟨pre, post, e1, e2, e3⟩ ⟨pre', post', e1', e2', e3'⟩
    have sig : ∀ q : Piece, ReportedAs "SHELL_ITEM_IDENTIFIER_BLOCK" q → q.signature = some 0xA000000C := by
      rintro q ⟨s, h1, h2, -⟩
      rw [h1, blockName_items h2]
    obtain ⟨d, hd, r, rfl, hr⟩ := hx.named _ pre p post _ (by decide) e1 e2 (sig p e2) e3
    obtain ⟨d', hd', r', rfl, hr'⟩ := hx'.named _ pre' p' post' _ (by decide) e1' e2' (sig p' e2') e3'
    rw [hd, hd']
    simp only [Option.some.injEq, PyVal.dict.injEq, List.cons.injEq, Prod.mk.injEq, true_and, PyVal.int.injEq, Nat.cast_inj]
    refine and_congr_right fun _ => ?_
    unfold blockFields at hr hr'
    simp only [Nat.reduceEqDiff, or_self, if_false, if_true] at hr hr'
    rcases r with _ | ⟨⟨k, v⟩, _ | _⟩ <;> simp only [Fits, and_true, and_false] at hr
    rcases r' with _ | ⟨⟨k', v'⟩, _ | _⟩ <;> simp only [Fits, and_true, and_false] at hr'
    obtain ⟨rfl, k, rfl, hk⟩ := hr
    obtain ⟨rfl, m, rfl, hm⟩ := hr'
    simp only [List.cons.injEq, Prod.mk.injEq, true_and, PyVal.list.injEq, and_true]
    exact list_told hk hm

/-- A list with one root folder: type byte, sort index, the last byte of the identifier, and one byte more. -/
def rootList (typ sort last more : UInt8) : Bytes := le 2 21 ++ [typ, sort] ++ List.replicate 15 1 ++ [last, more] ++ le 2 0

/-- The byte behind the identifier does not count. -/
example (tp : TextProc) : EqualItems tp (rootList 0x1F 0x50 2 0) (rootList 0x1F 0x50 2 9) := by
  refine .item (n := 21) (n' := 21) (t := 0x1F) (t' := 0x1F) (cls := "Root Folder") (by decide +kernel) (by decide) (by decide +kernel)
    (by decide +kernel) (by decide) (by decide +kernel) (by decide +kernel) (by decide +kernel) ?_ (.stop (.inr (by decide +kernel)) (.inr (by decide +kernel)))
  unfold EqualFields
  simp only [String.reduceEq, if_false, if_true]
  intro k _ h
  revert h k
  decide +kernel

/-- The sort index does, even where it has no name. -/
example (tp : TextProc) : ¬ EqualItems tp (rootList 0x1F 0x01 2 0) (rootList 0x1F 0x02 2 0) := by
  intro h
  cases h with
  | stop h _ =>
    revert h
    decide +kernel
  | item h1 _ h3 h1' _ h3' hc _ hf _ =>
    rw [show uAt 2 (rootList 0x1F 0x01 2 0) 0 = some 21 by decide +kernel] at h1
    rw [show uAt 2 (rootList 0x1F 0x02 2 0) 0 = some 21 by decide +kernel] at h1'
    rw [show (rootList 0x1F 0x01 2 0)[2]? = some 0x1F by decide +kernel] at h3
    cases h1
    cases h1'
    cases h3
    rw [show (itemClass (0x1F : UInt8).toNat).getD "Unknown" = "Root Folder" by decide +kernel] at hc
    subst hc
    unfold EqualFields at hf
    simp only [String.reduceEq, if_false, if_true] at hf
    have := hf 1 (by omega) (by omega)
    revert this
    decide +kernel

end Verif.Props
