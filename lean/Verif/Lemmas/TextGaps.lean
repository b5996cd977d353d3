import Verif.Lemmas.Gaps
import Verif.Lemmas.LogFile
import Verif.Spec.TextGaps

/-
Bytes of the string data that are not looked at.
-/

namespace Verif

open Spec Spec.Log Py

namespace TextGaps

variable {b b' : Bytes}

theorem uAt_same {n s : Nat} (hl : b.length = b'.length) (h : slice b s (s + n) = slice b' s (s + n)) : uAt n b' s = uAt n b s := by
  rcases hu : uAt n b s with _ | v
  · rw [uAt_eq_none_iff] at hu ⊢
    rw [← hl]
    exact hu
  · rw [uAt_eq_some_iff] at hu ⊢
    rw [← hl, ← h]
    exact hu

theorem stringsEnd_gap (flags : Nat) (hl : b.length = b'.length) (fs : List (Nat × Nat)) (pos : Nat)
    (hu : ∀ r ∈ stringsUsed flags b fs pos, slice b r.1 r.2 = slice b' r.1 r.2) :
    stringsEnd flags b' fs pos = stringsEnd flags b fs pos := by
  induction fs generalizing pos with
  | nil => rfl
  | cons f fs ih =>
    obtain ⟨bit, limit⟩ := f
    rw [stringsUsed] at hu
    rw [stringsEnd, stringsEnd]
    cases hbit : flags.testBit bit with
    | false =>
      rw [hbit, if_neg (by simp)] at hu
      simp only [Bool.false_eq_true, if_false]
      exact ih _ hu
    | true =>
      rw [hbit, if_pos rfl] at hu
      simp only [if_true]
      have e := uAt_same (n := 2) hl (hu (pos, pos + 2) List.mem_cons_self)
      rw [e]
      rcases hn : uAt 2 b pos with _ | n
      · rfl
      · rw [hn] at hu
        exact ih _ fun r hr => hu r (List.mem_cons_of_mem _ (List.mem_cons_of_mem _ hr))

theorem text_gap (tp : TextProc) (hl : b.length = b'.length) (u : Bool) {s n : Nat}
    (h : slice b (if u then wideIn b s (s + n) else narrowIn b s (s + n)).1 (if u then wideIn b s (s + n) else narrowIn b s (s + n)).2 =
      slice b' (if u then wideIn b s (s + n) else narrowIn b s (s + n)).1 (if u then wideIn b s (s + n) else narrowIn b s (s + n)).2) :
    StringData.readText tp u ((b'.drop s).take n) = StringData.readText tp u ((b.drop s).take n) := by
  have e : ∀ x : Bytes, (x.drop s).take n = slice x s (s + n) := fun x => by
    unfold slice
    rw [Nat.add_sub_cancel_left]
  rw [e, e]
  unfold StringData.readText
  cases u with
  | true =>
    simp only [if_true] at h ⊢
    exact Gaps.wide_in hl h
  | false =>
    simp only [Bool.false_eq_true, if_false] at h ⊢
    exact Gaps.narrow_in tp hl h

theorem loop_gap {h : LnkHeader} {flags : Nat} (hf : uAt 4 h.raw 20 = some flags) (tp : TextProc) (base : Nat) (hl : b.length = b'.length)
    (fs : List StringField) (ms : List (String × String × Bool)) (hm : StringData.Matches ms fs) (data : List (String × Str)) (start : Nat)
    (hu : ∀ r ∈ stringsUsed flags b (fs.map fun f => (f.bit, f.limit)) (base + start), slice b r.1 r.2 = slice b' r.1 r.2) :
    StringData.loop h tp (b'.drop base) ms data start = StringData.loop h tp (b.drop base) ms data start := by
  induction fs generalizing ms data start with
  | nil =>
    match ms, hm with
    | [], _ => rfl
  | cons f fs ih =>
    match ms, hm with
    | (flag, key, limited) :: ms, hm =>
      rw [List.map_cons, stringsUsed] at hu
      cases hbit : flags.testBit f.bit with
      | false =>
        rw [hbit, if_neg (by simp)] at hu
        rw [StringData.loop_absent hf tp _ hm.1.1 hbit, StringData.loop_absent hf tp _ hm.1.1 hbit]
        exact ih ms hm.2 data start hu
      | true =>
        rw [hbit, if_pos rfl] at hu
        have e := uAt_same (n := 2) hl (hu (base + start, base + start + 2) List.mem_cons_self)
        dsimp only at e
        rcases hn0 : uAt 2 b (base + start) with _ | n
        · have hx := uAt_eq_none_iff.1 hn0
          rw [StringData.loop_short hf tp _ hm.1.1 hbit _ _ _ (by simp only [List.length_drop]; omega),
            StringData.loop_short hf tp _ hm.1.1 hbit _ _ _ (by simp only [List.length_drop]; omega)]
        rw [hn0] at hu e
        dsimp only at hu
        have hn := uAt_lt hn0
        have hacc : StringData.accepted limited n = min n f.limit := by
          rw [hm.1.2.2]
          unfold StringData.accepted
          cases limited <;> simp <;> omega
        have hst : ∀ x : Bytes, uAt 2 x (base + start) = some n → (x.drop base).drop start = le 2 n ++ x.drop (base + start + 2) := by
          intro x hu'
          obtain ⟨h1, h2⟩ := uAt_eq_some_iff.1 hu'
          rw [List.drop_drop, ← List.take_append_drop 2 (x.drop (base + start)), List.drop_drop]
          congr 1
          rw [← h2]
          have := le_leNat (slice x (base + start) (base + start + 2))
          rw [show (slice x (base + start) (base + start + 2)).length = 2 by simp; omega] at this
          rw [this]
          unfold slice
          rw [Nat.add_sub_cancel_left]
        have hread : StringData.read h tp ((b'.drop base).drop start) limited = StringData.read h tp ((b.drop base).drop start) limited := by
          rw [hst _ e, hst _ hn0, StringData.read_eq hf tp n hn, StringData.read_eq hf tp n hn, hacc]
          have hx : StringData.unit (flags.testBit 7) = if flags.testBit 7 then 2 else 1 := rfl
          rw [hx, text_gap tp hl (flags.testBit 7) (n := min n f.limit * if flags.testBit 7 then 2 else 1)
            (hu _ (List.mem_cons_of_mem _ List.mem_cons_self))]
        rw [StringData.loop, StringData.loop, hread]
        refine bind_congr_ok fun r hr => ?_
        match r, hr with
        | .error _, _ => rfl
        | .ok none, hr => exact absurd hr (by
            rw [hasFlag_bit hf hm.1.1, hbit, hst _ hn0, StringData.read_eq hf tp n hn]
            simp only [pure_bind, if_true]
            unfold Py.attempt
            intro hr
            split at hr
            · split at hr <;> cases hr
            · rename_i o ho
              obtain ⟨_, -, ho⟩ := bind_ok_iff.1 ho
              cases ho
              cases hr)
        | .ok (some (text, length)), hr =>
          have : length = 2 + min n f.limit * if flags.testBit 7 then 2 else 1 := by
            rw [hasFlag_bit hf hm.1.1, hbit, hst _ hn0, StringData.read_eq hf tp n hn, hacc] at hr
            simp only [pure_bind, if_true] at hr
            unfold Py.attempt at hr
            split at hr
            · split at hr <;> cases hr
            · rename_i o ho
              obtain ⟨_, ho1, ho⟩ := bind_ok_iff.1 ho
              cases ho
              obtain ⟨_, -, ho1⟩ := bind_ok_iff.1 ho1
              cases ho1
              cases hr
              rfl
          refine ih ms hm.2 _ _ fun r hr => hu r (List.mem_cons_of_mem _ (List.mem_cons_of_mem _ ?_))
          rw [this, ← Nat.add_assoc, ← Nat.add_assoc] at hr
          exact hr

theorem init_gap {h : LnkHeader} {flags : Nat} (hf : uAt 4 h.raw 20 = some flags) (tp : TextProc) (base : Nat) (hl : b.length = b'.length)
    (hu : ∀ r ∈ stringsUsed flags b stringLimits base, slice b r.1 r.2 = slice b' r.1 r.2) :
    StringData.init h tp (b'.drop base) = StringData.init h tp (b.drop base) :=
  loop_gap hf tp base hl (Strings.fields ⟨none, none, none, none, none⟩) StringData.fields (StringData.matches_fields _) [] 0 hu

open Hidden in
/-- The places. -/
theorem layout_texts {L : Layout} (h : Elsewhere b b' L.infoAt L.extraAt) (hl : layout b = some L)
    (hi : infoAnnounced L.flags = true → uAt 4 b L.infoAt = uAt 4 b' L.infoAt ∧ infoLocation b L.infoAt = infoLocation b' L.infoAt)
    (hu : ∀ r ∈ stringsUsed L.flags b stringLimits L.stringsAt, slice b r.1 r.2 = slice b' r.1 r.2) : layout b' = some L := by
  unfold layout at hl
  rcases h0 : uAt 4 b 0 with _ | hs
  · rw [h0] at hl; cases hl
  rw [h0] at hl
  dsimp only at hl
  rcases h1 : uAt 4 (b.take hs) 20 with _ | flags
  · rw [h1] at hl; cases hl
  have h24 := ExtraData.uAt_some_length h1
  rw [List.length_take] at h24
  rw [h1] at hl
  dsimp only at hl
  rcases h2 : (if flags.testBit 0 then (uAt 2 b hs).map fun n => hs + 2 + n else some hs) with _ | infoAt
  · rw [h2] at hl; cases hl
  rw [h2] at hl
  dsimp only at hl
  have hh : hs ≤ infoAt ∧ (flags.testBit 0 = true → hs + 2 ≤ infoAt) := by
    split at h2
    · obtain ⟨n, -, rfl⟩ := Option.map_eq_some_iff.1 h2
      omega
    · rename_i hb
      cases h2
      exact ⟨Nat.le_refl _, fun h => absurd h hb⟩
  generalize hS : (if infoAnnounced flags && (infoLocation b infoAt).isSome then infoAt + (uAt 4 b infoAt).getD 0
    else infoAt) = stringsAt at hl
  cases hl
  dsimp only at h hi hu
  have hS' : (if infoAnnounced flags && (infoLocation b' infoAt).isSome then infoAt + (uAt 4 b' infoAt).getD 0
      else infoAt) = stringsAt := by
    cases ha : infoAnnounced flags with
    | false =>
      rw [ha] at hS
      simpa using hS
    | true =>
      obtain ⟨i1, i2⟩ := hi ha
      rw [ha, i1, i2] at hS
      exact hS
  have e3 : (if flags.testBit 0 then (uAt 2 b' hs).map fun n => hs + 2 + n else some hs) = some infoAt := by
    rw [← h2]
    split
    · rename_i hb
      rw [h.uAt (.inl (by have := hh.2 hb; omega))]
    · rfl
  unfold layout
  rw [← h.uAt (n := 4) (s := 0) (.inl (by omega)), h0]
  dsimp only
  rw [← h.take hh.1, h1]
  dsimp only
  rw [e3]
  dsimp only
  rw [hS', stringsEnd_gap flags h.length _ _ hu]

open Hidden in
theorem process_texts (env : Env) (cp : Option String) (ht : Tame (TextProc.mk' env cp)) (allow : Bool) {L : Layout}
    (h : Elsewhere b b' L.infoAt L.extraAt) (hl : layout b = some L)
    (hi : infoAnnounced L.flags = true → uAt 4 b L.infoAt = uAt 4 b' L.infoAt ∧ uAt 4 b (L.infoAt + 8) = uAt 4 b' (L.infoAt + 8))
    (hu : ∀ r ∈ stringsUsed L.flags b stringLimits L.stringsAt, slice b r.1 r.2 = slice b' r.1 r.2) :
    LnkFile.process env cp allow b' = (do
      let f ← LnkFile.process env cp allow b
      pure (replaced env cp b' L f)) := by
  have hl' := layout_texts h hl (fun ha => ⟨(hi ha).1, by unfold infoLocation; rw [(hi ha).2]⟩) hu
  obtain ⟨o1, o2⟩ := layout_order hl
  obtain ⟨-, -, hfl, hex, hp⟩ := LnkFile.process_rest env cp allow b L hl
  obtain ⟨-, -, -, -, hp'⟩ := LnkFile.process_rest env cp allow b' L hl'
  have hw : (infoAnnounced L.flags = true ∧ uAt 4 b' (L.infoAt + 8) = none) ↔ (infoAnnounced L.flags = true ∧ uAt 4 b (L.infoAt + 8) = none) :=
    and_congr_right fun ha => by rw [(hi ha).2]
  rw [hp, hp']
  simp only [bind_assoc, hw]
  congr 1; funext _
  congr 1; funext _
  congr 1; funext _
  unfold LnkFile.rest
  simp only [bind_assoc, pure_bind]
  rw [← h.take (n := L.headerSize) (by omega), init_gap hfl _ _ h.length hu]
  refine bind_congr_ok fun sd hsd => ?_
  have hz := ((StringData.init_logs hfl ht b L.stringsAt).2 sd hsd).1
  rw [← h.drop (n := L.stringsAt + sd.size) (by omega)]
  congr 1; funext ex
  congr 1; funext n
  rw [← h.drop (n := L.stringsAt + sd.size + n) (by omega)]
  rfl

end TextGaps

end Verif
