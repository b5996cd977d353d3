import Verif.Props.File

/-
Each section of a file is read from its own bytes.
-/

namespace Verif

open Spec

namespace LnkHeader

/-- Two headers with the same flags give the same answer to every question about flags. -/
theorem hasFlag_congr {h h' : LnkHeader} {flags : Nat} (hf : uAt 4 h.raw 20 = some flags)
    (hf' : uAt 4 h'.raw 20 = some flags) (name : String) : h.hasFlag name = h'.hasFlag name := by
  have key : ∀ g : LnkHeader, uAt 4 g.raw 20 = some flags → g.linkFlags = pure (setBitNames linkFlagNames flags) := by
    intro g hg
    have h1 := unpackU_slice g.raw 4 20 (by omega)
    rw [hg] at h1
    refine (Props.link_flags_of_raw g).1 flags ?_
    show (unpackU 4 _).res = _
    rw [h1]
    rfl
  unfold hasFlag
  rw [key h hf, key h' hf']

end LnkHeader

namespace StringData

theorem read_congr {h h' : LnkHeader} (hh : ∀ name, h.hasFlag name = h'.hasFlag name) (tp : TextProc) (b : Bytes)
    (l : Bool) : read h tp b l = read h' tp b l := by
  unfold read
  simp only [hh]

theorem loop_congr {h h' : LnkHeader} (hh : ∀ name, h.hasFlag name = h'.hasFlag name) (tp : TextProc) (raw : Bytes)
    (ms : List (String × String × Bool)) (data : List (String × Str)) (start : Nat) :
    loop h tp raw ms data start = loop h' tp raw ms data start := by
  induction ms generalizing data start with
  | nil => rfl
  | cons m ms ih =>
    obtain ⟨flag, key, limit⟩ := m
    rw [loop, loop]
    simp only [hh, read_congr hh, ih]

/-- The strings are read from the bytes they consume. -/
theorem loop_take {h : LnkHeader} {flags : Nat} (hf : uAt 4 h.raw 20 = some flags) {tp : TextProc}
    (hr : Readable tp (flags.testBit 7)) (r : Bytes) (fs : List StringField) (ms : List (String × String × Bool))
    (hm : Matches ms fs) (data : List (String × Str)) (start : Nat) :
    ∃ sd w, loop h tp r ms data start = ⟨w, .ok sd⟩ ∧ start ≤ sd.size ∧
      ∀ e, sd.size ≤ e → loop h tp (r.take e) ms data start = ⟨w, .ok sd⟩ := by
  induction fs generalizing ms data start with
  | nil =>
    match ms, hm with
    | [], _ => exact ⟨_, [], rfl, Nat.le_refl _, fun _ _ => rfl⟩
  | cons f fs ih =>
    match ms, hm with
    | (flag, key, limited) :: ms, hm =>
      cases hb : flags.testBit f.bit with
      | false =>
        obtain ⟨sd, w, h1, h2, h3⟩ := ih ms hm.2 data start
        refine ⟨sd, w, ?_, h2, fun e he => ?_⟩
        · rw [loop_absent hf tp _ hm.1.1 hb, h1]
        · rw [loop_absent hf tp _ hm.1.1 hb, h3 e he]
      | true =>
        by_cases hs : (r.drop start).length < 2
        · refine ⟨⟨data, start⟩, [.stringData], loop_short hf tp _ hm.1.1 hb _ _ _ hs, Nat.le_refl _, fun e he => ?_⟩
          refine loop_short hf tp _ hm.1.1 hb _ _ _ ?_
          simp only [List.length_drop, List.length_take] at hs ⊢
          omega
        · obtain ⟨c, hcc⟩ := le2_surj (b := (r.drop start).take 2) (by simp at hs ⊢; omega)
          have hd : r.drop start = le 2 c.toNat ++ (r.drop start).drop 2 := by
            rw [hcc, List.take_append_drop]
          obtain ⟨t, w, ht⟩ := hr (((r.drop start).drop 2).take (accepted limited c.toNat * unit (flags.testBit 7)))
          obtain ⟨sd, w', h1, h2, h3⟩ := ih ms hm.2 (data ++ [(key, t)])
            (start + (2 + accepted limited c.toNat * unit (flags.testBit 7)))
          refine ⟨sd, w ++ w', ?_, by omega, fun e he => ?_⟩
          · rw [loop_present hf tp _ hm.1.1 hb ms data start c.toNat_lt hd ht, h1]
          · have hd' : (r.take e).drop start = le 2 c.toNat ++ ((r.take e).drop start).drop 2 := by
              have : ((r.take e).drop start).take 2 = (r.drop start).take 2 := by
                rw [List.drop_take, List.take_take, Nat.min_eq_left (by omega)]
              rw [hcc, ← this, List.take_append_drop]
            have ht' : readText tp (flags.testBit 7) ((((r.take e).drop start).drop 2).take
                (accepted limited c.toNat * unit (flags.testBit 7))) = ⟨w, .ok t⟩ := by
              rw [← ht]
              congr 1
              rw [List.drop_take, List.drop_take, List.take_take, Nat.min_eq_left (by omega)]
            rw [loop_present hf tp _ hm.1.1 hb ms data start c.toNat_lt hd' ht', h3 e he]

theorem init_take {h : LnkHeader} {flags : Nat} (hf : uAt 4 h.raw 20 = some flags) {tp : TextProc}
    (hr : Readable tp (flags.testBit 7)) (r : Bytes) {sd : StringData} (hs : (init h tp r).res = .ok sd) :
    (init h tp (r.take sd.size)).res = .ok sd := by
  obtain ⟨sd', w, h1, -, h3⟩ := loop_take hf hr r (Strings.fields ⟨none, none, none, none, none⟩) fields
    (matches_fields _) [] 0
  unfold init at hs ⊢
  rw [h1] at hs
  cases hs
  rw [h3 _ (Nat.le_refl _)]

end StringData

end Verif
