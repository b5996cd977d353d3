import Verif.Lemmas.Values
import Verif.Lemmas.Layout

namespace Verif

open Spec Py

namespace Values

open StringData

theorem readText_either {tp : TextProc} {u : Bool} {b : Bytes} {s : Str} (h : (readText tp u b).res = .ok s) :
    Either tp u b (.str s) := by
  unfold readText at h
  unfold Either
  cases u
  · exact narrow h
  · exact wide h

theorem loop_values {h : LnkHeader} {flags : Nat} (hf : uAt 4 h.raw 20 = some flags) {tp : TextProc}
    (hr : Readable tp (flags.testBit 7)) (b : Bytes) (base : Nat) (fs : List StringField) (ms : List (String × String × Bool))
    (hm : Matches ms fs) (data : List (String × Str)) (start : Nat) :
    ∃ sd w, loop h tp (b.drop base) ms data start = ⟨w, .ok sd⟩ ∧
      ∃ more, sd.data = data ++ more ∧ Fits (more.map fun kv => (kv.1, .str kv.2))
        (stringEntries tp flags b (fs.map fun f => (f.key, f.bit, f.limit)) (base + start)) := by
  induction fs generalizing ms data start with
  | nil =>
    match ms, hm with
    | [], _ => exact ⟨_, [], rfl, [], by simp, trivial⟩
  | cons f fs ih =>
    match ms, hm with
    | (flag, key, limited) :: ms, hm =>
      rw [List.map_cons, stringEntries]
      cases hb : flags.testBit f.bit with
      | false =>
        rw [loop_absent hf tp _ hm.1.1 hb]
        obtain ⟨sd, w, h1, more, h3, h4⟩ := ih ms hm.2 data start
        exact ⟨sd, w, h1, more, h3, by simpa using h4⟩
      | true =>
        rw [if_pos rfl]
        by_cases hs : ((b.drop base).drop start).length < 2
        · rw [loop_short hf tp _ hm.1.1 hb _ _ _ hs]
          have hu : uAt 2 b (base + start) = none := by
            rw [uAt_eq_none_iff]; simp at hs; omega
          rw [hu]
          exact ⟨_, _, rfl, [], by simp, trivial⟩
        · obtain ⟨c, hcc⟩ := le2_surj (b := ((b.drop base).drop start).take 2) (by simp at hs ⊢; omega)
          have hd : (b.drop base).drop start = le 2 c.toNat ++ ((b.drop base).drop start).drop 2 := by
            rw [hcc, List.take_append_drop]
          have hu : uAt 2 b (base + start) = some c.toNat := by
            have h0 : b = b.take (base + start) ++ le 2 c.toNat ++ ((b.drop base).drop start).drop 2 := by
              rw [List.append_assoc, ← hd, List.drop_drop, List.take_append_drop]
            have h1 := uAt_le (n := 2) (v := c.toNat) c.toNat_lt (b.take (base + start)) (((b.drop base).drop start).drop 2)
            rw [← List.append_assoc, ← h0] at h1
            rwa [List.length_take, Nat.min_eq_left (by simp at hs; omega)] at h1
          rw [hu]
          obtain ⟨t, w, ht⟩ := hr ((((b.drop base).drop start).drop 2).take (accepted limited c.toNat * unit (flags.testBit 7)))
          rw [loop_present hf tp _ hm.1.1 hb ms data start c.toNat_lt hd ht]
          obtain ⟨sd, w', h1, more, h3, h4⟩ := ih ms hm.2 (data ++ [(key, t)])
            (start + (2 + accepted limited c.toNat * unit (flags.testBit 7)))
          rw [h1]
          refine ⟨sd, _, rfl, (key, t) :: more, by rw [h3]; simp, ?_⟩
          have ha : accepted limited c.toNat = min c.toNat f.limit := by
            have := c.toNat_lt
            unfold accepted
            rw [hm.1.2.2]
            cases limited <;> simp <;> (try split) <;> omega
          have hu : ∀ u, unit u = if u then 2 else 1 := fun _ => rfl
          refine ⟨hm.1.2.1.symm, ?_, ?_⟩
          · have e : between b (base + start + 2) (base + start + 2 + min c.toNat f.limit * if flags.testBit 7 then 2 else 1) =
              (((b.drop base).drop start).drop 2).take (accepted limited c.toNat * unit (flags.testBit 7)) := by
              unfold between
              rw [List.drop_drop, List.drop_drop, ha, hu]
              congr 1
              omega
            show Either _ _ (between b _ _) _
            rw [e]
            exact readText_either (by rw [ht])
          · rw [ha, hu, ← Nat.add_assoc, ← Nat.add_assoc] at h4
            exact h4

/-- The strings of a report. -/
theorem strings_values {h : LnkHeader} {flags : Nat} (hf : uAt 4 h.raw 20 = some flags) {tp : TextProc}
    (hr : Readable tp (flags.testBit 7)) {b : Bytes} {base : Nat} {sd : StringData}
    (hi : (StringData.init h tp (b.drop base)).res = .ok sd) :
    Fits sd.asDict (stringEntries tp flags b stringKeys base) := by
  obtain ⟨sd', w, h1, more, h2, h3⟩ :=
    loop_values hf hr b base (Strings.fields ⟨none, none, none, none, none⟩) fields (matches_fields _) [] 0
  unfold StringData.init at hi
  rw [h1] at hi
  obtain rfl := Except.ok.inj hi
  unfold StringData.asDict
  rw [h2]
  exact h3

end Values

end Verif
