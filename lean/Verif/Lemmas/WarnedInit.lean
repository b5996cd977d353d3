import Verif.Lemmas.WarnedFile

/-
Which warnings the constructor issues.
-/

namespace Verif

open Spec Py

namespace StringData

theorem readText_warns {tp : TextProc} {u : Bool} {b : Bytes} {s : Str} {w : List Warn} (h : readText tp u b = ⟨w, .ok s⟩) :
    ∀ x ∈ w, ∃ t, x = .decode t := by
  have : Warned (fun x => ∃ t, x = .decode t) (readText tp u b) := by
    unfold readText
    split
    · exact warned_readUnicodeString (fun s => ⟨s, rfl⟩) b
    · exact warned_readString (fun s => ⟨s, rfl⟩) tp b
  rw [h] at this
  exact this.out

theorem loop_warns {h : LnkHeader} {flags : Nat} (hf : uAt 4 h.raw 20 = some flags) {tp : TextProc}
    (hr : Readable tp (flags.testBit 7)) (b : Bytes) (base : Nat) (fs : List StringField) (ms : List (String × String × Bool))
    (hm : Matches ms fs) (data : List (String × Str)) (start : Nat) :
    ∃ D, (loop h tp (b.drop base) ms data start).warns =
        D ++ (if stringsCut flags b (fs.map fun f => (f.bit, f.limit)) (base + start) then [.stringData] else []) ∧
      ∀ x ∈ D, ∃ t, x = .decode t := by
  induction fs generalizing ms data start with
  | nil =>
    match ms, hm with
    | [], _ => exact ⟨[], rfl, by simp⟩
  | cons f fs ih =>
    match ms, hm with
    | (flag, key, limited) :: ms, hm =>
      rw [List.map_cons, stringsCut]
      cases hb : flags.testBit f.bit with
      | false =>
        rw [loop_absent hf tp _ hm.1.1 hb]
        simpa using ih ms hm.2 data start
      | true =>
        rw [if_pos rfl]
        by_cases hs : ((b.drop base).drop start).length < 2
        · rw [loop_short hf tp _ hm.1.1 hb _ _ _ hs]
          have hu : uAt 2 b (base + start) = none := by
            rw [uAt_eq_none_iff]; simp at hs; omega
          rw [hu]
          exact ⟨[], rfl, by simp⟩
        · obtain ⟨c, hcc⟩ := le2_surj (b := ((b.drop base).drop start).take 2) (by simp at hs ⊢; omega)
          have hd : (b.drop base).drop start = le 2 c.toNat ++ ((b.drop base).drop start).drop 2 := by
            rw [hcc, List.take_append_drop]
          have hu : uAt 2 b (base + start) = some c.toNat := by
            have h0 : b = b.take (base + start) ++ le 2 c.toNat ++ ((b.drop base).drop start).drop 2 := by
              rw [List.append_assoc, ← hd, List.drop_drop, List.take_append_drop]
            have h1 := uAt_le (n := 2) (v := c.toNat) c.toNat_lt (b.take (base + start)) (((b.drop base).drop start).drop 2)
            rw [← List.append_assoc, ← h0] at h1
            rwa [List.length_take, Nat.min_eq_left (by simp at hs; omega)] at h1
          rw [hu]
          obtain ⟨t, w, ht⟩ := hr ((((b.drop base).drop start).drop 2).take (accepted limited c.toNat * unit (flags.testBit 7)))
          rw [loop_present hf tp _ hm.1.1 hb ms data start c.toNat_lt hd ht]
          obtain ⟨D, h1, h2⟩ := ih ms hm.2 (data ++ [(key, t)]) (start + (2 + accepted limited c.toNat * unit (flags.testBit 7)))
          have hpos : base + (start + (2 + accepted limited c.toNat * unit (flags.testBit 7))) =
              base + start + 2 + min c.toNat f.limit * if flags.testBit 7 = true then 2 else 1 := by
            have : accepted limited c.toNat = min c.toNat f.limit := by
              have := c.toNat_lt
              unfold accepted
              rw [hm.1.2.2]
              cases limited <;> simp <;> (try split) <;> omega
            rw [this]
            simp only [unit, Nat.add_assoc]
          dsimp only
          rw [h1, ← List.append_assoc]
          refine ⟨w ++ D, ?_, fun x hx => ?_⟩
          · rw [hpos]
          · rcases List.mem_append.1 hx with hx | hx
            · exact readText_warns ht x hx
            · exact h2 x hx

theorem init_warns {h : LnkHeader} {flags : Nat} (hf : uAt 4 h.raw 20 = some flags) {tp : TextProc}
    (hr : Readable tp (flags.testBit 7)) (b : Bytes) (base : Nat) :
    ∃ D, (init h tp (b.drop base)).warns = D ++ (if stringsCut flags b stringLimits base then [.stringData] else []) ∧
      ∀ x ∈ D, ∃ t, x = .decode t :=
  loop_warns hf hr b base (Strings.fields ⟨none, none, none, none, none⟩) fields (matches_fields _) [] 0

end StringData

namespace LnkHeader

/-- The warnings about the size of the header. -/
theorem size_warns {h : LnkHeader} {n : Nat} (hn : uAt 4 h.raw 0 = some n) :
    h.size.warns = if n = 76 then [] else [.mustBe "size" (.int 76) (.int n)] := by
  unfold size
  have := unpackU_slice h.raw 4 0 (by omega)
  rw [Nat.zero_add, hn] at this
  rw [this]
  by_cases h76 : n = 76
  · subst h76
    rfl
  · rw [if_neg h76]
    unfold mustBe
    rw [pure_bind, if_pos (by simpa using h76)]
    rfl

theorem init_warns {b : Bytes} {n : Nat} (hn : uAt 4 b 0 = some n) :
    (init b).warns = if n = 76 then [] else [.mustBe "size" (.int 76) (.int n)] := by
  have hb : b ≠ [] := by
    rintro rfl
    simp [uAt] at hn
  unfold init
  have h1 : (size ⟨b⟩).res = .ok n := by rw [size_uAt]; simp only [hn]
  rw [if_neg hb, bind_warns, h1]
  dsimp only
  rw [size_warns (h := ⟨b⟩) hn]
  simp

end LnkHeader

namespace LnkFile

theorem processInfo_warns (tp : TextProc) (data : Bytes) (h : LnkHeader) (index flags : Nat) (hf : uAt 4 h.raw 20 = some flags) :
    (processInfo tp data h index).warns = if infoAnnounced flags = true ∧ uAt 4 data (index + 8) = none then [.infoClass] else [] := by
  rw [Props.info_processed tp data h index flags hf, uAt_drop 4 _ _ _ (by omega), uAt_drop 4 _ _ _ (by omega), Nat.add_zero]
  unfold infoAnnounced
  cases flags.testBit 1 && !flags.testBit 8 with
  | false => rfl
  | true =>
    simp only [if_true, true_and]
    rcases h8 : uAt 4 data (index + 8) with _ | f
    · rfl
    · have : ∃ n, uAt 4 data index = some n := by
        have := ExtraData.uAt_some_length h8
        unfold uAt
        rw [if_pos (by omega)]
        exact ⟨_, rfl⟩
      obtain ⟨n, hn⟩ := this
      rw [Nat.add_zero, hn]
      simp only [reduceCtorEq, if_false]
      split
      · rfl
      · split <;> rfl

/-- The warnings of the constructor. -/
theorem process_warns (env : Env) (cp : Option String) (hcp : UsableCodePage (TextProc.mk' env cp)) (allow : Bool)
    (b : Bytes) (L : Layout) (hl : layout b = some L) (l : List Piece) (last : Bytes) (hc : Cut (b.drop L.extraAt) l last) :
    ∃ D, (∀ x ∈ D, ∃ t, x = .decode t) ∧ (process env cp allow b).warns =
      (if L.headerSize = 76 then [] else List.replicate 2 (.mustBe "size" (.int 76) (.int L.headerSize))) ++
      (if infoAnnounced L.flags = true ∧ uAt 4 b (L.infoAt + 8) = none then [.infoClass] else []) ++ D ++
      (if stringsCut L.flags b stringLimits L.stringsAt then [.stringData] else []) ++
      List.replicate (l.filter fun p => p.signature.isNone).length .extraSignature ++
      (if 0 < last.length ∧ last.length < 4 then [.extraSize] else []) := by
  unfold layout at hl
  rcases h0 : uAt 4 b 0 with _ | hs
  · simp [h0] at hl
  simp only [h0] at hl
  rcases h2 : uAt 4 (b.take hs) 20 with _ | flags
  · simp [h2] at hl
  simp only [h2] at hl
  have hb : b ≠ [] := by
    intro hb
    subst hb
    simp [uAt] at h0
  have h1 : uAt 4 (b.take hs) 0 = some hs := by
    have := ExtraData.uAt_some_length h2
    rw [ExtraData.uAt_take 4 b 0 hs (by omega) (by simp at this; omega), h0]
  generalize hX : (if flags.testBit 0 then (uAt 2 b hs).map fun n => hs + 2 + n else some hs) = X at hl
  rcases X with _ | infoAt
  · simp at hl
  simp only [Option.some.injEq] at hl
  have ht : processTargets (TextProc.mk' env cp) b ⟨b.take hs⟩ hs = pure (if flags.testBit 0 then
      some ⟨TextProc.mk' env cp, b.drop hs, slice b (hs + 2) infoAt⟩ else none, infoAt) := by
    rw [processTargets_uAt _ _ _ _ flags h2]
    cases hb0 : flags.testBit 0 with
    | false =>
      rw [hb0] at hX
      simp only [Bool.false_eq_true, if_false, Option.some.injEq] at hX ⊢
      rw [hX]
    | true =>
      rw [hb0] at hX
      simp only [if_true] at hX ⊢
      rcases h3 : uAt 2 b hs with _ | n
      · simp [h3] at hX
      · rw [h3] at hX
        simp only [Option.map_some, Option.some.injEq] at hX ⊢
        rw [hX]
  have hi := processInfo_uAt (TextProc.mk' env cp) b ⟨b.take hs⟩ infoAt flags h2
  have hiw := processInfo_warns (TextProc.mk' env cp) b ⟨b.take hs⟩ infoAt flags h2
  generalize hS : (if infoAnnounced flags && (infoLocation b infoAt).isSome then infoAt + (uAt 4 b infoAt).getD 0
    else infoAt) = stringsAt at hl hi
  have hrd := StringData.readable_of_usable hcp (flags.testBit 7)
  obtain ⟨sd, w, hs1, hs2, hs3⟩ := StringData.init_end (h := ⟨b.take hs⟩) h2 hrd b stringsAt
  obtain ⟨D, hD1, hD2⟩ := StringData.init_warns (h := ⟨b.take hs⟩) h2 hrd b stringsAt
  subst hl
  simp only at hc ⊢
  have he := ExtraData.init_cut (tp := TextProc.mk' env cp) (allow := allow) hc
  have hz := ExtraData.size_cut (tp := TextProc.mk' env cp) (allow := allow) hc
  rw [← hs2] at he
  refine ⟨D, hD2, ?_⟩
  have hcw : ExtraData.cutWarns l last = List.replicate (l.filter fun p => p.signature.isNone).length .extraSignature ++
      (if 0 < last.length ∧ last.length < 4 then [.extraSize] else []) := by
    unfold ExtraData.cutWarns
    congr 1
    · clear hc he hz
      induction l with
      | nil => rfl
      | cons p l ih =>
        rw [List.filterMap_cons]
        rcases hp : p.signature with _ | s
        · rw [List.filter_cons_of_pos (by simp [hp]), List.length_cons, List.replicate_succ, ← ih]
          rfl
        · rw [List.filter_cons_of_neg (by simp [hp]), ← ih]
          rfl
    · have h4 : (last ≠ [] ∧ uAt 4 last 0 = none) ↔ (0 < last.length ∧ last.length < 4) := by
        rw [uAt_eq_none_iff, ne_eq, ← List.length_eq_zero_iff]
        omega
      by_cases h : 0 < last.length ∧ last.length < 4
      · rw [if_pos h, if_pos (h4.2 h)]
      · rw [if_neg h, if_neg fun h' => h (h4.1 h')]
  have hzw : (ExtraData.size ⟨ExtraData.objects (TextProc.mk' env cp) l ++
      if allow = true ∧ 4 < last.length then [⟨.terminal, TextProc.mk' env cp, last⟩] else []⟩).warns = [] := by
    rw [hz]
    split <;> rfl
  have hend : ∀ {x : Py Nat} {g : Nat → LnkFile}, x.warns = [] → (x >>= fun n => pure (g n)).warns = [] := by
    intro x g hx
    rw [bind_warns, hx]
    split <;> rfl
  have hh : (LnkHeader.init b).res = .ok ⟨b.take hs⟩ := by rw [LnkHeader.init_uAt b hb, h0]
  have hh2 : (LnkHeader.size ⟨b.take hs⟩).res = .ok hs := by rw [LnkHeader.size_uAt]; simp only [h1]
  unfold process
  rw [bind_warns, hh]
  dsimp only
  rw [bind_warns, hh2]
  dsimp only
  rw [bind_warns, ht]
  simp only [Py.pure_res]
  rw [bind_warns, hi]
  dsimp only
  rw [bind_warns, hs1]
  dsimp only
  rw [bind_warns, he]
  dsimp only
  have hw : w = (StringData.init ⟨b.take hs⟩ (TextProc.mk' env cp) (b.drop stringsAt)).warns := by rw [hs1]
  rw [hw, hD1, hiw, LnkHeader.init_warns h0, LnkHeader.size_warns (h := ⟨b.take hs⟩) h1, hcw, hend hzw]
  have hh3 : (if hs = 76 then [] else [Warn.mustBe "size" (.int 76) (.int hs)]) ++ (if hs = 76 then [] else [.mustBe "size" (.int 76) (.int hs)])
      = if hs = 76 then [] else List.replicate 2 (.mustBe "size" (.int 76) (.int hs)) := by
    split <;> rfl
  rw [← hh3]
  simp only [List.append_assoc, List.nil_append, List.append_nil, Py.pure_warns]

end LnkFile

end Verif
