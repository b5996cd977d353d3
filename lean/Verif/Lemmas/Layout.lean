import Verif.Spec.Layout
import Verif.Lemmas.Process
import Verif.Lemmas.ExtraReport
import Verif.Props.StringData
import Verif.Props.Info

namespace Verif

open Spec

theorem uAt_drop (n : Nat) (b : Bytes) (i k : Nat) (hn : 0 < n) : uAt n (b.drop i) k = uAt n b (i + k) := by
  have h1 := unpackU_slice (b.drop i) n k hn
  have h2 := unpackU_slice b n (i + k) hn
  rw [slice_drop, ← Nat.add_assoc, h2] at h1
  rcases ha : uAt n b (i + k) with _ | x <;> rcases hb : uAt n (b.drop i) k with _ | y <;> rw [ha, hb] at h1
  · simpa using congrArg Py.res h1
  · simpa using congrArg Py.res h1
  · simpa using (congrArg Py.res h1).symm

namespace LnkHeader

theorem size_uAt (h : LnkHeader) : h.size.res = match uAt 4 h.raw 0 with
    | some n => .ok n
    | none => .error .structError := by
  unfold size
  have := unpackU_slice h.raw 4 0 (by omega)
  rw [Nat.zero_add] at this
  rw [this]
  rcases uAt 4 h.raw 0 with _ | n
  · rfl
  · simp only [mustBe]
    rw [Py.bind_res]
    simp only [Py.pure_res]
    split
    · rfl
    · rfl

theorem init_uAt (b : Bytes) (hb : b ≠ []) : (init b).res = match uAt 4 b 0 with
    | some n => .ok ⟨b.take n⟩
    | none => .error .structError := by
  unfold init
  rw [if_neg hb, Py.bind_res, size_uAt]
  rcases uAt 4 b 0 <;> rfl

end LnkHeader

namespace StringData

/-- Any string can be read. -/
def Readable (tp : TextProc) (unicode : Bool) : Prop := ∀ b, ∃ s w, readText tp unicode b = ⟨w, .ok s⟩

theorem readable_of_usable {tp : TextProc} (h : UsableCodePage tp) (u : Bool) : Readable tp u := by
  intro b
  unfold readText
  cases u with
  | true =>
    obtain ⟨s, w, h⟩ := Py.only_false_iff.1 (only_readUnicodeString (P := fun _ => False) b)
    exact ⟨s, w, by simpa using h⟩
  | false =>
    obtain ⟨s, w, h⟩ := Py.only_false_iff.1 (only_readString (P := fun _ => False) (fun b => only_ansiToStr h b) b)
    exact ⟨s, w, by simpa using h⟩

theorem loop_end {h : LnkHeader} {flags : Nat} (hf : uAt 4 h.raw 20 = some flags) {tp : TextProc}
    (hr : Readable tp (flags.testBit 7)) (b : Bytes) (base : Nat) (fs : List StringField) (ms : List (String × String × Bool))
    (hm : Matches ms fs) (data : List (String × Str)) (start : Nat) :
    ∃ sd w, loop h tp (b.drop base) ms data start = ⟨w, .ok sd⟩ ∧
      base + sd.size = stringsEnd flags b (fs.map fun f => (f.bit, f.limit)) (base + start) ∧
      ∃ more, sd.data = data ++ more ∧ (more.map Prod.fst).Sublist (fs.map StringField.key) := by
  induction fs generalizing ms data start with
  | nil =>
    match ms, hm with
    | [], _ => exact ⟨_, [], rfl, rfl, [], by simp, by simp⟩
  | cons f fs ih =>
    match ms, hm with
    | (flag, key, limited) :: ms, hm =>
      rw [List.map_cons, List.map_cons, stringsEnd]
      cases hb : flags.testBit f.bit with
      | false =>
        rw [loop_absent hf tp _ hm.1.1 hb]
        obtain ⟨sd, w, h1, h2, more, h3, h4⟩ := ih ms hm.2 data start
        exact ⟨sd, w, h1, by simpa using h2, more, h3, h4.cons _⟩
      | true =>
        rw [if_pos rfl]
        by_cases hs : ((b.drop base).drop start).length < 2
        · rw [loop_short hf tp _ hm.1.1 hb _ _ _ hs]
          have hu : uAt 2 b (base + start) = none := by
            rw [uAt_eq_none_iff]; simp at hs; omega
          rw [hu]
          exact ⟨_, _, rfl, rfl, [], by simp, by simp⟩
        · obtain ⟨c, hcc⟩ := le2_surj (b := ((b.drop base).drop start).take 2) (by simp at hs ⊢; omega)
          have hd : (b.drop base).drop start = le 2 c.toNat ++ ((b.drop base).drop start).drop 2 := by
            rw [hcc, List.take_append_drop]
          have hu : uAt 2 b (base + start) = some c.toNat := by
            have h0 : b = b.take (base + start) ++ le 2 c.toNat ++ ((b.drop base).drop start).drop 2 := by
              rw [List.append_assoc, ← hd, List.drop_drop, List.take_append_drop]
            have h1 := uAt_le (n := 2) (v := c.toNat) c.toNat_lt (b.take (base + start)) (((b.drop base).drop start).drop 2)
            rw [← List.append_assoc, ← h0] at h1
            rwa [List.length_take, Nat.min_eq_left (by simp at hs; omega)] at h1
          rw [hu]
          obtain ⟨t, w, ht⟩ := hr ((((b.drop base).drop start).drop 2).take (accepted limited c.toNat * unit (flags.testBit 7)))
          rw [loop_present hf tp _ hm.1.1 hb ms data start c.toNat_lt hd ht]
          obtain ⟨sd, w', h1, h2, more, h3, h4⟩ := ih ms hm.2 (data ++ [(key, t)])
            (start + (2 + accepted limited c.toNat * unit (flags.testBit 7)))
          rw [h1]
          refine ⟨sd, _, rfl, ?_, (key, t) :: more, by rw [h3]; simp, ?_⟩
          · rw [h2]
            have : accepted limited c.toNat = min c.toNat f.limit := by
              have := c.toNat_lt
              unfold accepted
              rw [hm.1.2.2]
              cases limited <;> simp <;> (try split) <;> omega
            rw [this]
            simp only [unit, Nat.add_assoc]
          · rw [List.map_cons, hm.1.2.1]
            exact h4.cons_cons _

theorem init_end {h : LnkHeader} {flags : Nat} (hf : uAt 4 h.raw 20 = some flags) {tp : TextProc}
    (hr : Readable tp (flags.testBit 7)) (b : Bytes) (base : Nat) :
    ∃ sd w, init h tp (b.drop base) = ⟨w, .ok sd⟩ ∧ base + sd.size = stringsEnd flags b stringLimits base ∧
      (sd.data.map Prod.fst).Sublist
        ["description", "relative_path", "working_directory", "command_line_arguments", "icon_location"] := by
  obtain ⟨sd, w, h1, h2, more, h3, h4⟩ :=
    loop_end hf hr b base (Strings.fields ⟨none, none, none, none, none⟩) fields (matches_fields _) [] 0
  exact ⟨sd, w, h1, h2, by rw [h3]; exact h4⟩

end StringData

namespace LnkFile

/-- The class of a LinkInfo. -/
def classOf (location : String) : InfoClass := if location = "Local" then .local else .network

theorem processTargets_uAt (tp : TextProc) (data : Bytes) (h : LnkHeader) (index flags : Nat)
    (hf : uAt 4 h.raw 20 = some flags) :
    processTargets tp data h index =
      if flags.testBit 0 then
        match uAt 2 data index with
        | none => Py.raise .structError
        | some n => pure (some ⟨tp, data.drop index, slice data (index + 2) (index + 2 + n)⟩, index + 2 + n)
      else pure (none, index) := by
  unfold processTargets
  rw [hasFlag_bit hf (i := 0) rfl, pure_bind]
  cases flags.testBit 0 with
  | false => rfl
  | true =>
    simp only [if_true]
    have h1 := unpackU_slice (data.drop index) 2 0 (by omega)
    rw [Nat.zero_add, uAt_drop 2 data index 0 (by omega), Nat.add_zero] at h1
    unfold LnkTargets.init LnkTargets.size LnkTargets.idListSize LnkTargets.idListSizeOf
    rw [h1]
    rcases hu : uAt 2 data index with _ | n
    · rfl
    · simp only [pure_bind, h1, hu]
      rw [slice_drop]
      simp only [Nat.add_comm, Nat.add_left_comm]

theorem processInfo_uAt (tp : TextProc) (data : Bytes) (h : LnkHeader) (index flags : Nat)
    (hf : uAt 4 h.raw 20 = some flags) :
    (processInfo tp data h index).res =
      .ok (if infoAnnounced flags then (infoLocation data index).map fun c => (classOf c, ⟨tp, data.drop index⟩) else none,
        if infoAnnounced flags && (infoLocation data index).isSome then index + (uAt 4 data index).getD 0 else index) := by
  rw [Props.info_processed tp data h index flags hf, uAt_drop 4 _ _ _ (by omega), uAt_drop 4 _ _ _ (by omega), Nat.add_zero]
  unfold infoAnnounced infoLocation
  cases flags.testBit 1 && !flags.testBit 8 with
  | false => rfl
  | true =>
    simp only [if_true, Bool.true_and]
    rcases h8 : uAt 4 data (index + 8) with _ | f
    · rfl
    · have : ∃ n, uAt 4 data index = some n := by
        have := ExtraData.uAt_some_length h8
        unfold uAt
        rw [if_pos (by omega)]
        exact ⟨_, rfl⟩
      obtain ⟨n, hn⟩ := this
      rw [Nat.add_zero, hn]
      simp only
      by_cases b0 : f.testBit 0 = true <;> by_cases b1 : f.testBit 1 = true <;> simp [b0, b1, classOf]

/-- The parts of a constructed object. -/
structure Parts (env : Env) (cp : Option String) (allow : Bool) (b : Bytes) (L : Layout) (l : List Piece) (last : Bytes)
    (f : LnkFile) : Prop where
  indata : f.indata = b
  header : f.header = ⟨b.take L.headerSize⟩
  targetIndex : f.targetIndex = L.headerSize + 2
  targets : f.targets = if L.flags.testBit 0 then
    some ⟨TextProc.mk' env cp, b.drop L.headerSize, slice b (L.headerSize + 2) L.infoAt⟩ else none
  info : f.info = if infoAnnounced L.flags then
    (infoLocation b L.infoAt).map fun c => (classOf c, ⟨TextProc.mk' env cp, b.drop L.infoAt⟩) else none
  strings : (StringData.init f.header (TextProc.mk' env cp) (b.drop L.stringsAt)).res = .ok f.stringData
  stringsEnd : L.stringsAt + f.stringData.size = L.extraAt
  stringKeys : (f.stringData.data.map Prod.fst).Sublist
    ["description", "relative_path", "working_directory", "command_line_arguments", "icon_location"]
  extras : f.extras = ⟨ExtraData.objects (TextProc.mk' env cp) l ++
    if allow = true ∧ 4 < last.length then [⟨.terminal, TextProc.mk' env cp, last⟩] else []⟩
  size : ∃ n, n = L.extraAt + ((ExtraData.signed l).map Piece.declared).sum +
    (if allow = true ∧ 4 < last.length then last.length else 0) ∧ f.size = n + min (b.length - n) 4

theorem process_none (env : Env) (cp : Option String) (allow : Bool) (b : Bytes) (hl : layout b = none) :
    (process env cp allow b).res = .error (if b = [] then .lnkParserError else .structError) := by
  by_cases hb : b = []
  · subst hb; rfl
  rw [if_neg hb]
  unfold process
  rw [Py.bind_res, LnkHeader.init_uAt b hb]
  unfold layout at hl
  rcases h0 : uAt 4 b 0 with _ | hs
  · rfl
  simp only [h0] at hl ⊢
  rw [Py.bind_res, LnkHeader.size_uAt]
  rcases h1 : uAt 4 (b.take hs) 0 with _ | hs'
  · rfl
  have hs4 := ExtraData.uAt_some_length h1
  have : hs' = hs := by
    rw [ExtraData.uAt_take 4 b 0 hs (by omega) (by simp at hs4; omega), h0] at h1
    simpa using h1.symm
  subst this
  simp only
  rw [Py.bind_res]
  rcases h2 : uAt 4 (b.take hs') 20 with _ | flags
  · unfold processTargets
    rw [hasFlag_short h2]
    rfl
  rw [processTargets_uAt _ _ _ _ flags h2]
  simp only [h2] at hl
  cases hb0 : flags.testBit 0 with
  | false => simp [hb0] at hl
  | true =>
    simp only [hb0, if_true] at hl ⊢
    rcases h3 : uAt 2 b hs' with _ | n
    · rfl
    · simp [h3] at hl

theorem process_some (env : Env) (cp : Option String) (hcp : UsableCodePage (TextProc.mk' env cp)) (allow : Bool)
    (b : Bytes) (L : Layout) (hl : layout b = some L) (l : List Piece) (last : Bytes) (hc : Cut (b.drop L.extraAt) l last) :
    if ∀ p ∈ ExtraData.signed l, 4 ≤ p.declared then
      ∃ f, (process env cp allow b).res = .ok f ∧ Parts env cp allow b L l last f
    else (process env cp allow b).res = .error .structError := by
  unfold layout at hl
  rcases h0 : uAt 4 b 0 with _ | hs
  · simp [h0] at hl
  simp only [h0] at hl
  rcases h2 : uAt 4 (b.take hs) 20 with _ | flags
  · simp [h2] at hl
  simp only [h2] at hl
  have hb : b ≠ [] := by
    intro hb
    subst hb
    simp [uAt] at h0
  have h1 : uAt 4 (b.take hs) 0 = some hs := by
    have := ExtraData.uAt_some_length h2
    rw [ExtraData.uAt_take 4 b 0 hs (by omega) (by simp at this; omega), h0]
  generalize hX : (if flags.testBit 0 then (uAt 2 b hs).map fun n => hs + 2 + n else some hs) = X at hl
  rcases X with _ | infoAt
  · simp at hl
  simp only [Option.some.injEq] at hl
  have ht : processTargets (TextProc.mk' env cp) b ⟨b.take hs⟩ hs = pure (if flags.testBit 0 then
      some ⟨TextProc.mk' env cp, b.drop hs, slice b (hs + 2) infoAt⟩ else none, infoAt) := by
    rw [processTargets_uAt _ _ _ _ flags h2]
    cases hb0 : flags.testBit 0 with
    | false =>
      rw [hb0] at hX
      simp only [Bool.false_eq_true, if_false, Option.some.injEq] at hX ⊢
      rw [hX]
    | true =>
      rw [hb0] at hX
      simp only [if_true] at hX ⊢
      rcases h3 : uAt 2 b hs with _ | n
      · simp [h3] at hX
      · rw [h3] at hX
        simp only [Option.map_some, Option.some.injEq] at hX ⊢
        rw [hX]
  have hi := processInfo_uAt (TextProc.mk' env cp) b ⟨b.take hs⟩ infoAt flags h2
  generalize hS : (if infoAnnounced flags && (infoLocation b infoAt).isSome then infoAt + (uAt 4 b infoAt).getD 0
    else infoAt) = stringsAt at hl hi
  obtain ⟨sd, w, hs1, hs2, hs3⟩ := StringData.init_end (h := ⟨b.take hs⟩) h2
    (StringData.readable_of_usable hcp (flags.testBit 7)) b stringsAt
  subst hl
  simp only at hc
  have he := ExtraData.init_cut (tp := TextProc.mk' env cp) (allow := allow) hc
  have hz := ExtraData.size_cut (tp := TextProc.mk' env cp) (allow := allow) hc
  rw [← hs2] at he
  split
  · rename_i hall
    rw [if_pos hall] at hz
    refine ⟨_, process_ok_iff.2 ⟨⟨b.take hs⟩, hs, _, infoAt, _, stringsAt, sd, _, _, ?_, ?_, congrArg Py.res ht, hi, ?_,
      congrArg Py.res he, congrArg Py.res hz, rfl⟩, ?_⟩
    · rw [LnkHeader.init_uAt b hb, h0]
    · rw [LnkHeader.size_uAt]; simp only [h1]
    · rw [hs1]
    · refine ⟨rfl, rfl, rfl, rfl, rfl, by rw [hs1], hs2, hs3, rfl, _, rfl, ?_⟩
      simp only [hs2, List.length_drop, Nat.add_assoc]
  · rename_i hall
    rw [if_neg hall] at hz
    unfold process
    rw [Py.bind_res, LnkHeader.init_uAt b hb, h0]
    simp only
    rw [Py.bind_res, LnkHeader.size_uAt]
    simp only [h1]
    rw [Py.bind_res, ht]
    simp only [Py.pure_res]
    rw [Py.bind_res, hi]
    simp only
    rw [Py.bind_res, hs1]
    simp only
    rw [Py.bind_res, he]
    simp only
    rw [Py.bind_res, hz]
    rfl

end LnkFile

end Verif
