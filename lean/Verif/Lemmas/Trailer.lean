import Verif.Spec.Complete
import Verif.Lemmas.HowMany
import Verif.Lemmas.Reduced
import Verif.Lemmas.Weight
import Verif.Props.Log

/-
More bytes behind a complete file.
-/

namespace Verif

open Spec Py

namespace Trailer

theorem uAt_more {n off : Nat} {b : Bytes} (t : Bytes) (h : off + n ≤ b.length) : uAt n (b ++ t) off = uAt n b off := by
  rw [show uAt n (b ++ t) off = some (leNat (slice (b ++ t) off (off + n))) from uAt_eq_some_iff.2 ⟨by simp; omega, rfl⟩,
    show uAt n b off = some (leNat (slice b off (off + n))) from uAt_eq_some_iff.2 ⟨h, rfl⟩]
  congr 2
  unfold slice
  rw [List.drop_append_of_le_length (by omega), List.take_append_of_le_length (by simp; omega)]

theorem uAt_some_more {n off v : Nat} {b : Bytes} (t : Bytes) (h : uAt n b off = some v) : uAt n (b ++ t) off = some v := by
  rw [uAt_more t (ExtraData.uAt_some_length h), h]

theorem slice_more {b : Bytes} (t : Bytes) {i j : Nat} (h : j ≤ b.length) : slice (b ++ t) i j = slice b i j := by
  unfold slice
  by_cases hi : i ≤ b.length
  · rw [List.drop_append_of_le_length hi, List.take_append_of_le_length (by simp; omega)]
  · rw [show j - i = 0 by omega]
    simp

/-- The extra data. -/
theorem cut_more {b : Bytes} {l : List Piece} {last : Bytes} (t : Bytes) (h : Cut b l last) (h4 : 4 ≤ last.length)
    (hs : ∀ p ∈ l, p.signature.isSome) :
    Cut (b ++ t) l (last ++ t) ∧ (l.map Piece.declared).sum + last.length = b.length := by
  induction h with
  | stop h =>
    refine ⟨.stop (.inr ?_), by simp⟩
    rcases h with h | h
    · exact absurd (uAt_eq_none_iff.1 h) (by omega)
    · exact uAt_some_more t h
  | @block b n l last h hn hl ih =>
    obtain ⟨h1, h2⟩ := ih h4 fun p hp => hs p (List.mem_cons_of_mem _ hp)
    rw [List.length_drop] at h2
    have hlen : n < b.length := by omega
    obtain ⟨s, h8⟩ := Option.isSome_iff_exists.1 (hs _ List.mem_cons_self)
    dsimp only at h8
    constructor
    · have := Cut.block (b := b ++ t) (uAt_some_more t h) hn (by rw [List.drop_append_of_le_length (by omega)]; exact h1)
      rwa [List.take_append_of_le_length (by omega), uAt_some_more t h8, ← h8] at this
    · rw [List.map_cons, List.sum_cons]
      dsimp only
      omega

theorem stringsEnd_more (flags : Nat) (b t : Bytes) (fs : List (Nat × Nat)) (pos : Nat) (h : stringsCut flags b fs pos = false) :
    stringsEnd flags (b ++ t) fs pos = stringsEnd flags b fs pos := by
  induction fs generalizing pos with
  | nil => rfl
  | cons p fs ih =>
    obtain ⟨bit, limit⟩ := p
    unfold stringsEnd
    unfold stringsCut at h
    split
    · rename_i hb
      rw [if_pos hb] at h
      rcases hu : uAt 2 b pos with _ | n
      · rw [hu] at h
        cases h
      · rw [hu] at h
        rw [uAt_some_more t hu]
        exact ih _ h
    · rename_i hb
      rw [if_neg hb] at h
      exact ih _ h

/-- With two more bytes behind the strings none is missing. -/
theorem not_cut (flags : Nat) (b : Bytes) (fs : List (Nat × Nat)) (pos : Nat) (h : stringsEnd flags b fs pos + 2 ≤ b.length) :
    stringsCut flags b fs pos = false := by
  induction fs generalizing pos with
  | nil => rfl
  | cons p fs ih =>
    obtain ⟨bit, limit⟩ := p
    unfold stringsEnd at h
    unfold stringsCut
    split
    · rename_i hb
      rw [if_pos hb] at h
      rcases hu : uAt 2 b pos with _ | n
      · rw [hu] at h
        exact absurd (uAt_eq_none_iff.1 hu) (by dsimp only at h; omega)
      · rw [hu] at h
        exact ih _ h
    · rename_i hb
      rw [if_neg hb] at h
      exact ih _ h

/-- The extra data begin behind the strings. -/
theorem layout_extra {b : Bytes} {L : Layout} (h : layout b = some L) : L.extraAt = stringsEnd L.flags b stringLimits L.stringsAt := by
  unfold layout at h
  rcases h0 : uAt 4 b 0 with _ | hs
  · rw [h0] at h; cases h
  rw [h0] at h
  dsimp only at h
  rcases h1 : uAt 4 (b.take hs) 20 with _ | flags
  · rw [h1] at h; cases h
  rw [h1] at h
  dsimp only at h
  rcases h2 : (if flags.testBit 0 then (uAt 2 b hs).map fun n => hs + 2 + n else some hs) with _ | infoAt
  · rw [h2] at h; cases h
  rw [h2] at h
  cases h
  rfl

/-- The places. -/
theorem layout_more {b : Bytes} {L : Layout} (t : Bytes) (h : layout b = some L) (he : L.extraAt ≤ b.length)
    (hc : stringsCut L.flags b stringLimits L.stringsAt = false)
    (hi : infoAnnounced L.flags = true → L.infoAt + 12 ≤ b.length) :
    layout (b ++ t) = some L ∧ L.headerSize ≤ L.infoAt ∧ L.infoAt ≤ L.stringsAt ∧ L.stringsAt ≤ L.extraAt ∧
      (infoAnnounced L.flags = true → infoLocation (b ++ t) L.infoAt = infoLocation b L.infoAt) := by
  unfold layout at h
  rcases h0 : uAt 4 b 0 with _ | hs
  · rw [h0] at h; cases h
  rw [h0] at h
  dsimp only at h
  rcases h1 : uAt 4 (b.take hs) 20 with _ | flags
  · rw [h1] at h; cases h
  rw [h1] at h
  dsimp only at h
  rcases h2 : (if flags.testBit 0 then (uAt 2 b hs).map fun n => hs + 2 + n else some hs) with _ | infoAt
  · rw [h2] at h; cases h
  rw [h2] at h
  dsimp only at h
  have ho : hs ≤ infoAt := by
    split at h2
    · obtain ⟨n, -, rfl⟩ := Option.map_eq_some_iff.1 h2
      omega
    · cases h2
      exact Nat.le_refl _
  generalize hS : (if infoAnnounced flags && (infoLocation b infoAt).isSome then infoAt + (uAt 4 b infoAt).getD 0
    else infoAt) = stringsAt at h
  have hle : infoAt ≤ stringsAt := by
    rw [← hS]
    split <;> omega
  cases h
  dsimp only at he hc hi ⊢
  have hse := HowMany.stringsEnd_le flags b stringLimits stringsAt
  have hloc : infoAnnounced flags = true → infoLocation (b ++ t) infoAt = infoLocation b infoAt := by
    intro ha
    unfold infoLocation
    rw [uAt_more t (by have := hi ha; omega)]
  refine ⟨?_, ho, hle, hse, hloc⟩
  unfold layout
  rw [uAt_some_more t h0]
  dsimp only
  rw [List.take_append_of_le_length (by omega), h1]
  dsimp only
  have h2' : (if flags.testBit 0 then (uAt 2 (b ++ t) hs).map fun n => hs + 2 + n else some hs) = some infoAt := by
    rw [← h2]
    split
    · rename_i hb
      rw [if_pos hb] at h2
      obtain ⟨n, hn, -⟩ := Option.map_eq_some_iff.1 h2
      rw [uAt_some_more t hn, hn]
    · rfl
  rw [h2']
  dsimp only
  have hS' : (if infoAnnounced flags && (infoLocation (b ++ t) infoAt).isSome then infoAt + (uAt 4 (b ++ t) infoAt).getD 0
      else infoAt) = stringsAt := by
    rw [← hS]
    cases ha : infoAnnounced flags with
    | false => rfl
    | true => rw [hloc ha, uAt_more t (by have := hi ha; omega)]
  rw [hS', stringsEnd_more _ _ _ _ _ hc]

/-- The strings. -/
theorem loop_more {h : LnkHeader} {flags : Nat} (hf : uAt 4 h.raw 20 = some flags) (tp : TextProc) (b t : Bytes) (base : Nat)
    (fs : List StringField) (ms : List (String × String × Bool)) (hm : StringData.Matches ms fs) (data : List (String × Str)) (start : Nat)
    (hb : base ≤ b.length)
    (he : stringsEnd flags b (fs.map fun f => (f.bit, f.limit)) (base + start) ≤ b.length)
    (hc : stringsCut flags b (fs.map fun f => (f.bit, f.limit)) (base + start) = false) :
    StringData.loop h tp ((b ++ t).drop base) ms data start = StringData.loop h tp (b.drop base) ms data start := by
  induction fs generalizing ms data start with
  | nil =>
    match ms, hm with
    | [], _ => rfl
  | cons f fs ih =>
    match ms, hm with
    | (flag, key, limited) :: ms, hm =>
      rw [List.map_cons, stringsEnd] at he
      rw [List.map_cons, stringsCut] at hc
      cases hbit : flags.testBit f.bit with
      | false =>
        rw [hbit, if_neg (by simp)] at he hc
        rw [StringData.loop_absent hf tp _ hm.1.1 hbit, StringData.loop_absent hf tp _ hm.1.1 hbit]
        exact ih ms hm.2 data start he hc
      | true =>
        rw [hbit, if_pos rfl] at he hc
        rcases hu : uAt 2 b (base + start) with _ | n
        · rw [hu] at hc
          cases hc
        rw [hu] at he hc
        dsimp only at he hc
        have hn := uAt_lt hu
        have hle := HowMany.stringsEnd_le flags b (fs.map fun f => (f.bit, f.limit))
          (base + start + 2 + min n f.limit * if flags.testBit 7 then 2 else 1)
        have hacc : StringData.accepted limited n = min n f.limit := by
          rw [hm.1.2.2]
          unfold StringData.accepted
          cases limited <;> simp <;> omega
        have hst : ∀ b' : Bytes, uAt 2 b' (base + start) = some n → (b'.drop base).drop start = le 2 n ++ b'.drop (base + start + 2) := by
          intro b' hu'
          obtain ⟨h1, h2⟩ := uAt_eq_some_iff.1 hu'
          rw [List.drop_drop, ← List.take_append_drop 2 (b'.drop (base + start)), List.drop_drop]
          congr 1
          rw [← h2]
          have := le_leNat (slice b' (base + start) (base + start + 2))
          rw [show (slice b' (base + start) (base + start + 2)).length = 2 by simp; omega] at this
          rw [this]
          unfold slice
          rw [Nat.add_sub_cancel_left]
        have hread : StringData.read h tp (((b ++ t).drop base).drop start) limited = StringData.read h tp ((b.drop base).drop start) limited := by
          rw [hst _ (uAt_some_more t hu), hst _ hu, StringData.read_eq hf tp n hn, StringData.read_eq hf tp n hn, hacc]
          congr 2
          rw [List.drop_append_of_le_length (by omega), List.take_append_of_le_length]
          rw [List.length_drop]
          unfold StringData.unit
          omega
        rw [StringData.loop, StringData.loop, hread]
        refine bind_congr_ok fun r hr => ?_
        match r, hr with
        | .error _, _ => rfl
        | .ok none, hr => exact absurd hr (by
            rw [hasFlag_bit hf hm.1.1, hbit, hst _ hu, StringData.read_eq hf tp n hn]
            simp only [pure_bind, if_true]
            unfold Py.attempt
            intro hr
            split at hr
            · split at hr <;> cases hr
            · rename_i o ho
              obtain ⟨_, -, ho⟩ := bind_ok_iff.1 ho
              cases ho
              cases hr)
        | .ok (some (text, length)), hr =>
          have : length = 2 + min n f.limit * if flags.testBit 7 then 2 else 1 := by
            rw [hasFlag_bit hf hm.1.1, hbit, hst _ hu, StringData.read_eq hf tp n hn, hacc] at hr
            simp only [pure_bind, if_true] at hr
            unfold Py.attempt at hr
            split at hr
            · split at hr <;> cases hr
            · rename_i o ho
              obtain ⟨_, ho1, ho⟩ := bind_ok_iff.1 ho
              cases ho
              obtain ⟨_, -, ho1⟩ := bind_ok_iff.1 ho1
              cases ho1
              cases hr
              rfl
          refine ih ms hm.2 _ _ ?_ ?_
          · rw [this, ← Nat.add_assoc, ← Nat.add_assoc]
            exact he
          · rw [this, ← Nat.add_assoc, ← Nat.add_assoc]
            exact hc

/-- The object with more bytes behind it. -/
def extended (t : Bytes) (f : LnkFile) : LnkFile :=
  { f with
    indata := f.indata ++ t
    targets := f.targets.map fun x => ⟨x.tp, x.raw ++ t, x.rawTargets⟩
    info := f.info.map fun ci => (ci.1, ⟨ci.2.tp, ci.2.raw ++ t⟩) }

theorem process_more' (env : Env) (cp : Option String) (ht : Log.Tame (TextProc.mk' env cp)) {b : Bytes} {L : Layout} {l : List Piece}
    {last : Bytes} (hlay : layout b = some L) (hcut0 : Cut (b.drop L.extraAt) l last) (hterm : 4 ≤ last.length)
    (hsigned : ∀ p ∈ l, p.signature.isSome) (hinfo : infoAnnounced L.flags = true → L.infoAt + 12 ≤ b.length) (t : Bytes) :
    LnkFile.process env cp false (b ++ t) = (do
      let f ← LnkFile.process env cp false b
      pure (extended t f)) := by
  have hlen : L.extraAt + 4 ≤ b.length := by
    have := congrArg List.length (ExtraData.cut_flatten hcut0)
    rw [List.length_append, List.length_drop] at this
    have := hterm
    omega
  have hnc := not_cut L.flags b stringLimits L.stringsAt (by rw [← layout_extra hlay]; omega)
  obtain ⟨hL, o1, o2, o3, hloc⟩ := layout_more t hlay (by omega) hnc hinfo
  obtain ⟨hcut, hsum⟩ := cut_more t hcut0 hterm hsigned
  rw [List.length_drop] at hsum
  obtain ⟨-, -, hfl, hex, hp⟩ := LnkFile.process_rest env cp false b L hlay
  obtain ⟨-, -, -, -, hp'⟩ := LnkFile.process_rest env cp false (b ++ t) L hL
  have hhead : (b ++ t).take L.headerSize = b.take L.headerSize := List.take_append_of_le_length (by omega)
  have hw : (if infoAnnounced L.flags = true ∧ uAt 4 (b ++ t) (L.infoAt + 8) = none then [Warn.infoClass] else []) =
      if infoAnnounced L.flags = true ∧ uAt 4 b (L.infoAt + 8) = none then [.infoClass] else [] := by
    cases ha : infoAnnounced L.flags with
    | false => simp
    | true => rw [uAt_more t (by have := hinfo ha; omega)]
  rw [hp, hp', hw]
  simp only [bind_assoc]
  congr 1; funext _
  congr 1; funext _
  congr 1; funext _
  unfold LnkFile.rest
  simp only [bind_assoc, pure_bind]
  have hstr : StringData.init ⟨(b ++ t).take L.headerSize⟩ (TextProc.mk' env cp) ((b ++ t).drop L.stringsAt) =
      StringData.init ⟨b.take L.headerSize⟩ (TextProc.mk' env cp) (b.drop L.stringsAt) := by
    rw [hhead]
    refine loop_more (h := ⟨b.take L.headerSize⟩) hfl _ b t L.stringsAt (Strings.fields ⟨none, none, none, none, none⟩) _
      (StringData.matches_fields _) [] 0 (by omega) ?_ hnc
    show stringsEnd L.flags b stringLimits (L.stringsAt + 0) ≤ _
    have : L.extraAt = stringsEnd L.flags b stringLimits (L.stringsAt + 0) := hex
    omega
  rw [hstr]
  refine bind_congr_ok fun sd hsd => ?_
  have h6 := ((StringData.init_logs (h := ⟨b.take L.headerSize⟩) hfl ht b L.stringsAt).2 sd hsd).1
  rw [← hex] at h6
  have hcut' : Cut ((b ++ t).drop L.extraAt) l (last ++ t) := by
    rw [List.drop_append_of_le_length (by omega)]
    exact hcut
  have hcw : ExtraData.cutWarns l (last ++ t) = ExtraData.cutWarns l last := by
    unfold ExtraData.cutWarns
    have h4 := hterm
    rw [if_neg, if_neg]
    · rintro ⟨-, h⟩
      exact absurd (uAt_eq_none_iff.1 h) (by omega)
    · rintro ⟨-, h⟩
      exact absurd (uAt_eq_none_iff.1 h) (by simp; omega)
  have hsd' : ExtraData.signed l = l := List.filter_eq_self.2 hsigned
  rw [h6, ExtraData.init_cut hcut', ExtraData.init_cut hcut0, hcw]
  simp only [Bool.false_eq_true, false_and, if_false, List.append_nil]
  refine bind_congr_ok fun ex hex => ?_
  obtain rfl := Except.ok.inj hex
  refine bind_congr_ok fun n hn => ?_
  have hz := ExtraData.size_cut (tp := TextProc.mk' env cp) (allow := false) hcut0
  simp only [Bool.false_eq_true, false_and, if_false, List.append_nil] at hz
  rw [hz] at hn
  split at hn
  swap
  · cases hn
  obtain rfl := Except.ok.inj hn
  rw [hsd', Nat.add_zero]
  have h4 := hterm
  congr 1
  unfold extended
  simp only [hhead, List.length_drop, List.length_append]
  congr 1
  · rw [apply_ite (Option.map _)]
    simp only [Option.map_some, Option.map_none]
    rw [List.drop_append_of_le_length (by omega), slice_more t (by omega)]
  · rw [apply_ite (Option.map _)]
    cases ha : infoAnnounced L.flags with
    | false => simp
    | true =>
      rw [hloc ha, List.drop_append_of_le_length (by omega)]
      simp [Function.comp_def]
  · omega

theorem process_more (env : Env) (cp : Option String) (ht : Log.Tame (TextProc.mk' env cp)) {b : Bytes} {L : Layout} {l : List Piece}
    {last : Bytes} (hC : Complete b L l last) (t : Bytes) :
    LnkFile.process env cp false (b ++ t) = (do
      let f ← LnkFile.process env cp false b
      pure (extended t f)) :=
  process_more' env cp ht hC.layout hC.cut hC.terminal hC.signed (fun h => (hC.info h).1) t

/-! ### link info -/

theorem narrow_more (tp : TextProc) {b : Bytes} {off : Nat} (t : Bytes) (h : NarrowEnds b off) :
    tp.readString ((b ++ t).drop off) = tp.readString (b.drop off) := by
  have hle : off ≤ b.length := by
    by_contra hn
    unfold NarrowEnds at h
    rw [List.drop_eq_nil_of_le (by omega)] at h
    cases h
  rw [List.drop_append_of_le_length hle]
  rcases nul_cases (b.drop off) with h0 | ⟨a, rest, h0, h1⟩
  · exact absurd h h0
  · rw [h1, List.append_assoc, List.cons_append, readString_cons _ _ h0, readString_cons _ _ h0]

theorem twoBytes_units (us : List UInt16) (rest : Bytes) : TextProc.twoBytesEach (units us ++ (le 2 0 ++ rest)) =
    TextProc.twoBytesEach (units us) ++ [0, 0] :: TextProc.twoBytesEach rest := by
  rw [twoBytesEach_append]
  · rfl
  · have : (units us).length = 2 * us.length := by
      induction us with
      | nil => rfl
      | cons u us ih =>
        simp only [units, List.flatMap_cons, List.length_append, List.length_cons] at ih ⊢
        rw [ih, le_length]
        omega
    omega

theorem wide_more {b : Bytes} {off : Nat} (t : Bytes) (h : WideEnds b off) :
    TextProc.readUnicodeString ((b ++ t).drop off) = TextProc.readUnicodeString (b.drop off) := by
  obtain ⟨us, rest, h⟩ := h
  have hle : off ≤ b.length := by
    by_contra hn
    rw [List.drop_eq_nil_of_le (by omega)] at h
    have := congrArg List.length h
    simp at this
    omega
  rw [List.drop_append_of_le_length hle, h, List.append_assoc, List.append_assoc, readUnicodeString_eq, readUnicodeString_eq,
    twoBytes_units, twoBytes_units]
  congr 2
  induction TextProc.twoBytesEach (units us) with
  | nil => simp
  | cons x l ih =>
    rw [List.cons_append, List.cons_append, List.takeWhile_cons, List.takeWhile_cons, ih]

theorem u32_at (tp : TextProc) {b : Bytes} {off : Nat} (t : Bytes) (h : off + 4 ≤ b.length) :
    LnkInfo.u32 ⟨tp, b⟩ off = pure (u4 b off) ∧ LnkInfo.u32 ⟨tp, b ++ t⟩ off = pure (u4 b off) := by
  obtain ⟨n, hn⟩ := LnkInfo.uAt_exists (raw := b) h
  have : u4 b off = n := by unfold u4; rw [hn]; rfl
  rw [this]
  exact ⟨LnkInfo.u32_pure hn, LnkInfo.u32_pure (i := ⟨tp, b ++ t⟩) (uAt_some_more t hn)⟩

theorem local_more (tp : TextProc) {b : Bytes} (t : Bytes) (h28 : 28 ≤ b.length) (h : VolumeComplete b (u4 b 12)) :
    LnkFile.jsonLocal ⟨tp, b ++ t⟩ = LnkFile.jsonLocal ⟨tp, b⟩ := by
  obtain ⟨h16, h⟩ := h
  obtain ⟨a1, b1⟩ := u32_at tp t (b := b) (off := 12) (by omega)
  obtain ⟨a2, b2⟩ := u32_at tp t (b := b) (off := u4 b 12) (by omega)
  obtain ⟨a3, b3⟩ := u32_at tp t (b := b) (off := u4 b 12 + 4) (by omega)
  obtain ⟨a4, b4⟩ := u32_at tp t (b := b) (off := u4 b 12 + 8) (by omega)
  obtain ⟨a5, b5⟩ := u32_at tp t (b := b) (off := u4 b 12 + 12) (by omega)
  unfold LnkFile.jsonLocal LnkInfo.volumeIdSize LnkInfo.driveSerialNumber LnkInfo.driveType LnkInfo.rDriveType LnkInfo.volumeLabel
    LnkInfo.volumeLabelUnicode LnkInfo.volumeLabelUnicodeOffset LnkInfo.hasVolumeLabelOffsetUnicode LnkInfo.volumeLabelOffset
    LnkInfo.volumeIdOffset
  simp only [a1, a2, a3, a4, a5, b1, b2, b3, b4, b5, pure_bind]
  by_cases h14 : u4 b (u4 b 12 + 12) = 0x14
  · rw [if_pos h14] at h
    obtain ⟨a6, b6⟩ := u32_at tp t (b := b) (off := u4 b 12 + 16) (by omega)
    simp only [h14, a6, b6, pure_bind, decide_true, if_true]
    by_cases h0 : u4 b (u4 b 12 + 16) = 0
    · simp only [h0, pure_bind]
    · obtain ⟨k, hk⟩ := Nat.exists_eq_succ_of_ne_zero h0
      have := wide_more t (h.2 h0)
      rw [hk] at this ⊢
      simp only [this]
  · rw [if_neg h14] at h
    simp only [h14, decide_false, Bool.false_eq_true, if_false, pure_bind, narrow_more tp t h]

theorem network_more (tp : TextProc) {b : Bytes} (t : Bytes) (h28 : 28 ≤ b.length) (h : NetworkComplete b (u4 b 20)) :
    LnkFile.jsonNetwork ⟨tp, b ++ t⟩ = LnkFile.jsonNetwork ⟨tp, b⟩ := by
  obtain ⟨h16, h⟩ := h
  obtain ⟨a1, b1⟩ := u32_at tp t (b := b) (off := 20) (by omega)
  obtain ⟨a2, b2⟩ := u32_at tp t (b := b) (off := u4 b 20) (by omega)
  obtain ⟨a3, b3⟩ := u32_at tp t (b := b) (off := u4 b 20 + 4) (by omega)
  obtain ⟨a4, b4⟩ := u32_at tp t (b := b) (off := u4 b 20 + 8) (by omega)
  obtain ⟨a5, b5⟩ := u32_at tp t (b := b) (off := u4 b 20 + 12) (by omega)
  obtain ⟨a6, b6⟩ := u32_at tp t (b := b) (off := u4 b 20 + 16) (by omega)
  unfold LnkFile.jsonNetwork LnkInfo.networkProviderType LnkInfo.netNameUnicode LnkInfo.deviceNameUnicode
    LnkInfo.netNameOffsetUnicode LnkInfo.deviceNameOffsetUnicode LnkInfo.netName LnkInfo.deviceName LnkInfo.rNetworkProviderType
    LnkInfo.cnrlSize LnkInfo.cnrlFlags LnkInfo.netNameOffset LnkInfo.deviceNameOffset LnkInfo.cnrlOffset
  simp only [a1, a2, a3, a4, a5, a6, b1, b2, b3, b4, b5, b6, pure_bind]
  by_cases h14 : 0x14 < u4 b (u4 b 20 + 8)
  · rw [if_pos h14] at h
    obtain ⟨a7, b7⟩ := u32_at tp t (b := b) (off := u4 b 20 + 20) (by omega)
    obtain ⟨a8, b8⟩ := u32_at tp t (b := b) (off := u4 b 20 + 24) (by omega)
    simp only [if_neg (Nat.not_le.2 h14), if_pos h14, a7, b7, a8, b8, pure_bind]
    by_cases h0 : u4 b (u4 b 20 + 20) = 0 <;> by_cases h1 : u4 b (u4 b 20 + 24) = 0
    · simp [h0, h1, LnkFile.truthyNat, LnkFile.entryIf]
    · simp [h0, h1, LnkFile.truthyNat, LnkFile.entryIf, wide_more t (h.2.2 h1)]
    · simp [h0, h1, LnkFile.truthyNat, LnkFile.entryIf, wide_more t (h.2.1 h0)]
    · simp [h0, h1, LnkFile.truthyNat, LnkFile.entryIf, wide_more t (h.2.1 h0), wide_more t (h.2.2 h1)]
  · rw [if_neg h14] at h
    simp only [if_pos (Nat.le_of_not_lt h14), if_neg h14, pure_bind, narrow_more tp t h.1, narrow_more tp t h.2]

theorem info_more (tp : TextProc) {b : Bytes} (t : Bytes) {kind : String} (h : InfoComplete b kind) (f g : LnkFile)
    (hf : f.info = some (LnkFile.classOf kind, ⟨tp, b⟩)) (hg : g.info = some (LnkFile.classOf kind, ⟨tp, b ++ t⟩)) :
    g.jsonInfo = f.jsonInfo := by
  obtain ⟨h28, hn1, hn2, hw, hl⟩ := h
  obtain ⟨a0, b0⟩ := u32_at tp t (b := b) (off := 0) (by omega)
  obtain ⟨a1, b1⟩ := u32_at tp t (b := b) (off := 4) (by omega)
  obtain ⟨a2, b2⟩ := u32_at tp t (b := b) (off := 8) (by omega)
  obtain ⟨a3, b3⟩ := u32_at tp t (b := b) (off := 12) (by omega)
  obtain ⟨a4, b4⟩ := u32_at tp t (b := b) (off := 16) (by omega)
  obtain ⟨a5, b5⟩ := u32_at tp t (b := b) (off := 20) (by omega)
  obtain ⟨a6, b6⟩ := u32_at tp t (b := b) (off := 24) (by omega)
  have hloc : (LnkFile.classOf kind = .local → LnkFile.jsonLocal ⟨tp, b ++ t⟩ = LnkFile.jsonLocal ⟨tp, b⟩) ∧
      (LnkFile.classOf kind = .network → LnkFile.jsonNetwork ⟨tp, b ++ t⟩ = LnkFile.jsonNetwork ⟨tp, b⟩) := by
    unfold LnkFile.classOf
    by_cases hk : kind = "Local"
    · rw [if_pos hk] at hl ⊢
      exact ⟨fun _ => local_more tp t h28 hl, fun h => by cases h⟩
    · rw [if_neg hk] at hl ⊢
      exact ⟨fun h => (by cases h), fun _ => network_more tp t h28 hl⟩
  unfold LnkFile.jsonInfo
  rw [hf, hg]
  dsimp only
  have e1 : LnkFile.entryIf (u4 b 16 != 0) (do
      let x ← LnkInfo.localBasePath ⟨tp, b ++ t⟩
      pure [("local_base_path", PyVal.opt .str x)]) = LnkFile.entryIf (u4 b 16 != 0) (do
      let x ← LnkInfo.localBasePath ⟨tp, b⟩
      pure [("local_base_path", PyVal.opt .str x)]) := by
    unfold LnkInfo.localBasePath LnkInfo.localBasePathOffset
    simp only [a4, b4, pure_bind]
    by_cases h0 : u4 b 16 = 0
    · simp [h0]
    · simp only [narrow_more tp t (hn1 h0)]
  have e2 : LnkFile.entryIf (u4 b 24 != 0) (do
      let x ← LnkInfo.commonPathSuffix ⟨tp, b ++ t⟩
      pure [("common_path_suffix", PyVal.opt .str x)]) = LnkFile.entryIf (u4 b 24 != 0) (do
      let x ← LnkInfo.commonPathSuffix ⟨tp, b⟩
      pure [("common_path_suffix", PyVal.opt .str x)]) := by
    unfold LnkInfo.commonPathSuffix LnkInfo.commonPathSuffixOffset
    simp only [a6, b6, pure_bind]
    by_cases h0 : u4 b 24 = 0
    · simp [h0]
    · simp only [narrow_more tp t (hn2 h0)]
  have e3 : LnkInfo.localBasePathOffsetUnicode ⟨tp, b ++ t⟩ = LnkInfo.localBasePathOffsetUnicode ⟨tp, b⟩ ∧
      LnkInfo.localBasePathUnicode ⟨tp, b ++ t⟩ = LnkInfo.localBasePathUnicode ⟨tp, b⟩ := by
    unfold LnkInfo.localBasePathUnicode LnkInfo.localBasePathOffsetUnicode LnkInfo.hasOptFields LnkInfo.headerSize
    simp only [a1, b1, pure_bind]
    by_cases h24 : 0x24 ≤ u4 b 4
    · obtain ⟨h36, hw1, hw2⟩ := hw h24
      obtain ⟨a7, b7⟩ := u32_at tp t (b := b) (off := 28) (by omega)
      simp only [h24, decide_true, if_true, a7, b7, pure_bind, true_and]
      by_cases h0 : u4 b 28 = 0
      · simp only [h0]
      · obtain ⟨k, hk⟩ := Nat.exists_eq_succ_of_ne_zero h0
        have := wide_more t (hw1 h0)
        rw [hk] at this ⊢
        simp only [this]
    · simp [h24]
  have e4 : LnkInfo.commonPathSuffixOffsetUnicode ⟨tp, b ++ t⟩ = LnkInfo.commonPathSuffixOffsetUnicode ⟨tp, b⟩ ∧
      LnkInfo.commonPathSuffixUnicode ⟨tp, b ++ t⟩ = LnkInfo.commonPathSuffixUnicode ⟨tp, b⟩ := by
    unfold LnkInfo.commonPathSuffixUnicode LnkInfo.commonPathSuffixOffsetUnicode LnkInfo.hasOptFields LnkInfo.headerSize
    simp only [a1, b1, pure_bind]
    by_cases h24 : 0x24 ≤ u4 b 4
    · obtain ⟨h36, hw1, hw2⟩ := hw h24
      obtain ⟨a7, b7⟩ := u32_at tp t (b := b) (off := 32) (by omega)
      simp only [h24, decide_true, if_true, a7, b7, pure_bind, true_and]
      by_cases h0 : u4 b 32 = 0
      · simp only [h0]
      · obtain ⟨k, hk⟩ := Nat.exists_eq_succ_of_ne_zero h0
        have := wide_more t (hw2 h0)
        rw [hk] at this ⊢
        simp only [this]
    · simp [h24]
  rw [e3.1, e3.2, e4.1, e4.2]
  simp only [LnkInfo.size, LnkInfo.headerSize, LnkInfo.flags, LnkInfo.volumeIdOffset, LnkInfo.localBasePathOffset, LnkInfo.cnrlOffset,
    LnkInfo.commonPathSuffixOffset, a0, a1, a2, a3, a4, a5, a6, b0, b1, b2, b3, b4, b5, b6, pure_bind, e1, e2]
  cases hc : LnkFile.classOf kind
  · rw [hloc.1 hc]
  · rw [hloc.2 hc]

/-- The sections. -/
theorem sections_more {env : Env} {cp : Option String} {allow : Bool} {b : Bytes} {L : Layout} {l : List Piece} {last : Bytes}
    (hl : layout b = some L) (hlen : L.extraAt ≤ b.length) (hnc : stringsCut L.flags b stringLimits L.stringsAt = false)
    (hi : infoAnnounced L.flags = true → L.infoAt + 12 ≤ b.length ∧
      ∀ kind, infoLocation b L.infoAt = some kind → InfoComplete (b.drop L.infoAt) kind)
    (t : Bytes) {f : LnkFile} (hP : LnkFile.Parts env cp allow b L l last f) :
    (extended t f).jsonTarget = f.jsonTarget ∧ (extended t f).jsonInfo = f.jsonInfo := by
  obtain ⟨hL, o1, o2, o3, hloc⟩ := layout_more t hl hlen hnc fun h => (hi h).1
  constructor
  · unfold LnkFile.jsonTarget extended
    dsimp only
    rw [hP.targets]
    cases hb : L.flags.testBit 0 with
    | false => rfl
    | true =>
      have h2 := (Props.layout_flags hl).2 hb
      have : slice (b.drop L.headerSize ++ t) 0 2 = slice (b.drop L.headerSize) 0 2 := slice_more t (by simp; omega)
      simp only [if_true, Option.map_some, LnkTargets.idListSize, LnkTargets.idListSizeOf, LnkTargets.asList, LnkTargets.iter, this]
  · have hinf := hP.info
    cases ha : infoAnnounced L.flags with
    | false =>
      rw [ha] at hinf
      unfold LnkFile.jsonInfo extended
      simp only [hinf, Bool.false_eq_true, if_false, Option.map_none]
    | true =>
      rw [ha, if_pos rfl] at hinf
      rcases hk : infoLocation b L.infoAt with _ | kind
      · rw [hk] at hinf
        unfold LnkFile.jsonInfo extended
        simp only [hinf, Option.map_none]
      · rw [hk] at hinf
        refine info_more (TextProc.mk' env cp) t ((hi ha).2 kind hk) f (extended t f) hinf ?_
        unfold extended
        simp only [hinf, Option.map_some]

/-- The report. -/
theorem report_more {env : Env} {cp : Option String} {b : Bytes} {L : Layout} {l : List Piece} {last : Bytes} (hC : Complete b L l last)
    (t : Bytes) {f : LnkFile} (hP : LnkFile.Parts env cp false b L l last f) (all : Bool) :
    (extended t f).getJson all = f.getJson all := by
  have hlen : L.extraAt + 4 ≤ b.length := by
    have := congrArg List.length (ExtraData.cut_flatten hC.cut)
    rw [List.length_append, List.length_drop] at this
    have := hC.terminal
    omega
  have hnc := not_cut L.flags b stringLimits L.stringsAt (by rw [← layout_extra hC.layout]; omega)
  obtain ⟨hT, hI⟩ := sections_more hC.layout (by omega) hnc hC.info t hP
  unfold LnkFile.getJson
  rw [hT, hI]
  rfl

end Trailer

end Verif
