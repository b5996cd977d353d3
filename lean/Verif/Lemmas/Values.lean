import Verif.Spec.Values
import Verif.Lemmas.FaultExtra
import Verif.Lemmas.WarnedFile
import Verif.Lemmas.Shape
import Verif.Props.Time
import Verif.Props.Header
import Verif.Props.Blocks
import Verif.Props.Readable

namespace Verif

open Spec Py

/-! ### dictionaries -/

namespace Spec

theorem fits_append {d e : Dict} {es fs : Entries} (h : Fits d es) (h' : Fits e fs) : Fits (d ++ e) (es ++ fs) := by
  induction d generalizing es with
  | nil =>
    cases es with
    | nil => simpa using h'
    | cons e es => simp [Fits] at h
  | cons kv d ih =>
    cases es with
    | nil => simp [Fits] at h
    | cons e es =>
      obtain ⟨h1, h2, h3⟩ := h
      exact ⟨h1, h2, ih h3⟩

/-- Looking up a key. -/
theorem fits_get {d : Dict} {es : Entries} (h : Fits d es) (k : String) : match es.find? (·.1 = k) with
    | some e => ∃ v, d.get? k = some v ∧ e.2 v
    | none => d.get? k = none := by
  induction d generalizing es with
  | nil =>
    cases es with
    | nil => rfl
    | cons e es => simp [Fits] at h
  | cons kv d ih =>
    obtain ⟨k', v⟩ := kv
    cases es with
    | nil => simp [Fits] at h
    | cons e es =>
      obtain ⟨h1, h2, h3⟩ := h
      dsimp only at h1 h2
      by_cases hk : e.1 = k
      · rw [List.find?_cons_of_pos (by simpa using hk)]
        exact ⟨v, by rw [Dict.get?, if_pos (h1.trans hk)], h2⟩
      · rw [List.find?_cons_of_neg (by simpa using hk), Dict.get?, if_neg (fun h => hk (h1.symm.trans h))]
        exact ih h3

end Spec

/-! ### values -/

namespace Values

theorem natAt {n off : Nat} {b : Bytes} {k : Nat} (hn : 0 < n) (h : (unpackU n (slice b off (off + n))).res = .ok k) :
    NatAt n b off (.nat k) := ⟨k, (uAt_iff_ok hn).1 h, rfl⟩

theorem unpackI_ok {n : Nat} {b : Bytes} {i : Int} (h : (unpackI n b).res = .ok i) :
    ∃ k, (unpackU n b).res = .ok k ∧ i = toSigned n k := by
  unfold unpackI at h
  unfold unpackU
  split at h
  · rename_i hl
    rw [if_pos hl]
    simp only [pure_res, Except.ok.injEq] at h
    exact ⟨_, rfl, h.symm⟩
  · simp [raise] at h

theorem sAt_of {n off : Nat} {b : Bytes} {i : Int} (hn : 0 < n) (h : (unpackI n (slice b off (off + n))).res = .ok i) :
    sAt n b off = some i := by
  obtain ⟨k, hk, rfl⟩ := unpackI_ok h
  unfold sAt
  rw [(uAt_iff_ok hn).1 hk]
  simp only [Option.map_some, Option.some.injEq, toSigned]
  push_cast
  rfl

theorem intAt {n off : Nat} {b : Bytes} {i : Int} (hn : 0 < n) (h : (unpackI n (slice b off (off + n))).res = .ok i) :
    IntAt n b off (.int i) := ⟨i, sAt_of hn h, rfl⟩

theorem ansi_cases {tp : TextProc} {a : Bytes} {s : Str} (h : (tp.ansiToStr a).res = .ok s) :
    (a = [] ∧ s = []) ∨
      a ≠ [] ∧ ∃ c, tp.env.resolve tp.cp = some c ∧ (c.strict a = .ok s ∨
        c.strict a = .error .unicodeDecode ∧ (a = utf8 s ∨ (∀ t, a ≠ utf8 t) ∧ c.replace a = .ok s)) := by
  unfold TextProc.ansiToStr decodeNamed decodeNamedReplace at h
  by_cases ha : a = []
  · subst ha
    left
    simp only [if_true, tryExcept_res, pure_res, Except.ok.injEq] at h
    exact ⟨rfl, h.symm⟩
  right
  refine ⟨ha, ?_⟩
  rw [if_neg ha] at h
  rcases hc : tp.env.resolve tp.cp with _ | c
  · rw [hc] at h
    simp [tryExcept_res, raise] at h
  refine ⟨c, rfl, ?_⟩
  rw [hc] at h
  simp only [tryExcept_res] at h
  rcases hs : c.strict a with e | t
  · right
    rw [hs] at h
    simp only at h
    split at h
    · rename_i he
      simp only [decide_eq_true_eq] at he
      subst he
      refine ⟨rfl, ?_⟩
      unfold decodeUtf8 at h
      rcases hu : utf8Decode a with _ | t
      · right
        rw [hu] at h
        simp only [raise, decide_true, if_true, ha, if_false, bind_ok_iff, pure_res, Except.ok.injEq] at h
        obtain ⟨s', h1, -, -, rfl⟩ := h
        exact ⟨fun t ht => by rw [utf8Decode_eq_some_iff.2 ht] at hu; simp at hu, h1⟩
      · left
        rw [hu] at h
        simp only [pure_res, Except.ok.injEq] at h
        subst h
        exact utf8Decode_eq_some_iff.1 hu
    · simp at h
  · left
    rw [hs] at h
    exact h

theorem takeWhile_zero {a : Bytes} (h : 0 ∉ a) (rest : Bytes) : (a ++ 0 :: rest).takeWhile (· ≠ 0) = a := by
  rw [List.takeWhile_append_of_pos (by intro x hx; simp only [ne_eq, decide_eq_true_eq]; rintro rfl; exact h hx)]
  simp

theorem takeWhile_all {a : Bytes} (h : 0 ∉ a) : a.takeWhile (· ≠ 0) = a := by
  have := List.takeWhile_append_of_pos (p := fun x : UInt8 => decide (x ≠ 0)) (l₁ := a) (l₂ := [])
    (by intro x hx; simp only [ne_eq, decide_eq_true_eq]; rintro rfl; exact h hx)
  simpa using this

theorem narrowText {tp : TextProc} {b : Bytes} {s : Str} (h : (tp.readString b).res = .ok s) : NarrowText tp b s := by
  unfold NarrowText
  rcases nul_cases b with h0 | ⟨a, rest, h0, rfl⟩
  · rw [readString_last tp h0] at h
    simp only [takeWhile_all h0]
    exact ansi_cases h
  · rw [readString_cons tp rest h0] at h
    simp only [takeWhile_zero h0]
    exact ansi_cases h

theorem narrow {tp : TextProc} {b : Bytes} {s : Str} (h : (tp.readString b).res = .ok s) : Narrow tp b (.str s) :=
  ⟨s, narrowText h, rfl⟩

theorem wide {b : Bytes} {s : Str} (h : (TextProc.readUnicodeString b).res = .ok s) : Wide b (.str s) :=
  ⟨s, (wideText_iff b s).1 h, rfl⟩

theorem guidAt {b : Bytes} {off : Nat} {s : Str} (h : (parseUuid (slice b off (off + 16))).res = .ok s) : GuidAt b off (.str s) := by
  have hl : (slice b off (off + 16)).length = 16 := by
    by_contra hne
    rw [parseUuid_short (by simp only [slice_length] at hne ⊢; omega)] at h
    simp [raise] at h
  obtain ⟨g, hg⟩ := Guid_encode_surj hl
  rw [← hg, parseUuid_encode] at h
  simp only [pure_res, Except.ok.injEq] at h
  exact ⟨g, hg.symm, by rw [h]⟩

theorem filetimeAt {b : Bytes} {off : Nat} {r : Option DateTime} (h : (parseFiletime (slice b off (off + 8))).res = .ok r) :
    FiletimeAt b off (PyVal.opt .dt r) := by
  by_cases hl : (slice b off (off + 8)).length = 8
  swap
  · rw [Props.filetime_wrong_length _ hl] at h
    simp [raise] at h
  obtain ⟨v, hv⟩ := leI8_surj hl
  obtain ⟨r', w, h1, h2⟩ := Props.time_read v
  have hs : sAt 8 b off = some v.toInt := by
    refine sAt_of (by omega) ?_
    rw [← hv, unpackI_leI8]
    rfl
  have hr : r' = r := by
    rw [← hv, h1] at h
    exact Except.ok.inj h
  subst hr
  have h0 : ∀ {t : Int64}, t.toInt ≠ 0 ↔ t ≠ 0 := fun {t} =>
    ⟨fun h he => h (by rw [he]; rfl), fun h he => h (Int64.toInt_inj.1 (by rw [he]; rfl))⟩
  refine ⟨_, hs, fun d a b c e => by rw [h2.exact d a b (h0.1 c) e]; rfl, ?_⟩
  rcases r' with _ | d
  · left
    refine ⟨rfl, ?_⟩
    by_cases hz : v = 0
    · exact .inl (by rw [hz]; rfl)
    · exact .inr (h2.missing hz rfl).2
  · right
    obtain ⟨a, b, -⟩ := h2.near d rfl
    have hz : v ≠ 0 := fun hz => by simpa using (h2.zero hz).1
    refine ⟨d, rfl, h0.2 hz, (h2.stamp d rfl).2, a, (h2.stamp d rfl).1, b, fun hn => ?_⟩
    refine Props.filetime_error_near v d ?_ hn
    show (parseFiletime _).res = _
    rw [h1]

theorem dostimeAt {b : Bytes} {off : Nat} {r : Option DateTime} (h : (parseDostime (slice b off (off + 4))).res = .ok r) :
    DostimeAt b off (PyVal.opt .dt r) := by
  by_cases hl : (slice b off (off + 4)).length = 4
  swap
  · rw [Props.dostime_wrong_length _ hl] at h
    simp [raise] at h
  obtain ⟨date, time, h1, h2, h3⟩ := Props.dostime_total _ hl
  have hd : (⟨1980 + date / 512, date / 32 % 16, date % 32, time / 2048, time / 32 % 64, time % 32 * 2, 0⟩ : DateTime) =
    dosDateTime date time := rfl
  have e1 : uAt 2 b off = some date := by
    have : slice b off (off + 4) = (b.drop off).take 4 := by unfold slice; congr 1; omega
    rw [this, ExtraData.uAt_take _ _ _ _ (by omega) (by omega), uAt_drop _ _ _ _ (by omega)] at h1
    exact h1
  have e2 : uAt 2 b (off + 2) = some time := by
    have : slice b off (off + 4) = (b.drop off).take 4 := by unfold slice; congr 1; omega
    rw [this, ExtraData.uAt_take _ _ _ _ (by omega) (by omega), uAt_drop _ _ _ _ (by omega)] at h2
    exact h2
  refine ⟨date, time, e1, e2, ?_⟩
  rw [h3] at h
  simp only [hd] at h
  by_cases hz : date = 0 ∧ time = 0
  · rw [if_pos hz] at h
    rw [if_neg (by omega)]
    rw [← Except.ok.inj h]; rfl
  · rw [if_neg hz] at h
    by_cases hv : ValidDateTime (dosDateTime date time)
    · rw [if_pos hv] at h
      rw [if_pos ⟨by omega, hv⟩]
      rw [← Except.ok.inj h]; rfl
    · rw [if_neg hv] at h
      rw [if_neg (fun h => hv h.2)]
      rw [← Except.ok.inj h]; rfl

/-! ### header -/

theorem mustBe_ok {func : String} {expected : MustVal} {wrap : α → MustVal} {x : Py α} {a : α}
    (h : (mustBe func expected wrap x).res = .ok a) : x.res = .ok a := by
  unfold mustBe at h
  rw [bind_ok_iff] at h
  obtain ⟨a', h1, h2⟩ := h
  rw [h1]
  congr 1
  by_cases hw : wrap a' = expected
  · simp [hw] at h2; exact h2
  · simp [hw, warn] at h2; exact Except.ok.inj h2

theorem bytes_two {b : Bytes} {off : Nat} {x y : UInt8} (h : slice b off (off + 2) = [x, y]) :
    b[off]? = some x ∧ b[off + 1]? = some y := by
  unfold slice at h
  have h0 := congrArg (fun l : Bytes => l[0]?) h
  have h1 := congrArg (fun l : Bytes => l[1]?) h
  simp only [List.getElem?_drop, List.getElem?_take] at h0 h1
  simp at h0 h1
  exact ⟨h0, h1⟩

theorem hotKey_ok {raw : Bytes} {s : Str} (h : (LnkHeader.hotKey ⟨raw⟩).res = .ok s) :
    ∃ low high, raw[64]? = some low ∧ raw[65]? = some high ∧ s = hotKeyText low high := by
  unfold LnkHeader.hotKey at h
  dsimp only at h
  split at h
  swap
  · simp [raise] at h
  rename_i low high hs
  refine ⟨low, high, (bytes_two hs).1, (bytes_two hs).2, ?_⟩
  have hb : bytesHex [low, high] = hotKeyHex low high := by simp [bytesHex, hotKeyHex, byteHex_eq]
  rw [hs, hb] at h
  unfold hotKeyText
  rw [← LnkHeader.hotkeyHigh_lookup, ← LnkHeader.hotkeyLow_lookup]
  cases h1 : LnkHeader.HOTKEY_VALUES_HIGH.lookup high.toNat <;> cases h2 : LnkHeader.HOTKEY_VALUES_LOW.lookup low.toNat <;>
    rw [h1, h2] at h <;> exact (Except.ok.inj h).symm

theorem header_raw {raw : Bytes} {d : Dict} {f : LnkFile} (hf : f.header = ⟨raw⟩) (h : f.jsonHeader.res = .ok d) :
    Fits d (headerEntries raw) ∧ 76 ≤ raw.length := by
  unfold LnkFile.jsonHeader at h
  rw [hf] at h
  simp only [bind_ok_iff] at h
  obtain ⟨guid, h1, rlf, h2, rff, h3, ct, h4, at_, h5, wt, h6, fs, h7, ii, h8, ws, h9, hk, h10, rhk, h11, lf, h12, ff, h13, hs, h14,
    r0, h15, r1, h16, r2, h17, h18⟩ := h
  rw [← Except.ok.inj h18]
  refine ⟨?_, ?_⟩
  · refine ⟨rfl, guidAt (mustBe_ok h1), rfl, natAt (by omega) h2, rfl, natAt (by omega) h3, rfl, filetimeAt h4, rfl, filetimeAt h5, rfl,
      filetimeAt h6, rfl, natAt (by omega) h7, rfl, intAt (by omega) h8, rfl, ?_, rfl, ?_, rfl, natAt (by omega) h11, rfl, ?_, rfl, ?_,
      rfl, natAt (by omega) (mustBe_ok h14), rfl, natAt (by omega) (mustBe_ok h15), rfl, natAt (by omega) (mustBe_ok h16), rfl,
      natAt (by omega) (mustBe_ok h17), trivial⟩
    · unfold LnkHeader.windowStyle at h9
      rw [bind_ok_iff] at h9
      obtain ⟨i, h9, h9'⟩ := h9
      refine ⟨i, sAt_of (by omega) h9, ?_⟩
      rw [← Except.ok.inj h9', LnkHeader.windowStyles_lookup]
      rfl
    · obtain ⟨low, high, a, b, rfl⟩ := hotKey_ok h10
      exact ⟨low, high, a, b, rfl⟩
    · unfold LnkHeader.linkFlags at h12
      rw [bind_ok_iff] at h12
      obtain ⟨k, hk, h12⟩ := h12
      rw [← Except.ok.inj h12, linkFlagNames_eq]
      exact ⟨k, (uAt_iff_ok (by omega)).1 hk, rfl⟩
    · unfold LnkHeader.fileFlags at h13
      rw [bind_ok_iff] at h13
      obtain ⟨k, hk, h13⟩ := h13
      rw [← Except.ok.inj h13, fileFlagNames_eq]
      exact ⟨k, (uAt_iff_ok (by omega)).1 hk, rfl⟩
  · exact ExtraData.uAt_some_length ((uAt_iff_ok (by omega)).1 (mustBe_ok h17))

/-- The header of a report. -/
theorem header_values {f : LnkFile} {b : Bytes} {n : Nat} {d : Dict} (hf : f.header = ⟨b.take n⟩) (h : f.jsonHeader.res = .ok d) :
    Fits d (headerEntries b) := by
  obtain ⟨h1, h2⟩ := header_raw hf h
  have hn : 76 ≤ n := by simp only [List.length_take] at h2; omega
  have hu : ∀ k m, k + m ≤ 76 → 0 < m → uAt m (b.take n) k = uAt m b k := fun k m h h0 =>
    ExtraData.uAt_take _ _ _ _ h0 (by omega)
  have e : headerEntries (b.take n) = headerEntries b := by
    have hb : ∀ k, k + 16 ≤ 76 → between (b.take n) k (k + 16) = between b k (k + 16) := fun k h => between_take _ _ _ _ (by omega)
    have h64 : (b.take n)[64]? = b[64]? := List.getElem?_take_of_lt (by omega)
    have h65 : (b.take n)[65]? = b[65]? := List.getElem?_take_of_lt (by omega)
    unfold headerEntries NatAt IntAt GuidAt FiletimeAt BitsAt sAt
    simp only [h64, h65]
    repeat rw [hu _ _ (by omega) (by omega)]
    rw [hb _ (by omega)]
  rw [← e]
  exact h1

end Values

end Verif
