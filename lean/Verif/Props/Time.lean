import Verif.Lemmas.FileTime

/-
C06-C10: FILETIME and DOS time stamps.
-/

namespace Verif.Props

open Spec

theorem instant_newYear (y : Nat) : instant ⟨y, 1, 1, 0, 0, 0, 0⟩ = daysOfYears (y - 1) * 86400000000 := by
  simp only [instant, dayNumber, Nat.sub_self, List.take_zero, List.sum_nil]
  omega

theorem instant_1601 : instant ⟨1601, 1, 1, 0, 0, 0, 0⟩ = 50491123200000000 := by
  have h := daysOfYears_eq (1601 - 1)
  rw [instant_newYear]
  generalize daysOfYears (1601 - 1) = n at *
  omega

theorem filetime_eq (t : DateTime) : filetime t = (instant t : Int) * 10 - 504911232000000000 := by
  unfold filetime; rw [instant_1601]; push_cast; ring

/-- A FILETIME that is reported as a date lies in the years 1 to 9999, up to rounding. -/
theorem filetimeMicros_range {v : Int} (h0 : 0 ≤ filetimeMicros v) (h1 : filetimeMicros v < (instantLimit : Int)) :
    -504911232010000000 < v ∧ v < 2650467744000000000 := by
  constructor
  · by_contra hc
    have := filetimeMicros_mono (v := v) (w := -62135596801 * 10000000 + epochAsFiletime)
      (by simp only [epochAsFiletime]; omega)
    rw [filetimeMicros_seconds (by decide)] at this
    omega
  · by_contra hc
    have := filetimeMicros_mono (v := 253402300800 * 10000000 + epochAsFiletime) (w := v)
      (by simp only [epochAsFiletime]; omega)
    rw [filetimeMicros_seconds (by decide)] at this
    unfold instantLimit at h1
    omega

/-- What a successful conversion says. -/
theorem parseFiletime_some {v : Int64} {d : DateTime} (h : (parseFiletime (leI 8 v.toInt)).Returns (some d)) :
    v ≠ 0 ∧ ValidDateTime d ∧ filetimeMicros v.toInt = instant d ∧
      parseFiletime (leI 8 v.toInt) = pure (some d) := by
  rw [parseFiletime_micros] at h ⊢
  unfold Py.Returns at h
  by_cases h0 : v = 0
  · simp [h0] at h
  · rw [if_neg h0] at h ⊢
    by_cases hr : 0 ≤ filetimeMicros v.toInt ∧ filetimeMicros v.toInt < (instantLimit : Int)
    · rw [if_pos hr] at h ⊢
      simp only [Py.pure_res, Except.ok.injEq, Option.some.injEq] at h
      subst h
      refine ⟨h0, valid_ofInstant (by omega), ?_, rfl⟩
      rw [instant_ofInstant]; omega
    · rw [if_neg hr] at h
      simp at h

/-! ### C06 -/

/-- C06: every UTC date-time with whole seconds in the years 1 to 9999 except the FILETIME origin is read back
exactly, without warnings. -/
theorem filetime_seconds_exact (d : DateTime) (hv : ValidDateTime d) (hs : d.microsecond = 0)
    (hne : d ≠ ⟨1601, 1, 1, 0, 0, 0, 0⟩) : parseFiletime (leI 8 (filetime d)) = pure (some d) := by
  have hlt := instant_lt hv
  have hm : ∃ k : Nat, instant d = k * 1000000 := ⟨_, by unfold instant; rw [hs, Nat.add_zero]⟩
  obtain ⟨k, hk⟩ := hm
  unfold instantLimit at hlt
  have hft : filetime d = ((k : Int) - 62135596800) * 10000000 + epochAsFiletime := by
    rw [filetime_eq, hk, epochAsFiletime]; push_cast; ring
  have hmic : filetimeMicros (filetime d) = instant d := by
    rw [hft, filetimeMicros_seconds, hk]
    · push_cast; ring
    · rw [abs_lt]; constructor <;> norm_num <;> omega
  have hfe := filetime_eq d
  have hi : (Int64.ofInt (filetime d)).toInt = filetime d :=
    Int64.toInt_ofInt_of_le (by omega) (by omega)
  have hz : Int64.ofInt (filetime d) ≠ 0 := by
    intro h
    rw [h] at hi
    apply hne
    apply instant_inj hv (by decide)
    rw [instant_1601]
    have : (0 : Int64).toInt = 0 := rfl
    omega
  have := parseFiletime_micros (Int64.ofInt (filetime d))
  rw [hi, hmic, if_neg hz, if_pos (by unfold instantLimit; omega)] at this
  rw [this, Int.toNat_natCast, ofInstant_instant hv]

/-- The FILETIME origin itself is the "not set" value. -/
theorem filetime_zero : parseFiletime (leI 8 (filetime ⟨1601, 1, 1, 0, 0, 0, 0⟩)) = pure none := by
  have : filetime ⟨1601, 1, 1, 0, 0, 0, 0⟩ = (0 : Int64).toInt := by simp [filetime]
  rw [this, parseFiletime_micros]; rfl

/-- 2009-07-14T04:34:12 UTC. -/
example : parseFiletime [0x00, 0xBA, 0xF2, 0x55, 0x3C, 0x04, 0xCA, 0x01] = pure (some ⟨2009, 7, 14, 4, 34, 12, 0⟩) := by
  have h := filetime_seconds_exact ⟨2009, 7, 14, 4, 34, 12, 0⟩ (by decide) rfl (by decide)
  have e : leI 8 (filetime ⟨2009, 7, 14, 4, 34, 12, 0⟩) = [0x00, 0xBA, 0xF2, 0x55, 0x3C, 0x04, 0xCA, 0x01] := by
    rw [filetime_eq]
    have : daysOfYears 2008 = 733407 := by have := daysOfYears_eq 2008; omega
    have : instant ⟨2009, 7, 14, 4, 34, 12, 0⟩ = 63383142852000000 := by
      simp only [instant, dayNumber, Nat.reduceSub, this]; decide
    rw [this]; decide +kernel
  rw [← e]; exact h

/-! ### C07 -/

/-- C07: a reported date-time is within 16 microseconds (160 ticks of 100ns) of the encoded instant. -/
theorem filetime_error (v : Int64) (d : DateTime) (h : (parseFiletime (leI 8 v.toInt)).Returns (some d)) :
    |filetime d - v.toInt| ≤ 160 := by
  obtain ⟨_, hd, hm, _⟩ := parseFiletime_some h
  have hlt := instant_lt hd
  have hr := filetimeMicros_range (v := v.toInt) (by omega) (by omega)
  have he := filetimeMicros_err v.toInt (k := 38) (by
    rw [abs_div, div_lt_iff₀ (by norm_num), ← Int.cast_abs]
    have : |v.toInt - epochAsFiletime| < 274877906944 * 10000000 := by
      rw [abs_lt, epochAsFiletime]; omega
    norm_num
    exact_mod_cast this)
  rw [hm] at he
  norm_num at he
  rw [filetime_eq]
  generalize instant d = n at *
  generalize v.toInt = m at *
  have : |((n : Int) * 10 - 504911232000000000 - m : ℚ)| ≤ 160 := by
    push_cast
    rw [abs_le] at he ⊢
    constructor <;> linarith [he.1, he.2]
  exact_mod_cast this

/-- C07: for instants within 2^32 seconds of 1970-01-01 (about 1833 to 2106) the error is at most one
microsecond (10 ticks). -/
theorem filetime_error_near (v : Int64) (d : DateTime) (h : (parseFiletime (leI 8 v.toInt)).Returns (some d))
    (hn : |v.toInt - filetime ⟨1970, 1, 1, 0, 0, 0, 0⟩| < 2 ^ 32 * 10000000) : |filetime d - v.toInt| ≤ 10 := by
  obtain ⟨_, hd, hm, _⟩ := parseFiletime_some h
  have e70 : filetime ⟨1970, 1, 1, 0, 0, 0, 0⟩ = epochAsFiletime := by
    rw [filetime_eq]
    have h := daysOfYears_eq (1970 - 1)
    rw [instant_newYear, epochAsFiletime]
    generalize daysOfYears (1970 - 1) = n at *
    omega
  rw [e70] at hn
  have he := filetimeMicros_err v.toInt (k := 32) (by
    rw [abs_div, div_lt_iff₀ (by norm_num), ← Int.cast_abs]
    norm_num at hn ⊢
    exact_mod_cast hn)
  rw [hm] at he
  norm_num at he
  rw [filetime_eq]
  generalize instant d = n at *
  generalize v.toInt = m at *
  have : |((n : Int) * 10 - 504911232000000000 - m : ℚ)| ≤ 10 := by
    push_cast
    rw [abs_le] at he ⊢
    constructor <;> linarith [he.1, he.2]
  exact_mod_cast this

/-! ### C08 -/

/-- C08: the conversion preserves order. -/
theorem filetime_monotone (v w : Int64) (d e : DateTime) (hv : (parseFiletime (leI 8 v.toInt)).Returns (some d))
    (hw : (parseFiletime (leI 8 w.toInt)).Returns (some e)) (h : v ≤ w) : instant d ≤ instant e := by
  obtain ⟨_, _, h1, _⟩ := parseFiletime_some hv
  obtain ⟨_, _, h2, _⟩ := parseFiletime_some hw
  have := filetimeMicros_mono (Int64.le_iff_toInt_le.mp h)
  omega

/-! ### C09 -/

/-- C09: eight bytes never raise: the answer is "not set", a valid date-time without warning, or nothing with
exactly one warning that quotes the bytes. -/
theorem filetime_total (b : Bytes) (h : b.length = 8) :
    (b = List.replicate 8 0 ∧ parseFiletime b = pure none) ∨
      (b ≠ List.replicate 8 0 ∧ ∃ d, ValidDateTime d ∧ parseFiletime b = pure (some d)) ∨
      (b ≠ List.replicate 8 0 ∧ parseFiletime b = ⟨[.invalidFiletime b], .ok none⟩) := by
  obtain ⟨v, rfl⟩ := leI8_surj h
  have hz : leI 8 v.toInt = List.replicate 8 0 ↔ v = 0 := by
    constructor
    · intro hh
      have h1 := unpackI_leI8 v
      rw [hh] at h1
      have h2 : unpackI 8 (List.replicate 8 0) = pure 0 := rfl
      rw [h2] at h1
      have h3 : (pure (0 : Int) : Py Int).res = (pure v.toInt : Py Int).res := by rw [h1]
      simp only [Py.pure_res, Except.ok.injEq] at h3
      rw [← Int64.ofInt_toInt v, ← h3]; rfl
    · rintro rfl; decide
  rw [ne_eq, hz, parseFiletime_micros]
  by_cases h0 : v = 0
  · left; simp [h0]
  · right
    rw [if_neg h0]
    by_cases hr : 0 ≤ filetimeMicros v.toInt ∧ filetimeMicros v.toInt < (instantLimit : Int)
    · left; rw [if_pos hr]; exact ⟨h0, _, valid_ofInstant (by omega), rfl⟩
    · right; rw [if_neg hr]; exact ⟨h0, rfl⟩

/-- C09: every instant from the first to the last whole second of the years 1 to 9999 is reported. -/
theorem filetime_reported (v : Int64) (h0 : v ≠ 0) (h1 : filetime ⟨1, 1, 1, 0, 0, 0, 0⟩ ≤ v.toInt)
    (h2 : v.toInt ≤ filetime ⟨9999, 12, 31, 23, 59, 59, 0⟩) :
    ∃ d, ValidDateTime d ∧ parseFiletime (leI 8 v.toInt) = pure (some d) := by
  have e1 : filetime ⟨1, 1, 1, 0, 0, 0, 0⟩ = -62135596800 * 10000000 + epochAsFiletime := by
    rw [filetime_eq]; decide
  have e2 : filetime ⟨9999, 12, 31, 23, 59, 59, 0⟩ = 253402300799 * 10000000 + epochAsFiletime := by
    rw [filetime_eq]
    have h := daysOfYears_eq 9998
    have : ((monthLengths 9999).take 11).sum = 334 := by decide
    simp only [instant, dayNumber, Nat.reduceSub, this, epochAsFiletime]
    omega
  rw [e1] at h1; rw [e2] at h2
  have m1 := filetimeMicros_mono h1
  have m2 := filetimeMicros_mono h2
  rw [filetimeMicros_seconds (by decide)] at m1 m2
  rw [parseFiletime_micros, if_neg h0, if_pos (by unfold instantLimit; omega)]
  exact ⟨_, valid_ofInstant (by unfold instantLimit; omega), rfl⟩

/-- A number of 100ns units that is no whole number of microseconds. -/
example : ∃ d, ValidDateTime d ∧ parseFiletime (leI 8 128920880521234567) = pure (some d) :=
  filetime_reported 128920880521234567 (by decide) (by decide +kernel) (by decide +kernel)

/-- C09: instants from the year 10000 on, and instants 16 microseconds or more before the year 1, are rejected
with a warning. -/
theorem filetime_rejected (v : Int64)
    (h : filetime ⟨9999, 12, 31, 23, 59, 59, 0⟩ + 10000000 ≤ v.toInt ∨
      v.toInt < filetime ⟨1, 1, 1, 0, 0, 0, 0⟩ - 160) :
    parseFiletime (leI 8 v.toInt) = ⟨[.invalidFiletime (leI 8 v.toInt)], .ok none⟩ := by
  have e1 : filetime ⟨1, 1, 1, 0, 0, 0, 0⟩ = -504911232000000000 := by
    rw [filetime_eq]; decide
  have e2 : filetime ⟨9999, 12, 31, 23, 59, 59, 0⟩ = 2650467743990000000 := by
    rw [filetime_eq]
    have h := daysOfYears_eq 9998
    have : ((monthLengths 9999).take 11).sum = 334 := by decide
    simp only [instant, dayNumber, Nat.reduceSub, this]
    omega
  rw [e1, e2] at h
  have h0 : v ≠ 0 := by
    rintro rfl
    have : (0 : Int64).toInt = 0 := rfl
    omega
  rw [parseFiletime_micros, if_neg h0]
  by_cases hr : 0 ≤ filetimeMicros v.toInt ∧ filetimeMicros v.toInt < (instantLimit : Int)
  · exfalso
    have hr' := filetimeMicros_range hr.1 hr.2
    have hp : (parseFiletime (leI 8 v.toInt)).Returns (some (ofInstant (filetimeMicros v.toInt).toNat)) := by
      rw [parseFiletime_micros, if_neg h0, if_pos hr]; rfl
    have he := filetime_error v _ hp
    rw [filetime_eq, abs_le] at he
    omega
  · rw [if_neg hr]

/-- The largest FILETIME, in the year 30828. -/
example : parseFiletime [0xFF, 0xFF, 0xFF, 0xFF, 0xFF, 0xFF, 0xFF, 0x7F] =
    ⟨[.invalidFiletime [0xFF, 0xFF, 0xFF, 0xFF, 0xFF, 0xFF, 0xFF, 0x7F]], .ok none⟩ :=
  filetime_rejected 0x7FFFFFFFFFFFFFFF (.inl (by decide +kernel))

/-- C09: any other length raises `struct.error`. -/
theorem filetime_wrong_length (b : Bytes) (h : b.length ≠ 8) : parseFiletime b = Py.raise .structError := by
  simp [parseFiletime, unpackI, h, Py.tryExcept_raise, PyErr.isValueError]

example : parseFiletime [1, 2, 3] = Py.raise .structError := filetime_wrong_length _ (by decide)

/-- FILETIME is read as a signed number: a value with the top bit set is never reported as a date after
1601-01-01T00:00:00, although [MS-DTYP] places it after the year 30000. -/
theorem filetime_signed (v : Int64) (hv : v < 0) (d : DateTime)
    (h : (parseFiletime (leI 8 v.toInt)).Returns (some d)) : instant d ≤ instant ⟨1601, 1, 1, 0, 0, 0, 0⟩ := by
  obtain ⟨_, _, h1, _⟩ := parseFiletime_some h
  have hv' : v.toInt < 0 := Int64.lt_iff_toInt_lt.mp hv
  have := filetimeMicros_mono (v := v.toInt) (w := -11644473600 * 10000000 + epochAsFiletime)
    (by simp only [epochAsFiletime]; omega)
  rw [filetimeMicros_seconds (by decide)] at this
  rw [instant_1601]
  omega

/-! ### C10 -/

/-- C10: a DOS date and time word, date word first: nothing for zero, the packed date-time if it is one,
otherwise nothing and one warning quoting the bytes. -/
theorem dostime_total (b : Bytes) (h : b.length = 4) :
    ∃ date time, uAt 2 b 0 = some date ∧ uAt 2 b 2 = some time ∧
      parseDostime b =
        if date = 0 ∧ time = 0 then pure none
        else
          let t : DateTime :=
            ⟨1980 + date / 512, date / 32 % 16, date % 32, time / 2048, time / 32 % 64, time % 32 * 2, 0⟩
          if ValidDateTime t then pure (some t) else ⟨[.invalidDostime b], .ok none⟩ := by
  obtain ⟨date, hd⟩ := le2_surj (b := b.take 2) (by simp [h])
  obtain ⟨time, ht⟩ := le2_surj (b := b.drop 2) (by simp [h])
  have e : b = le 2 date.toNat ++ le 2 time.toNat := by rw [hd, ht, List.take_append_drop]
  have l1 := date.toNat_lt
  have l2 := time.toNat_lt
  subst e
  refine ⟨date.toNat, time.toNat, ?_, ?_, parseDostime_words _ _ l1 l2⟩
  · have := uAt_le (n := 2) l1 [] (le 2 time.toNat)
    simpa using this
  · have := uAt_le (n := 2) l2 (le 2 date.toNat) []
    simpa using this

/-- C10: every date-time of the years 1980 to 2107 with an even number of seconds is read back exactly. -/
theorem dostime_roundtrip (d : DateTime) (hv : ValidDateTime d) (hy : 1980 ≤ d.year) (hy' : d.year ≤ 2107)
    (he : d.second % 2 = 0) (hm : d.microsecond = 0) : parseDostime (dosEncode d) = pure (some d) := by
  obtain ⟨⟨h1, h2⟩, ⟨h3, h4⟩, ⟨h5, h6⟩, h7, h8, h9, h10⟩ := id hv
  have h31 : d.day ≤ 31 := by
    refine Nat.le_trans h6 ?_
    have : d.month = 1 ∨ d.month = 2 ∨ d.month = 3 ∨ d.month = 4 ∨ d.month = 5 ∨ d.month = 6 ∨ d.month = 7 ∨
      d.month = 8 ∨ d.month = 9 ∨ d.month = 10 ∨ d.month = 11 ∨ d.month = 12 := by omega
    unfold monthLengths
    rcases this with h | h | h | h | h | h | h | h | h | h | h | h <;> rw [h] <;> simp
    split <;> omega
  unfold dosEncode
  rw [parseDostime_words _ _ (by omega) (by omega), if_neg (by omega)]
  have e : (⟨1980 + ((d.year - 1980) * 512 + d.month * 32 + d.day) / 512,
      ((d.year - 1980) * 512 + d.month * 32 + d.day) / 32 % 16, ((d.year - 1980) * 512 + d.month * 32 + d.day) % 32,
      (d.hour * 2048 + d.minute * 32 + d.second / 2) / 2048, (d.hour * 2048 + d.minute * 32 + d.second / 2) / 32 % 64,
      (d.hour * 2048 + d.minute * 32 + d.second / 2) % 32 * 2, 0⟩ : DateTime) = d := by
    obtain ⟨y, m, dd, h, mi, s, us⟩ := d
    simp only at *
    simp only [DateTime.mk.injEq]
    refine ⟨?_, ?_, ?_, ?_, ?_, ?_, ?_⟩ <;> omega
  simp only [e, hv, if_true]

/-- C10: any other length raises `struct.error`. -/
theorem dostime_wrong_length (b : Bytes) (h : b.length ≠ 4) : parseDostime b = Py.raise .structError := by
  simp [parseDostime, unpackU, h, Py.tryExcept_raise, PyErr.isValueError]

example : parseDostime [1, 2, 3, 4, 5] = Py.raise .structError := dostime_wrong_length _ (by decide)

/-- 2008-09-12T20:27:18. -/
example : parseDostime [0x2C, 0x39, 0x69, 0xA3] = pure (some ⟨2008, 9, 12, 20, 27, 18, 0⟩) := by
  have h := dostime_roundtrip ⟨2008, 9, 12, 20, 27, 18, 0⟩ (by decide) (by decide) (by decide) rfl rfl
  have e : dosEncode ⟨2008, 9, 12, 20, 27, 18, 0⟩ = [0x2C, 0x39, 0x69, 0xA3] := by decide
  rw [← e]; exact h

/-- Month 15 is not a date. -/
example : parseDostime [0xE1, 0x01, 0, 0] = ⟨[.invalidDostime [0xE1, 0x01, 0, 0]], .ok none⟩ := by
  have h := parseDostime_words 0x1E1 0 (by decide) (by decide)
  rw [if_neg (by decide), if_neg (by decide)] at h
  exact h

end Verif.Props
