import Verif.Lemmas.Calendar
import Verif.Lemmas.Rounding
import Verif.Lemmas.Bytes
import Verif.Model.Utils

namespace Verif

open Spec

/-! ### instants and dates -/

/-- The number of microseconds of the years 1 to 9999. -/
def instantLimit : Nat := 3652059 * 86400000000

theorem daysOfYears_9999 : daysOfYears 9999 = 3652059 := by
  have := daysOfYears_eq 9999; omega

theorem instant_lt {t : DateTime} (h : ValidDateTime t) : instant t < instantLimit := by
  obtain ⟨⟨h1, h2⟩, ⟨h3, h4⟩, ⟨h5, h6⟩, h7, h8, h9, h10⟩ := h
  have hb := (dayNumber_bounds h1 h3 h4 h5 h6).2
  have hm := daysOfYears_mono h2
  rw [daysOfYears_9999] at hm
  unfold instant instantLimit
  omega

/-- The date-time of an instant. -/
def ofInstant (us : Nat) : DateTime :=
  let c := civilOfDay (us / 86400000000)
  let r := us % 86400000000
  ⟨c.1, c.2.1, c.2.2, r / 3600000000, r / 60000000 % 60, r / 1000000 % 60, r % 1000000⟩

theorem instant_ofInstant (us : Nat) : instant (ofInstant us) = us := by
  have h := (civilOfDay_spec (us / 86400000000)).2.2.2.2.2
  simp only [instant, ofInstant, h]
  omega

theorem ofInstant_instant {t : DateTime} (h : ValidDateTime t) : ofInstant (instant t) = t := by
  obtain ⟨⟨h1, h2⟩, ⟨h3, h4⟩, ⟨h5, h6⟩, h7, h8, h9, h10⟩ := h
  have hc := civilOfDay_dayNumber h1 h3 h4 h5 h6
  obtain ⟨y, m, d, hh, mi, s, us⟩ := t
  simp only at *
  have hd : instant ⟨y, m, d, hh, mi, s, us⟩ / 86400000000 = dayNumber y m d := by
    simp only [instant]; omega
  have hr : instant ⟨y, m, d, hh, mi, s, us⟩ % 86400000000 = ((hh * 60 + mi) * 60 + s) * 1000000 + us := by
    simp only [instant]; omega
  simp only [ofInstant, hd, hr, hc, DateTime.mk.injEq, true_and]
  refine ⟨?_, ?_, ?_, ?_⟩ <;> omega

theorem year_ofInstant_le (us : Nat) : (ofInstant us).year ≤ 9999 ↔ us < instantLimit := by
  obtain ⟨a1, a2, a3, a4, a5, a6⟩ := civilOfDay_spec (us / 86400000000)
  have hb := dayNumber_bounds a1 a2 a3 a4 a5
  rw [a6] at hb
  show (civilOfDay (us / 86400000000)).1 ≤ 9999 ↔ _
  generalize (civilOfDay (us / 86400000000)).1 = y at *
  unfold instantLimit
  have h9 := daysOfYears_9999
  constructor
  · intro h
    have := daysOfYears_mono h
    omega
  · intro h
    by_contra hc
    have := daysOfYears_mono (a := 9999) (b := y - 1) (by omega)
    omega

theorem valid_ofInstant {us : Nat} (h : us < instantLimit) : ValidDateTime (ofInstant us) := by
  obtain ⟨a1, a2, a3, a4, a5, a6⟩ := civilOfDay_spec (us / 86400000000)
  refine ⟨⟨a1, (year_ofInstant_le us).2 h⟩, ⟨a2, a3⟩, ⟨a4, a5⟩, ?_, ?_, ?_, ?_⟩ <;>
    simp only [ofInstant] <;> omega

theorem instant_inj {s t : DateTime} (hs : ValidDateTime s) (ht : ValidDateTime t) (h : instant s = instant t) :
    s = t := by
  rw [← ofInstant_instant hs, h, ofInstant_instant ht]

/-- The whole model of `fromtimestamp` in terms of instants. -/
theorem fromTimestamp_eq (x : ℚ) :
    fromTimestamp x =
      if 0 ≤ timestampMicros x + 62135596800000000 ∧ timestampMicros x + 62135596800000000 < (instantLimit : Int) then
        pure (ofInstant (timestampMicros x + 62135596800000000).toNat)
      else Py.raise .valueError := by
  have e : (epochDay : ℤ) * 86400000000 = 62135596800000000 := by decide
  unfold fromTimestamp
  simp only [e]
  generalize timestampMicros x + 62135596800000000 = t
  by_cases h0 : t < 0
  · rw [if_pos h0, if_neg (by omega)]
  · rw [if_neg h0]
    have hy := year_ofInstant_le t.toNat
    have hd : (ofInstant t.toNat).year = (civilOfDay (t.toNat / 86400000000)).1 := rfl
    rw [hd] at hy
    by_cases h1 : t < (instantLimit : Int)
    · rw [if_pos (by omega), if_pos ⟨by omega, h1⟩]; rfl
    · rw [if_neg (by omega), if_neg (by omega)]

/-! ### FILETIME -/

/-- The microseconds since 0001-01-01 that the code assigns to a FILETIME value. -/
def filetimeMicros (v : Int) : Int :=
  timestampMicros (toDouble (((v - epochAsFiletime : Int) : ℚ) / 10000000)) + 62135596800000000

theorem filetimeMicros_mono {v w : Int} (h : v ≤ w) : filetimeMicros v ≤ filetimeMicros w := by
  unfold filetimeMicros
  have : ((v - epochAsFiletime : Int) : ℚ) ≤ ((w - epochAsFiletime : Int) : ℚ) := by exact_mod_cast Int.sub_le_sub_right h _
  have := timestampMicros_mono (toDouble_mono (div_le_div_of_nonneg_right this (by norm_num : (0 : ℚ) ≤ 10000000)))
  omega

theorem parseFiletime_micros (v : Int64) :
    parseFiletime (leI 8 v.toInt) =
      if v = 0 then pure none
      else if 0 ≤ filetimeMicros v.toInt ∧ filetimeMicros v.toInt < (instantLimit : Int) then
        pure (some (ofInstant (filetimeMicros v.toInt).toNat))
      else ⟨[.invalidFiletime (leI 8 v.toInt)], .ok none⟩ := by
  unfold parseFiletime
  rw [unpackI_leI8]
  have hz : v.toInt = 0 ↔ v = 0 := by
    constructor
    · intro h; rw [← Int64.ofInt_toInt v, h]; rfl
    · rintro rfl; rfl
  by_cases h0 : v = 0
  · have h0' := hz.2 h0
    simp [h0]
  · have h0' : ¬ v.toInt = 0 := fun h => h0 (hz.1 h)
    simp only [pure_bind, h0, h0', if_false, fromTimestamp_eq]
    have hm : filetimeMicros v.toInt = timestampMicros (toDouble (((v.toInt - epochAsFiletime : Int) : ℚ) / 10000000))
      + 62135596800000000 := rfl
    rw [← hm]
    by_cases hr : 0 ≤ filetimeMicros v.toInt ∧ filetimeMicros v.toInt < (instantLimit : Int)
    · simp only [if_pos hr, pure_bind]; rfl
    · simp only [if_neg hr]
      rfl

/-- Distance from the exact instant, in microseconds, for a value whose distance from 1970 in seconds is below
`2^k`. -/
theorem filetimeMicros_err (v : Int) {k : ℤ} (h : |((v - epochAsFiletime : Int) : ℚ) / 10000000| < (2 : ℚ) ^ k) :
    |(filetimeMicros v : ℚ) - ((v : ℚ) / 10 + 50491123200000000)| ≤
      1 / 2 + (2 : ℚ) ^ (-34 : ℤ) + 1000000 * (2 : ℚ) ^ (k - 54) := by
  have h1 := toDouble_err h
  have h2 := timestampMicros_err (toDouble (((v - epochAsFiletime : Int) : ℚ) / 10000000))
  have e : (filetimeMicros v : ℚ) = timestampMicros (toDouble (((v - epochAsFiletime : Int) : ℚ) / 10000000))
      + 62135596800000000 := by
    unfold filetimeMicros; push_cast; ring
  rw [e]
  generalize (2 : ℚ) ^ (-34 : ℤ) = ε at *
  generalize (2 : ℚ) ^ (k - 54) = δ at *
  have ev : ((v - epochAsFiletime : Int) : ℚ) / 10000000 = (v : ℚ) / 10000000 - 11644473600 := by
    simp only [epochAsFiletime]; push_cast; ring
  rw [ev] at h1 h2 ⊢
  rw [abs_le] at *
  constructor <;> linarith [h1.1, h1.2, h2.1, h2.2]

/-- Whole seconds are exact. -/
theorem filetimeMicros_seconds {s : Int} (h : |s| < 2 ^ 53) :
    filetimeMicros (s * 10000000 + epochAsFiletime) = s * 1000000 + 62135596800000000 := by
  unfold filetimeMicros
  have e : ((s * 10000000 + epochAsFiletime - epochAsFiletime : Int) : ℚ) / 10000000 = (s : ℚ) := by
    push_cast; ring
  rw [e, toDouble_int h, timestampMicros_int]

/-! ### DOS date and time -/

theorem and_shift (n k m : Nat) : (n &&& m) >>> k = (n / 2 ^ k) &&& (m >>> k) := by
  rw [Nat.shiftRight_and_distrib, Nat.shiftRight_eq_div_pow]

theorem parseDostime_words (date time : Nat) (hd : date < 65536) (ht : time < 65536) :
    parseDostime (le 2 date ++ le 2 time) =
      if date = 0 ∧ time = 0 then pure none
      else
        let t : DateTime := ⟨1980 + date / 512, date / 32 % 16, date % 32, time / 2048, time / 32 % 64, time % 32 * 2, 0⟩
        if ValidDateTime t then pure (some t) else ⟨[.invalidDostime (le 2 date ++ le 2 time)], .ok none⟩ := by
  have hu : unpackU 4 (le 2 date ++ le 2 time) = pure (date + 65536 * time) := by
    have : le 2 date ++ le 2 time = le 4 (date + 65536 * time) := by
      simp only [le, List.cons_append, List.nil_append, List.cons.injEq, and_true]
      refine ⟨?_, ?_, ?_, ?_⟩ <;> apply UInt8.toNat_inj.mp <;> simp only [UInt8.toNat_ofNat'] <;> omega
    rw [this, unpackU_le (by omega)]
  unfold parseDostime
  rw [hu]
  generalize hb : le 2 date ++ le 2 time = b
  have e0 : (date + 65536 * time = 0) ↔ (date = 0 ∧ time = 0) := by omega
  have f (k w : Nat) : ((date + 65536 * time) &&& ((2 ^ w - 1) <<< k)) >>> k = (date + 65536 * time) / 2 ^ k % 2 ^ w := by
    rw [and_shift, Nat.shiftLeft_shiftRight, Nat.and_two_pow_sub_one_eq_mod]
  generalize hn : date + 65536 * time = n at *
  have f1 : (n &&& 0x0000FE00) >>> 9 = n / 512 % 128 := f 9 7
  have f2 : (n &&& 0x000001E0) >>> 5 = n / 32 % 16 := f 5 4
  have f3 : (n &&& 0x0000001F) >>> 0 = n / 1 % 32 := f 0 5
  have f4 : (n &&& 0xF8000000) >>> 27 = n / 134217728 % 32 := f 27 5
  have f5 : (n &&& 0x07E00000) >>> 21 = n / 2097152 % 64 := f 21 6
  have f6 : (n &&& 0x001F0000) >>> 16 = n / 65536 % 32 := f 16 5
  simp only [pure_bind, e0, f1, f2, f3, f4, f5, f6, Nat.div_one]
  have g1 : n / 512 % 128 + 1980 = 1980 + date / 512 := by omega
  have g2 : n / 32 % 16 = date / 32 % 16 := by omega
  have g3 : n % 32 = date % 32 := by omega
  have g4 : n / 134217728 % 32 = time / 2048 := by omega
  have g5 : n / 2097152 % 64 = time / 32 % 64 := by omega
  have g6 : n / 65536 % 32 = time % 32 := by omega
  by_cases hz : date = 0 ∧ time = 0
  · simp [hz]
  · simp only [hz, if_false]
    unfold mkDateTime
    simp only [g1, g2, g3, g4, g5, g6, valid_iff]
    generalize (⟨1980 + date / 512, date / 32 % 16, date % 32, time / 2048, time / 32 % 64, time % 32 * 2, 0⟩ : DateTime) = t
    by_cases hv : ValidDateTime t
    · simp [hv]
    · simp only [hv, if_false]; rfl

end Verif
