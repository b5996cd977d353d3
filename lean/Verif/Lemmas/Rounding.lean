import Verif.Py.DateTime
import Mathlib.Tactic.Linarith
import Mathlib.Tactic.NormNum
import Mathlib.Tactic.Positivity
import Mathlib.Tactic.FieldSimp
import Mathlib.Tactic.Ring

namespace Verif

/-! ### round half to even -/

theorem rhe_cases (q : ℚ) : roundHalfEven q = ⌊q⌋ ∨ roundHalfEven q = ⌊q⌋ + 1 := by
  unfold roundHalfEven; split
  · left; rfl
  · split
    · right; rfl
    · split
      · left; rfl
      · right; rfl

theorem rhe_err (q : ℚ) : |(roundHalfEven q : ℚ) - q| ≤ 1 / 2 := by
  have h1 := Int.floor_le q
  have h2 := Int.lt_floor_add_one q
  unfold roundHalfEven
  rw [abs_le]
  split
  · constructor <;> linarith
  · split
    · push_cast; constructor <;> linarith
    · split
      · constructor <;> linarith
      · push_cast; constructor <;> linarith

theorem rhe_int (n : ℤ) : roundHalfEven (n : ℚ) = n := by
  unfold roundHalfEven; simp

theorem rhe_mono {a b : ℚ} (h : a ≤ b) : roundHalfEven a ≤ roundHalfEven b := by
  rcases lt_or_eq_of_le (Int.floor_le_floor h) with hf | hf
  · have h1 := rhe_cases a
    have h2 := rhe_cases b
    omega
  · unfold roundHalfEven
    rw [hf]
    have : a - (⌊b⌋ : ℚ) ≤ b - ⌊b⌋ := by linarith
    by_cases b1 : b - (⌊b⌋ : ℚ) < 1 / 2
    · have a1 : a - (⌊b⌋ : ℚ) < 1 / 2 := lt_of_le_of_lt this b1
      simp only [a1, b1, if_true]; exact le_refl _
    · by_cases a1 : a - (⌊b⌋ : ℚ) < 1 / 2
      · simp only [a1, b1, if_true, if_false]; split
        · omega
        · split <;> omega
      · by_cases b2 : 1 / 2 < b - (⌊b⌋ : ℚ)
        · simp only [a1, b1, b2, if_true, if_false]; split
          · omega
          · split <;> omega
        · have a2 : ¬ 1 / 2 < a - (⌊b⌋ : ℚ) := fun h => b2 (lt_of_lt_of_le h this)
          simp only [a1, a2, b1, b2, if_false]; exact le_refl _

/-! ### binary64 -/

theorem ulp_pos (q : ℚ) : 0 < ulp q := by unfold ulp; exact zpow_pos (by norm_num) _

theorem toDouble_zero : toDouble 0 = 0 := by simp [toDouble]

theorem toDouble_ne {q : ℚ} (h : q ≠ 0) : toDouble q = roundHalfEven (q / ulp q) * ulp q := by
  simp [toDouble, h]

/-- The rounding error is at most half the spacing. -/
theorem toDouble_err_ulp (q : ℚ) : |toDouble q - q| ≤ ulp q / 2 := by
  by_cases h : q = 0
  · subst h; simp only [toDouble_zero, sub_zero, abs_zero]
    have := ulp_pos 0; linarith
  · rw [toDouble_ne h]
    have hu := ulp_pos q
    have h1 := rhe_err (q / ulp q)
    have h2 : (roundHalfEven (q / ulp q) : ℚ) * ulp q - q
        = ((roundHalfEven (q / ulp q) : ℚ) - q / ulp q) * ulp q := by
      field_simp
    rw [h2, abs_mul, abs_of_pos hu]
    nlinarith

theorem ulp_le {q : ℚ} (h0 : q ≠ 0) {k : ℤ} (h : |q| < (2 : ℚ) ^ k) : ulp q ≤ (2 : ℚ) ^ (k - 53) := by
  unfold ulp
  apply zpow_le_zpow_right₀ (by norm_num)
  have h1 : Int.log 2 |q| < k := by
    rw [← Int.lt_zpow_iff_log_lt (by norm_num) (abs_pos.mpr h0)]
    exact_mod_cast h
  omega

theorem toDouble_err {q : ℚ} {k : ℤ} (h : |q| < (2 : ℚ) ^ k) : |toDouble q - q| ≤ (2 : ℚ) ^ (k - 54) := by
  by_cases h0 : q = 0
  · subst h0; simp only [toDouble_zero, sub_zero, abs_zero]; exact (zpow_pos (by norm_num) _).le
  · have h1 := toDouble_err_ulp q
    have h2 := ulp_le h0 h
    have h3 : (2 : ℚ) ^ (k - 53) = 2 * (2 : ℚ) ^ (k - 54) := by
      rw [show k - 53 = 1 + (k - 54) by ring, zpow_add₀ (by norm_num), zpow_one]
    linarith

/-- Integers up to 2^53 are binary64 numbers. -/
theorem toDouble_int {n : ℤ} (h : |n| < 2 ^ 53) : toDouble (n : ℚ) = n := by
  by_cases h0 : n = 0
  · subst h0; simp [toDouble_zero]
  have hq : (n : ℚ) ≠ 0 := by exact_mod_cast h0
  rw [toDouble_ne hq]
  have hlog : Int.log 2 |(n : ℚ)| < 53 := by
    rw [← Int.lt_zpow_iff_log_lt (by norm_num) (abs_pos.mpr hq)]
    have : |(n : ℚ)| < (2 : ℚ) ^ (53 : ℕ) := by exact_mod_cast h
    exact_mod_cast this
  obtain ⟨m, hm⟩ : ∃ m : ℕ, 52 - Int.log 2 |(n : ℚ)| = m := Int.eq_ofNat_of_zero_le (by omega)
  have hu : (n : ℚ) / ulp (n : ℚ) = ((n * 2 ^ m : ℤ) : ℚ) := by
    unfold ulp
    rw [show Int.log 2 |(n : ℚ)| - 52 = -(m : ℤ) by omega, zpow_neg, div_inv_eq_mul]
    push_cast; rfl
  rw [hu, rhe_int, ← hu, div_mul_cancel₀]
  exact (ulp_pos _).ne'

/-- Rounding stays within the binade. -/
theorem toDouble_pos_bounds {q : ℚ} (h : 0 < q) :
    (2 : ℚ) ^ Int.log 2 q ≤ toDouble q ∧ toDouble q ≤ (2 : ℚ) ^ (Int.log 2 q + 1) := by
  have hq : q ≠ 0 := h.ne'
  have hu := ulp_pos q
  have e : ulp q = (2 : ℚ) ^ (Int.log 2 q - 52) := by unfold ulp; rw [abs_of_pos h]
  have h1 : (2 : ℚ) ^ Int.log 2 q ≤ q := by exact_mod_cast Int.zpow_log_le_self (by norm_num) h
  have h2 : q ≤ (2 : ℚ) ^ (Int.log 2 q + 1) := by
    have := Int.lt_zpow_succ_log_self (R := ℚ) (b := 2) (by norm_num) q
    exact le_of_lt (by exact_mod_cast this)
  have e1 : (2 : ℚ) ^ Int.log 2 q = ((2 ^ 52 : ℤ) : ℚ) * ulp q := by
    rw [e]; push_cast
    rw [show Int.log 2 q = 52 + (Int.log 2 q - 52) by ring, zpow_add₀ (by norm_num)]
    norm_num
  have e2 : (2 : ℚ) ^ (Int.log 2 q + 1) = ((2 ^ 53 : ℤ) : ℚ) * ulp q := by
    rw [e]; push_cast
    rw [show Int.log 2 q + 1 = 53 + (Int.log 2 q - 52) by ring, zpow_add₀ (by norm_num)]
    norm_num
  rw [toDouble_ne hq]
  constructor
  · rw [e1]
    apply mul_le_mul_of_nonneg_right _ hu.le
    have : roundHalfEven ((2 ^ 52 : ℤ) : ℚ) ≤ roundHalfEven (q / ulp q) := by
      apply rhe_mono
      rw [le_div_iff₀ hu, ← e1]; exact h1
    rw [rhe_int] at this
    exact_mod_cast this
  · rw [e2]
    apply mul_le_mul_of_nonneg_right _ hu.le
    have : roundHalfEven (q / ulp q) ≤ roundHalfEven ((2 ^ 53 : ℤ) : ℚ) := by
      apply rhe_mono
      rw [div_le_iff₀ hu, ← e2]; exact h2
    rw [rhe_int] at this
    exact_mod_cast this

theorem toDouble_neg_bounds {q : ℚ} (h : q < 0) :
    -(2 : ℚ) ^ (Int.log 2 (-q) + 1) ≤ toDouble q ∧ toDouble q ≤ -(2 : ℚ) ^ Int.log 2 (-q) := by
  have hq : q ≠ 0 := h.ne
  have hp : 0 < -q := by linarith
  have hu := ulp_pos q
  have e : ulp q = (2 : ℚ) ^ (Int.log 2 (-q) - 52) := by unfold ulp; rw [abs_of_neg h]
  have h1 : (2 : ℚ) ^ Int.log 2 (-q) ≤ -q := by exact_mod_cast Int.zpow_log_le_self (by norm_num) hp
  have h2 : -q ≤ (2 : ℚ) ^ (Int.log 2 (-q) + 1) := by
    have := Int.lt_zpow_succ_log_self (R := ℚ) (b := 2) (by norm_num) (-q)
    exact le_of_lt (by exact_mod_cast this)
  have e1 : -(2 : ℚ) ^ Int.log 2 (-q) = ((-2 ^ 52 : ℤ) : ℚ) * ulp q := by
    rw [e]; push_cast
    rw [show Int.log 2 (-q) = 52 + (Int.log 2 (-q) - 52) by ring, zpow_add₀ (by norm_num)]
    norm_num
  have e2 : -(2 : ℚ) ^ (Int.log 2 (-q) + 1) = ((-2 ^ 53 : ℤ) : ℚ) * ulp q := by
    rw [e]; push_cast
    rw [show Int.log 2 (-q) + 1 = 53 + (Int.log 2 (-q) - 52) by ring, zpow_add₀ (by norm_num)]
    norm_num
  rw [toDouble_ne hq]
  constructor
  · rw [e2]
    apply mul_le_mul_of_nonneg_right _ hu.le
    have : roundHalfEven ((-2 ^ 53 : ℤ) : ℚ) ≤ roundHalfEven (q / ulp q) := by
      apply rhe_mono
      rw [le_div_iff₀ hu, ← e2]; linarith
    rw [rhe_int] at this
    exact_mod_cast this
  · rw [e1]
    apply mul_le_mul_of_nonneg_right _ hu.le
    have : roundHalfEven (q / ulp q) ≤ roundHalfEven ((-2 ^ 52 : ℤ) : ℚ) := by
      apply rhe_mono
      rw [div_le_iff₀ hu, ← e1]; linarith
    rw [rhe_int] at this
    exact_mod_cast this

theorem toDouble_mono {a b : ℚ} (h : a ≤ b) : toDouble a ≤ toDouble b := by
  rcases lt_trichotomy a 0 with ha | ha | ha
  · rcases lt_trichotomy b 0 with hb | hb | hb
    · -- both negative
      have hlog : Int.log 2 (-b) ≤ Int.log 2 (-a) := Int.log_mono_right (by linarith) (by linarith)
      rcases lt_or_eq_of_le hlog with hl | hl
      · have h1 := (toDouble_neg_bounds ha).2
        have h2 := (toDouble_neg_bounds hb).1
        have h3 : (2 : ℚ) ^ (Int.log 2 (-b) + 1) ≤ (2 : ℚ) ^ Int.log 2 (-a) :=
          zpow_le_zpow_right₀ (by norm_num) (by omega)
        linarith
      · have e : ulp a = ulp b := by
          unfold ulp; rw [abs_of_neg ha, abs_of_neg hb, hl]
        rw [toDouble_ne ha.ne, toDouble_ne hb.ne, e]
        apply mul_le_mul_of_nonneg_right _ (ulp_pos b).le
        have := rhe_mono (div_le_div_of_nonneg_right h (ulp_pos b).le)
        exact_mod_cast this
    · subst hb
      have h1 := (toDouble_neg_bounds ha).2
      have : (0 : ℚ) < (2 : ℚ) ^ Int.log 2 (-a) := zpow_pos (by norm_num) _
      rw [toDouble_zero]; linarith
    · have h1 := (toDouble_neg_bounds ha).2
      have h2 := (toDouble_pos_bounds hb).1
      have : (0 : ℚ) < (2 : ℚ) ^ Int.log 2 (-a) := zpow_pos (by norm_num) _
      have : (0 : ℚ) < (2 : ℚ) ^ Int.log 2 b := zpow_pos (by norm_num) _
      linarith
  · subst ha
    rw [toDouble_zero]
    rcases eq_or_lt_of_le h with hb | hb
    · rw [← hb, toDouble_zero]
    · have h2 := (toDouble_pos_bounds hb).1
      have : (0 : ℚ) < (2 : ℚ) ^ Int.log 2 b := zpow_pos (by norm_num) _
      linarith
  · have hb : 0 < b := by linarith
    have hlog : Int.log 2 a ≤ Int.log 2 b := Int.log_mono_right ha h
    rcases lt_or_eq_of_le hlog with hl | hl
    · have h1 := (toDouble_pos_bounds ha).2
      have h2 := (toDouble_pos_bounds hb).1
      have h3 : (2 : ℚ) ^ (Int.log 2 a + 1) ≤ (2 : ℚ) ^ Int.log 2 b :=
        zpow_le_zpow_right₀ (by norm_num) (by omega)
      linarith
    · have e : ulp a = ulp b := by
        unfold ulp; rw [abs_of_pos ha, abs_of_pos hb, hl]
      rw [toDouble_ne ha.ne', toDouble_ne hb.ne', e]
      apply mul_le_mul_of_nonneg_right _ (ulp_pos b).le
      have := rhe_mono (div_le_div_of_nonneg_right h (ulp_pos b).le)
      exact_mod_cast this

/-! ### microseconds -/

/-- The rounded microseconds of a fraction. -/
def fracMicros (x : ℚ) : ℤ := roundHalfEven (toDouble (x * 1000000))

theorem fracMicros_mono {a b : ℚ} (h : a ≤ b) : fracMicros a ≤ fracMicros b :=
  rhe_mono (toDouble_mono (by linarith))

theorem fracMicros_int (n : ℤ) (h : |n| ≤ 1000) : fracMicros n = n * 1000000 := by
  unfold fracMicros
  have e : (n : ℚ) * 1000000 = ((n * 1000000 : ℤ) : ℚ) := by push_cast; rfl
  rw [e, toDouble_int, rhe_int]
  rw [abs_mul]
  have : |(1000000 : ℤ)| = 1000000 := rfl
  rw [this]; norm_num; linarith

theorem timestampMicros_eq (x : ℚ) : timestampMicros x = truncate x * 1000000 + fracMicros (x - truncate x) := rfl

theorem micros_nonneg_bounds {x : ℚ} (h : 0 ≤ x) :
    ⌊x⌋ * 1000000 ≤ timestampMicros x ∧ timestampMicros x ≤ (⌊x⌋ + 1) * 1000000 := by
  rw [timestampMicros_eq, truncate, if_pos h]
  have h1 := Int.floor_le x
  have h2 := Int.lt_floor_add_one x
  have a1 : fracMicros 0 ≤ fracMicros (x - ⌊x⌋) := fracMicros_mono (by linarith)
  have a2 : fracMicros (x - ⌊x⌋) ≤ fracMicros 1 := fracMicros_mono (by linarith)
  have e0 : fracMicros 0 = 0 := by have := fracMicros_int 0 (by norm_num); simpa using this
  have e1 : fracMicros 1 = 1000000 := by have := fracMicros_int 1 (by norm_num); simpa using this
  omega

theorem micros_neg_bounds {x : ℚ} (h : x < 0) :
    (⌈x⌉ - 1) * 1000000 ≤ timestampMicros x ∧ timestampMicros x ≤ ⌈x⌉ * 1000000 := by
  rw [timestampMicros_eq, truncate, if_neg (by linarith)]
  have h1 := Int.le_ceil x
  have h2 := Int.ceil_lt_add_one x
  have a1 : fracMicros (-1) ≤ fracMicros (x - ⌈x⌉) := fracMicros_mono (by linarith)
  have a2 : fracMicros (x - ⌈x⌉) ≤ fracMicros 0 := fracMicros_mono (by linarith)
  have e0 : fracMicros 0 = 0 := by have := fracMicros_int 0 (by norm_num); simpa using this
  have e1 : fracMicros (-1) = -1000000 := by have := fracMicros_int (-1) (by norm_num); simpa using this
  omega

theorem timestampMicros_mono {a b : ℚ} (h : a ≤ b) : timestampMicros a ≤ timestampMicros b := by
  by_cases ha : 0 ≤ a
  · have hb : 0 ≤ b := by linarith
    rcases lt_or_eq_of_le (Int.floor_le_floor h) with hf | hf
    · have h1 := micros_nonneg_bounds ha
      have h2 := micros_nonneg_bounds hb
      omega
    · rw [timestampMicros_eq, timestampMicros_eq, truncate, truncate, if_pos ha, if_pos hb, hf]
      have := fracMicros_mono (a := a - ⌊b⌋) (b := b - ⌊b⌋) (by linarith)
      omega
  · have ha : a < 0 := by linarith
    by_cases hb : 0 ≤ b
    · have h1 := micros_neg_bounds ha
      have h2 := micros_nonneg_bounds hb
      have h3 : ⌈a⌉ ≤ 0 := Int.ceil_le.mpr (by push_cast; linarith)
      have h4 : 0 ≤ ⌊b⌋ := Int.floor_nonneg.mpr hb
      omega
    · have hb : b < 0 := by linarith
      rcases lt_or_eq_of_le (Int.ceil_le_ceil h) with hf | hf
      · have h1 := micros_neg_bounds ha
        have h2 := micros_neg_bounds hb
        omega
      · rw [timestampMicros_eq, timestampMicros_eq, truncate, truncate, if_neg (by linarith), if_neg (by linarith), hf]
        have := fracMicros_mono (a := a - ⌈b⌉) (b := b - ⌈b⌉) (by linarith)
        omega

theorem timestampMicros_int (n : ℤ) : timestampMicros (n : ℚ) = n * 1000000 := by
  have ht : truncate (n : ℚ) = n := by unfold truncate; split <;> simp
  have e0 : fracMicros 0 = 0 := by have := fracMicros_int 0 (by norm_num); simpa using this
  rw [timestampMicros_eq, ht, sub_self, e0, add_zero]

theorem fracMicros_err {x : ℚ} (h : |x| ≤ 1) : |(fracMicros x : ℚ) - x * 1000000| ≤ 1 / 2 + 2 ^ (-34 : ℤ) := by
  unfold fracMicros
  have h1 := rhe_err (toDouble (x * 1000000))
  have h2 := toDouble_err (q := x * 1000000) (k := 20) (by
    rw [abs_mul, abs_of_pos (by norm_num : (0 : ℚ) < 1000000)]
    norm_num; linarith)
  rw [show (20 : ℤ) - 54 = -34 by norm_num] at h2
  generalize (2 : ℚ) ^ (-34 : ℤ) = ε at *
  rw [abs_le] at *
  constructor <;> linarith [h1.1, h1.2, h2.1, h2.2]

theorem timestampMicros_err (x : ℚ) : |(timestampMicros x : ℚ) - x * 1000000| ≤ 1 / 2 + 2 ^ (-34 : ℤ) := by
  have hf : |x - truncate x| ≤ 1 := by
    unfold truncate
    rw [abs_le]
    split
    · have h1 := Int.floor_le x
      have h2 := Int.lt_floor_add_one x
      constructor <;> linarith
    · have h1 := Int.le_ceil x
      have h2 := Int.ceil_lt_add_one x
      constructor <;> linarith
  have := fracMicros_err hf
  generalize (2 : ℚ) ^ (-34 : ℤ) = ε at *
  rw [timestampMicros_eq]
  push_cast
  rw [abs_le] at *
  constructor <;> linarith [this.1, this.2]

end Verif
