import Verif.Lemmas.FileTime
import Verif.Spec.Double

/-
The rounding of the model is the rounding of IEEE 754, and it is the only one; the four FILETIME values at the ends of the
accepted range.
-/

namespace Verif
open Spec

theorem two_zpow_pos (e : ℤ) : (0 : ℚ) < 2 ^ e := zpow_pos (by norm_num) _

theorem two_zpow_split (a : ℤ) (b : ℕ) : (2 : ℚ) ^ (a + b) = 2 ^ b * 2 ^ a := by
  rw [zpow_add₀ (by norm_num), zpow_natCast, mul_comm]

/-- Two numbers on one grid. -/
theorem common_grid {m n e f : ℤ} : ∃ s t : ℤ, (m : ℚ) * 2 ^ e = s * 2 ^ (min e f) ∧ (n : ℚ) * 2 ^ f = t * 2 ^ (min e f) := by
  obtain ⟨i, hi⟩ := Int.eq_ofNat_of_zero_le (show 0 ≤ e - min e f by omega)
  obtain ⟨j, hj⟩ := Int.eq_ofNat_of_zero_le (show 0 ≤ f - min e f by omega)
  refine ⟨m * 2 ^ i, n * 2 ^ j, ?_, ?_⟩
  · conv_lhs => rw [show e = min e f + i by omega, two_zpow_split]
    push_cast; ring
  · conv_lhs => rw [show f = min e f + j by omega, two_zpow_split]
    push_cast; ring

/-- Between two different numbers of 52 bits there is one of 53 bits. -/
theorem binary_between {x y : ℚ} (hx : Binary 52 x) (hy : Binary 52 y) (h : x < y) : ∃ z, Binary 53 z ∧ x < z ∧ z < y := by
  obtain ⟨m, e, hm, rfl⟩ := hx
  obtain ⟨n, f, hn, rfl⟩ := hy
  obtain ⟨s, t, hs, ht⟩ := common_grid (m := m) (n := n) (e := e) (f := f)
  have hg : (2 : ℚ) ^ (min e f) ≤ n * 2 ^ f - m * 2 ^ e := by
    rw [hs, ht] at h ⊢
    have h1 := two_zpow_pos (min e f)
    have h2 : (s : ℚ) < t := lt_of_mul_lt_mul_right h h1.le
    have h3 : s + 1 ≤ t := by exact_mod_cast h2
    have h4 : (s : ℚ) + 1 ≤ t := by exact_mod_cast h3
    nlinarith
  have half : ∀ g : ℤ, (2 : ℚ) ^ g = 2 * 2 ^ (g - 1) := fun g => by
    conv_lhs => rw [show g = (g - 1) + (1 : ℕ) by omega, two_zpow_split]
    norm_num
  rcases le_total e f with hef | hef
  · rw [min_eq_left hef] at hg
    have hp := two_zpow_pos (e - 1)
    refine ⟨(2 * m + 1 : ℤ) * 2 ^ (e - 1), ⟨_, _, ?_, rfl⟩, ?_, ?_⟩
    · rw [abs_lt] at hm ⊢; omega
    · rw [half e]; push_cast; nlinarith
    · rw [half e] at hg; push_cast; nlinarith
  · rw [min_eq_right hef] at hg
    have hp := two_zpow_pos (f - 1)
    refine ⟨(2 * n - 1 : ℤ) * 2 ^ (f - 1), ⟨_, _, ?_, rfl⟩, ?_, ?_⟩
    · rw [abs_lt] at hn ⊢; omega
    · rw [half f] at hg; push_cast; nlinarith
    · rw [half f]; push_cast; nlinarith

/-- There is at most one rounded result. -/
theorem rounded_unique {q x y : ℚ} (hx : Rounded q x) (hy : Rounded q y) : x = y := by
  have hd : |x - q| = |y - q| := le_antisymm (hx.nearest y hy.binary) (hy.nearest x hx.binary)
  by_contra hne
  have bx := (hx.even y hy.binary hd.symm).resolve_left (Ne.symm hne)
  have bY := (hy.even x hx.binary hd).resolve_left hne
  have hsum : x - q = -(y - q) := by
    rcases abs_eq_abs.1 hd with h | h
    · exact absurd (by linarith) hne
    · exact h
  have key : ∀ a b : ℚ, a - q = -(b - q) → |a - q| = |b - q| → Rounded q a → Binary 52 a → Binary 52 b → a < b → False := by
    intro a b h1 h2 ha h3 h4 hab
    obtain ⟨z, hz, z1, z2⟩ := binary_between h3 h4 hab
    have := ha.nearest z hz
    have hneg : a - q < 0 := by linarith
    rw [abs_of_neg hneg] at this
    rcases le_abs'.1 this with h | h <;> linarith
  rcases lt_or_gt_of_ne hne with h | h
  · exact key x y hsum hd hx bx bY h
  · exact key y x (by linarith) hd.symm hy bY bx h

theorem rhe_nearest (q : ℚ) (t : ℤ) : |(roundHalfEven q : ℚ) - q| ≤ |(t : ℚ) - q| := by
  by_cases h : t = roundHalfEven q
  · rw [h]
  · have h1 := rhe_err q
    have h2 : (1 : ℚ) ≤ |(t : ℚ) - roundHalfEven q| := by
      have : 1 ≤ |t - roundHalfEven q| := Int.one_le_abs (by omega)
      exact_mod_cast this
    have h3 := abs_sub_le (t : ℚ) q (roundHalfEven q)
    rw [abs_sub_comm q] at h3
    linarith

theorem rhe_even {q : ℚ} (h : |(roundHalfEven q : ℚ) - q| = 1 / 2) : 2 ∣ roundHalfEven q := by
  have h1 := Int.floor_le q
  have h2 := Int.lt_floor_add_one q
  unfold roundHalfEven at h ⊢
  by_cases a : q - ⌊q⌋ < 1 / 2
  · rw [if_pos a] at h
    rw [abs_of_nonpos (by linarith)] at h
    linarith
  · rw [if_neg a] at h ⊢
    by_cases b : 1 / 2 < q - ⌊q⌋
    · rw [if_pos b] at h
      push_cast at h
      rw [abs_of_nonneg (by linarith)] at h
      linarith
    · rw [if_neg b]
      split <;> omega

/-- A tie is a tie of one half. -/
theorem rhe_tie {q : ℚ} {t : ℤ} (hne : t ≠ roundHalfEven q) (h : |(t : ℚ) - q| = |(roundHalfEven q : ℚ) - q|) :
    2 ∣ roundHalfEven q := by
  apply rhe_even
  have h1 := rhe_err q
  have h2 : (1 : ℚ) ≤ |(t : ℚ) - roundHalfEven q| := by
    have : 1 ≤ |t - roundHalfEven q| := Int.one_le_abs (by omega)
    exact_mod_cast this
  have h3 := abs_sub_le (t : ℚ) q (roundHalfEven q)
  rw [abs_sub_comm q] at h3
  linarith

theorem rounded_int (q : ℚ) : RoundedInt q (roundHalfEven q) := ⟨rhe_err q, rhe_even⟩

theorem rounded_int_unique {q : ℚ} {m n : ℤ} (hm : RoundedInt q m) (hn : RoundedInt q n) : m = n := by
  by_contra hne
  obtain ⟨m1, m2⟩ := hm
  obtain ⟨n1, n2⟩ := hn
  have h3 := abs_sub_le (m : ℚ) q n
  rw [abs_sub_comm q] at h3
  have h1 : |m - n| ≤ 1 := by
    have : |(m : ℚ) - n| ≤ 1 := by linarith
    exact_mod_cast this
  have h2 : 1 ≤ |m - n| := Int.one_le_abs (by omega)
  have h4 : (1 : ℚ) ≤ |(m : ℚ) - n| := by exact_mod_cast h2
  have := m2 (by linarith)
  have := n2 (by linarith)
  rw [abs_le] at h1
  omega

/-- The model's rounding is the rounding of IEEE 754. -/
theorem toDouble_rounded (q : ℚ) : Rounded q (toDouble q) := by
  by_cases h0 : q = 0
  · subst h0
    have hb : ∀ n, Binary n 0 := fun n => ⟨0, 0, by simp, by simp⟩
    rw [toDouble_zero]
    exact ⟨hb _, fun y _ => by simp, fun y _ _ => .inr (hb _)⟩
  obtain ⟨k, hk⟩ : ∃ k, Int.log 2 |q| = k := ⟨_, rfl⟩
  have hp : 0 < |q| := abs_pos.2 h0
  have h1 : (2 : ℚ) ^ k ≤ |q| := by
    rw [← hk]; exact_mod_cast Int.zpow_log_le_self (b := 2) (by norm_num) hp
  have h2 : |q| < (2 : ℚ) ^ (k + 1) := by
    rw [← hk]
    exact_mod_cast Int.lt_zpow_succ_log_self (R := ℚ) (b := 2) (by norm_num) |q|
  have hu : ulp q = 2 ^ (k - 52) := by unfold ulp; rw [hk]
  have e1 : (2 : ℚ) ^ k = 2 ^ 52 * 2 ^ (k - 52) := by
    conv_lhs => rw [show k = (k - 52) + (52 : ℕ) by omega, two_zpow_split]
  have e2 : (2 : ℚ) ^ (k + 1) = 2 ^ 53 * 2 ^ (k - 52) := by
    conv_lhs => rw [show k + 1 = (k - 52) + (53 : ℕ) by omega, two_zpow_split]
  rw [toDouble_ne h0, hu]
  have hw : ∀ e, k - 52 ≤ e → ∃ i : ℤ, (2 : ℚ) ^ e = i * 2 ^ (k - 52) := fun e he => by
    obtain ⟨i, hi⟩ := Int.eq_ofNat_of_zero_le (show 0 ≤ e - (k - 52) by omega)
    refine ⟨2 ^ i, ?_⟩
    conv_lhs => rw [show e = (k - 52) + i by omega, two_zpow_split]
    push_cast; rfl
  generalize hU : (2 : ℚ) ^ (k - 52) = u at *
  have hup : 0 < u := hU ▸ two_zpow_pos _
  generalize hr : roundHalfEven (q / u) = r
  have dist : ∀ t : ℤ, |(t : ℚ) * u - q| = |(t : ℚ) - q / u| * u := fun t => by
    conv_rhs => rw [← abs_of_pos hup]
    rw [← abs_mul]
    congr 1
    rw [sub_mul, abs_of_pos hup, div_mul_cancel₀ _ hup.ne']
  have near : ∀ t : ℤ, |(r : ℚ) * u - q| ≤ |(t : ℚ) * u - q| := fun t => by
    rw [dist, dist]
    exact mul_le_mul_of_nonneg_right (hr ▸ rhe_nearest _ t) hup.le
  -- a number off the grid is farther away than a power of two
  have off : ∀ m e : ℤ, |m| < 2 ^ 53 → e < k - 52 → |(r : ℚ) * u - q| < |(m : ℚ) * 2 ^ e - q| := by
    intro m e hm he
    have hy : |(m : ℚ) * 2 ^ e| < 2 ^ k := by
      rw [abs_mul, abs_of_pos (two_zpow_pos e)]
      have a1 : |(m : ℚ)| < 2 ^ 53 := by exact_mod_cast hm
      have a2 : (2 : ℚ) ^ (e + (53 : ℕ)) ≤ 2 ^ k := zpow_le_zpow_right₀ (by norm_num) (by omega)
      rw [two_zpow_split] at a2
      have := two_zpow_pos e
      nlinarith
    have hk2 : (2 : ℚ) ^ k = ((2 ^ 52 : ℤ) : ℚ) * u := by rw [e1]; push_cast; rfl
    rw [abs_lt] at hy
    rcases lt_or_gt_of_ne h0 with hq | hq
    · rw [abs_of_neg hq] at h1
      refine lt_of_le_of_lt (near (-2 ^ 52)) ?_
      have : (((-2 ^ 52 : ℤ) : ℤ) : ℚ) * u = -2 ^ k := by rw [hk2]; push_cast; ring
      rw [this, abs_of_nonneg (by linarith), abs_of_pos (by linarith)]
      linarith
    · rw [abs_of_pos hq] at h1
      refine lt_of_le_of_lt (near (2 ^ 52)) ?_
      rw [← hk2, abs_of_nonpos (by linarith), abs_of_neg (by linarith)]
      linarith
  have hrb : |r| ≤ 2 ^ 53 := by
    have a := hr ▸ rhe_err (q / u)
    have hq : |q / u| < 2 ^ 53 := by
      rw [abs_div, abs_of_pos hup, div_lt_iff₀ hup, ← e2]; exact h2
    rw [abs_lt] at hq
    rw [abs_le] at a
    have u1 : (r : ℚ) < ((2 ^ 53 + 1 : ℤ) : ℚ) := by push_cast; linarith [a.2, hq.2]
    have u2 : ((-2 ^ 53 - 1 : ℤ) : ℚ) < (r : ℚ) := by push_cast; linarith [a.1, hq.1]
    have u1 : r < 2 ^ 53 + 1 := by exact_mod_cast u1
    have u2 : -2 ^ 53 - 1 < r := by exact_mod_cast u2
    rw [abs_le]; omega
  have full : ∀ (n : ℕ) (t : ℤ), 1 ≤ n → |t| ≤ 2 ^ n → ∀ g : ℤ, Binary n (t * 2 ^ g) := by
    intro n t hn ht g
    by_cases hlt : |t| < 2 ^ n
    · exact ⟨t, g, hlt, rfl⟩
    · have hlt' : |t| = 2 ^ n := le_antisymm ht (not_lt.1 hlt)
      have hone : |(1 : ℤ)| < 2 ^ n := by
        rw [abs_one]
        exact one_lt_pow₀ (by norm_num) (by omega)
      rcases abs_choice t with h | h
      · refine ⟨1, g + n, hone, ?_⟩
        have : t = 2 ^ n := by omega
        rw [this, two_zpow_split]; push_cast; ring
      · refine ⟨-1, g + n, by simpa using hone, ?_⟩
        have : t = -2 ^ n := by omega
        rw [this, two_zpow_split]; push_cast; ring
  refine ⟨hU ▸ full 53 r (by norm_num) hrb _, ?_, ?_⟩
  · rintro y ⟨m, e, hm, rfl⟩
    by_cases he : k - 52 ≤ e
    · obtain ⟨i, hi⟩ := hw e he
      have : (m : ℚ) * 2 ^ e = ((m * i : ℤ) : ℚ) * u := by rw [hi]; push_cast; ring
      rw [this]
      exact near _
    · exact (off m e hm (by omega)).le
  · rintro y ⟨m, e, hm, rfl⟩ hd
    by_cases he : k - 52 ≤ e
    · obtain ⟨i, hi⟩ := hw e he
      have hmi : (m : ℚ) * 2 ^ e = ((m * i : ℤ) : ℚ) * u := by rw [hi]; push_cast; ring
      rw [hmi] at hd ⊢
      by_cases ht : m * i = r
      · exact .inl (by rw [ht])
      · right
        rw [dist, dist] at hd
        have hd := mul_right_cancel₀ hup.ne' hd
        have h2r : 2 ∣ r := hr ▸ rhe_tie (by rw [hr]; exact ht) (by rw [hr]; exact hd)
        obtain ⟨s, rfl⟩ := h2r
        have : ((2 * s : ℤ) : ℚ) * u = s * 2 ^ (k - 51) := by
          have : (2 : ℚ) ^ (k - 51) = 2 * u := by
            rw [← hU]
            conv_lhs => rw [show k - 51 = (k - 52) + (1 : ℕ) by omega, two_zpow_split]
            norm_num
          rw [this]; push_cast; ring
        rw [this]
        refine full 52 s (by norm_num) ?_ _
        rw [abs_le] at hrb ⊢
        omega
    · exact absurd hd (off m e hm (by omega)).ne'

theorem truncate_part (x : ℚ) : |x - truncate x| < 1 ∧ (0 ≤ x → 0 ≤ x - truncate x) ∧ (x < 0 → x - truncate x ≤ 0) := by
  unfold truncate
  by_cases h : 0 ≤ x
  · rw [if_pos h]
    have h1 := Int.floor_le x
    have h2 := Int.lt_floor_add_one x
    refine ⟨by rw [abs_lt]; constructor <;> linarith, fun _ => by linarith, fun h' => by linarith⟩
  · rw [if_neg h]
    have h1 := Int.le_ceil x
    have h2 := Int.ceil_lt_add_one x
    refine ⟨by rw [abs_lt]; constructor <;> linarith, fun h' => absurd h' h, fun _ => by linarith⟩

theorem timestampMicros_microseconds (x : ℚ) : Microseconds x (timestampMicros x) := by
  obtain ⟨h1, h2, h3⟩ := truncate_part x
  exact ⟨truncate x, x - truncate x, _, _, by ring, h1, h2, h3, toDouble_rounded _, rounded_int _, rfl⟩

theorem microseconds_unique {x : ℚ} {m n : ℤ} (hm : Microseconds x m) (hn : Microseconds x n) : m = n := by
  obtain ⟨s, f, p, us, a1, a2, a3, a4, a5, a6, rfl⟩ := hm
  obtain ⟨s', f', p', us', b1, b2, b3, b4, b5, b6, rfl⟩ := hn
  have hs : s = s' := by
    have e : (s : ℚ) - s' = f' - f := by linarith
    have hlt : |f' - f| < 1 := by
      rw [abs_lt] at a2 b2 ⊢
      rcases le_or_gt 0 x with h | h
      · have := a3 h; have := b3 h
        constructor <;> linarith [a2.1, a2.2, b2.1, b2.2]
      · have := a4 h; have := b4 h
        constructor <;> linarith [a2.1, a2.2, b2.1, b2.2]
    rw [← e] at hlt
    have : |s - s'| < 1 := by exact_mod_cast hlt
    have := Int.abs_lt_one_iff.1 this
    omega
  subst hs
  have hf : f = f' := by linarith
  subst hf
  have hp := rounded_unique a5 b5
  subst hp
  rw [rounded_int_unique a6 b6]

theorem filetime_1970 : filetime ⟨1970, 1, 1, 0, 0, 0, 0⟩ = epochAsFiletime := by decide +kernel

theorem instant_1970 : instant ⟨1970, 1, 1, 0, 0, 0, 0⟩ = 62135596800000000 := by decide +kernel

theorem filetimeMicros_stamp (v : ℤ) : Stamp v (filetimeMicros v) := by
  refine ⟨_, _, toDouble_rounded _, timestampMicros_microseconds _, ?_⟩
  rw [filetime_1970, instant_1970]
  rfl

theorem stamp_unique {v m n : ℤ} (hm : Stamp v m) (hn : Stamp v n) : m = n := by
  obtain ⟨x, us, a1, a2, rfl⟩ := hm
  obtain ⟨x', us', b1, b2, rfl⟩ := hn
  have := rounded_unique a1 b1
  subst this
  rw [microseconds_unique a2 b2]

/-! ### the ends of the range -/

theorem rhe_near {q : ℚ} {m : ℤ} (h : |q - m| < 1 / 2) : roundHalfEven q = m := by
  have h1 := rhe_err q
  have h2 : |((roundHalfEven q - m : ℤ) : ℚ)| < 1 := by
    push_cast
    rw [abs_lt] at h ⊢
    rw [abs_le] at h1
    constructor <;> linarith [h1.1, h1.2, h.1, h.2]
  have h3 : |roundHalfEven q - m| < 1 := by exact_mod_cast h2
  have := Int.abs_lt_one_iff.1 h3
  omega

theorem toDouble_near {q : ℚ} {k m : ℤ} (h1 : (2 : ℚ) ^ k ≤ |q|) (h2 : |q| < (2 : ℚ) ^ (k + 1))
    (h : |q / (2 : ℚ) ^ (k - 52) - m| < 1 / 2) : toDouble q = m * (2 : ℚ) ^ (k - 52) := by
  have hq : q ≠ 0 := by
    rintro rfl
    have : (0 : ℚ) < 2 ^ k := zpow_pos (by norm_num) _
    simp at h1
    linarith
  have hl : Int.log 2 |q| = k := by
    have hp : 0 < |q| := abs_pos.2 hq
    apply le_antisymm
    · have := (Int.lt_zpow_iff_log_lt (b := 2) (by norm_num) (r := |q|) (x := k + 1) hp).1 (by exact_mod_cast h2)
      omega
    · exact (Int.zpow_le_iff_le_log (b := 2) (by norm_num) (r := |q|) (x := k) hp).1 (by exact_mod_cast h1)
  have hu : ulp q = 2 ^ (k - 52) := by unfold ulp; rw [hl]
  rw [toDouble_ne hq, hu, rhe_near h]

theorem micros_first_rejected : filetimeMicros 2650467743999999848 = 315537897600000000 := by
  unfold filetimeMicros epochAsFiletime
  rw [toDouble_near (k := 37) (m := 253402300800 * 2 ^ 15) (by norm_num) (by norm_num) (by norm_num [abs_lt])]
  have : ((253402300800 * 2 ^ 15 : ℤ) : ℚ) * 2 ^ ((37 : ℤ) - 52) = ((253402300800 : ℤ) : ℚ) := by norm_num
  rw [this, timestampMicros_int]
  norm_num

theorem micros_last_accepted : filetimeMicros 2650467743999999847 < 315537897600000000 := by
  unfold filetimeMicros epochAsFiletime
  rw [toDouble_near (k := 37) (m := 253402300800 * 2 ^ 15 - 1) (by norm_num) (by norm_num) (by norm_num [abs_lt])]
  have := timestampMicros_err (((253402300800 * 2 ^ 15 - 1 : ℤ) : ℚ) * 2 ^ ((37 : ℤ) - 52))
  rw [abs_le] at this
  have h2 := this.2
  generalize timestampMicros _ = t at *
  have : (t : ℚ) < ((253402300800000000 : ℤ) : ℚ) := by
    norm_num at h2 ⊢
    linarith
  have : t < 253402300800000000 := by exact_mod_cast this
  omega

theorem micros_last : filetimeMicros 2650467743999999847 = 315537897599999969 := by
  unfold filetimeMicros epochAsFiletime
  rw [toDouble_near (k := 37) (m := 253402300800 * 2 ^ 15 - 1) (by norm_num) (by norm_num) (by norm_num [abs_lt])]
  have ht : truncate (((253402300800 * 2 ^ 15 - 1 : ℤ) : ℚ) * 2 ^ ((37 : ℤ) - 52)) = 253402300799 := by
    unfold truncate
    rw [if_pos (by norm_num), Int.floor_eq_iff]
    norm_num
  unfold timestampMicros
  rw [ht, toDouble_near (k := 19) (m := 8589672448000000) (by norm_num) (by norm_num) (by norm_num [abs_lt]),
    rhe_near (m := 999969) (by norm_num [abs_lt])]
  norm_num

theorem micros_first_accepted : filetimeMicros (-504911232000000038) = 0 := by
  unfold filetimeMicros epochAsFiletime
  rw [toDouble_near (k := 35) (m := -62135596800 * 2 ^ 17) (by norm_num) (by norm_num) (by norm_num [abs_lt])]
  have : ((-62135596800 * 2 ^ 17 : ℤ) : ℚ) * 2 ^ ((35 : ℤ) - 52) = ((-62135596800 : ℤ) : ℚ) := by norm_num
  rw [this, timestampMicros_int]
  norm_num

theorem micros_last_rejected : filetimeMicros (-504911232000000039) < 0 := by
  unfold filetimeMicros epochAsFiletime
  rw [toDouble_near (k := 35) (m := -62135596800 * 2 ^ 17 - 1) (by norm_num) (by norm_num) (by norm_num [abs_lt])]
  have := timestampMicros_err (((-62135596800 * 2 ^ 17 - 1 : ℤ) : ℚ) * 2 ^ ((35 : ℤ) - 52))
  rw [abs_le] at this
  have h2 := this.2
  generalize timestampMicros _ = t at *
  have : (t : ℚ) < ((-62135596800000000 : ℤ) : ℚ) := by
    norm_num at h2 ⊢
    linarith
  have : t < -62135596800000000 := by exact_mod_cast this
  omega
end Verif
