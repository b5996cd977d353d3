import Verif.Py.Fmt
import Verif.Lemmas.Bytes

namespace Verif

open Spec

@[simp] theorem hexFixed_length (w n : Nat) : (hexFixed w n).length = w := by
  induction w generalizing n with
  | zero => rfl
  | succ w ih => simp [hexFixed, ih]

@[simp] theorem hexFixedLower_length (w n : Nat) : (hexFixedLower w n).length = w := by
  induction w generalizing n with
  | zero => rfl
  | succ w ih => simp [hexFixedLower, ih]

theorem hexChar_true {d : Nat} (h : d < 16) : hexChar true d = hexDigit d := by
  have : ∀ d : Fin 16, hexChar true d.1 = hexDigit d.1 := by decide
  exact this ⟨d, h⟩

theorem hexChar_false {d : Nat} (h : d < 16) : hexChar false d = hexDigitLower d := by
  have : ∀ d : Fin 16, hexChar false d.1 = hexDigitLower d.1 := by decide
  exact this ⟨d, h⟩

theorem hexDigit_inj {a b : Nat} (ha : a < 16) (hb : b < 16) (h : hexDigit a = hexDigit b) : a = b := by
  have : ∀ a b : Fin 16, hexDigit a.1 = hexDigit b.1 → a = b := by decide
  have := this ⟨a, ha⟩ ⟨b, hb⟩ h
  simpa using this

theorem hexDigitLower_inj {a b : Nat} (ha : a < 16) (hb : b < 16) (h : hexDigitLower a = hexDigitLower b) :
    a = b := by
  have : ∀ a b : Fin 16, hexDigitLower a.1 = hexDigitLower b.1 → a = b := by decide
  have := this ⟨a, ha⟩ ⟨b, hb⟩ h
  simpa using this

theorem hexFixed_zero (w : Nat) : hexFixed w 0 = List.replicate w '0' := by
  induction w with
  | zero => rfl
  | succ w ih =>
    rw [hexFixed, Nat.zero_div, ih, List.replicate_succ']; rfl

theorem hexFixedLower_zero (w : Nat) : hexFixedLower w 0 = List.replicate w '0' := by
  induction w with
  | zero => rfl
  | succ w ih =>
    rw [hexFixedLower, Nat.zero_div, ih, List.replicate_succ']; rfl

theorem zpad_concat (w : Nat) (s : Str) (c : Char) : zpad (w + 1) (s ++ [c]) = zpad w s ++ [c] := by
  simp [zpad, ← List.append_assoc]

theorem hexStr_lt {u : Bool} {n : Nat} (h : n < 16) : hexStr u n = [hexChar u n] := by
  rw [hexStr, if_pos h]

theorem hexStr_ge {u : Bool} {n : Nat} (h : ¬ n < 16) :
    hexStr u n = hexStr u (n / 16) ++ [hexChar u (n % 16)] := by
  rw [hexStr, if_neg h]

/-- `"%0wX" % n` for a number that fits. -/
theorem fmtX_eq {w n : Nat} (hw : 0 < w) (h : n < 16 ^ w) : fmtX w n = hexFixed w n := by
  unfold fmtX
  induction w generalizing n with
  | zero => omega
  | succ w ih =>
    by_cases hn : n < 16
    · rw [hexStr_lt hn]
      have : n / 16 = 0 := by omega
      rw [hexFixed, this, hexFixed_zero, Nat.mod_eq_of_lt hn, ← hexChar_true hn]
      simp [zpad]
    · rw [hexStr_ge hn, zpad_concat, hexFixed, hexChar_true (Nat.mod_lt _ (by decide))]
      have hw' : 0 < w := by
        rcases w with _ | w
        · simp at h; omega
        · omega
      rw [ih hw']
      rw [Nat.pow_succ] at h
      omega

theorem zpad_hexStr_lower {w n : Nat} (hw : 0 < w) (h : n < 16 ^ w) :
    zpad w (hexStr false n) = hexFixedLower w n := by
  induction w generalizing n with
  | zero => omega
  | succ w ih =>
    by_cases hn : n < 16
    · rw [hexStr_lt hn]
      have : n / 16 = 0 := by omega
      rw [hexFixedLower, this, hexFixedLower_zero, Nat.mod_eq_of_lt hn, ← hexChar_false hn]
      simp [zpad]
    · rw [hexStr_ge hn, zpad_concat, hexFixedLower, hexChar_false (Nat.mod_lt _ (by decide))]
      have hw' : 0 < w := by
        rcases w with _ | w
        · simp at h; omega
        · omega
      rw [ih hw']
      rw [Nat.pow_succ] at h
      omega

theorem hexFixed_inj {w a b : Nat} (ha : a < 16 ^ w) (hb : b < 16 ^ w) (h : hexFixed w a = hexFixed w b) :
    a = b := by
  induction w generalizing a b with
  | zero => simp at ha hb; omega
  | succ w ih =>
    simp only [hexFixed] at h
    have h1 := List.append_inj h (by simp)
    have h2 := ih (a := a / 16) (b := b / 16) (by rw [Nat.pow_succ] at ha; omega)
      (by rw [Nat.pow_succ] at hb; omega) h1.1
    have h3 := hexDigit_inj (Nat.mod_lt _ (by decide)) (Nat.mod_lt _ (by decide)) (by simpa using h1.2)
    omega

/-- Splitting a fixed-width hexadecimal number. -/
theorem hexFixed_add (v w n : Nat) : hexFixed (v + w) n = hexFixed v (n / 16 ^ w) ++ hexFixed w n := by
  induction w generalizing n with
  | zero => simp [hexFixed]
  | succ w ih =>
    rw [← Nat.add_assoc, hexFixed, ih, hexFixed, Nat.div_div_eq_div_mul, ← List.append_assoc, Nat.pow_succ']

theorem hexFixed_mod (w n : Nat) : hexFixed w n = hexFixed w (n % 16 ^ w) := by
  induction w generalizing n with
  | zero => rfl
  | succ w ih =>
    rw [hexFixed, hexFixed, ih (n / 16), ih (n % 16 ^ (w + 1) / 16)]
    have h1 : n % 16 ^ (w + 1) % 16 = n % 16 := by
      rw [Nat.pow_succ, Nat.mod_mul_left_mod]
    have h2 : n % 16 ^ (w + 1) / 16 % 16 ^ w = n / 16 % 16 ^ w := by
      rw [Nat.pow_succ, Nat.mod_mul_left_div_self, Nat.mod_mod]
    rw [h1, h2]

end Verif
