import Verif.Lemmas.Json

/-
Which characters the JSON encoder writes.
-/

namespace Verif.Json

open Spec

/-- Printable ASCII, and line breaks if allowed. -/
def Prints (nl : Bool) (s : Str) : Prop := ∀ c ∈ s, (32 ≤ c.toNat ∧ c.toNat ≤ 126) ∨ (nl = true ∧ c = '\n')

variable {nl : Bool}

theorem Prints.append {s t : Str} (h : Prints nl s) (h' : Prints nl t) : Prints nl (s ++ t) := by
  intro c hc
  rcases List.mem_append.1 hc with hc | hc
  · exact h c hc
  · exact h' c hc

theorem Prints.cons {c : Char} {t : Str} (h : 32 ≤ c.toNat ∧ c.toNat ≤ 126) (h' : Prints nl t) : Prints nl (c :: t) := by
  intro d hd
  rcases List.mem_cons.1 hd with rfl | hd
  · exact .inl h
  · exact h' d hd

theorem Prints.nil : Prints nl [] := fun _ h => by simp at h

theorem Prints.of {s : Str} (h : ∀ c ∈ s, 32 ≤ c.toNat ∧ c.toNat ≤ 126) : Prints nl s := fun c hc => .inl (h c hc)

theorem hexDigitLower_prints {d : Nat} (h : d < 16) : 32 ≤ (hexDigitLower d).toNat ∧ (hexDigitLower d).toNat ≤ 126 := by
  revert d
  decide

theorem prints_hex4 {n : Nat} (h : n < 65536) : Prints nl (hex4 n) := by
  rw [hex4_eq h]
  exact .cons (hexDigitLower_prints (by omega)) (.cons (hexDigitLower_prints (by omega)) (.cons (hexDigitLower_prints (by omega))
    (.cons (hexDigitLower_prints (by omega)) .nil)))

theorem prints_escChar (c : Char) : Prints nl (escChar c) := by
  have := char_cases c
  unfold escChar
  by_cases h1 : c = '"'
  · rw [if_pos h1]; exact .of (by decide)
  rw [if_neg h1]
  by_cases h2 : c = '\\'
  · rw [if_pos h2]; exact .of (by decide)
  rw [if_neg h2]
  by_cases h3 : c = '\n'
  · rw [if_pos h3]; exact .of (by decide)
  rw [if_neg h3]
  by_cases h4 : c = '\r'
  · rw [if_pos h4]; exact .of (by decide)
  rw [if_neg h4]
  by_cases h5 : c = '\t'
  · rw [if_pos h5]; exact .of (by decide)
  rw [if_neg h5]
  by_cases h6 : c.toNat = 12
  · rw [if_pos h6]; exact .of (by decide)
  rw [if_neg h6]
  by_cases h7 : c.toNat = 8
  · rw [if_pos h7]; exact .of (by decide)
  rw [if_neg h7]
  by_cases h8 : 0x20 ≤ c.toNat ∧ c.toNat ≤ 0x7E
  · rw [if_pos h8]
    exact .cons h8 .nil
  rw [if_neg h8]
  by_cases h9 : c.toNat < 0x10000
  · rw [if_pos h9]
    exact .cons (by decide) (.cons (by decide) (prints_hex4 h9))
  · rw [if_neg h9]
    exact .cons (by decide) (.cons (by decide) (.append (prints_hex4 (by omega))
      (.cons (by decide) (.cons (by decide) (prints_hex4 (by omega))))))

theorem prints_quote (s : Str) : Prints nl (quote s) := by
  refine .cons (by decide) (.append ?_ (.cons (by decide) .nil))
  intro c hc
  obtain ⟨d, -, hd⟩ := List.mem_flatMap.1 hc
  exact prints_escChar d c hd

theorem prints_newline (n : Nat) : Prints true (newline n) := by
  intro c hc
  rcases List.mem_cons.1 hc with rfl | hc
  · exact .inr ⟨rfl, rfl⟩
  · rw [(List.mem_replicate.1 hc).2]
    decide

theorem prints_decStr (n : Nat) : Prints nl (decStr n) := by
  intro c hc
  have := decStr_digits n c hc
  simp only [Char.isDigit, ge_iff_le, Bool.and_eq_true, decide_eq_true_eq, UInt32.le_iff_toNat_le] at this
  have e : c.toNat = c.val.toNat := rfl
  have e1 : '0'.val.toNat = 48 := rfl
  have e2 : '9'.val.toNat = 57 := rfl
  omega

theorem prints_decInt (i : Int) : Prints nl (decInt i) := by
  cases i with
  | ofNat n => exact prints_decStr n
  | negSucc n => exact .cons (by decide) (prints_decStr _)

mutual
theorem prints_dump (lvl : Nat) (v : PyVal) : Prints true (dump lvl v) := by
  match v with
  | .none => rw [dump]; exact .of (by decide)
  | .int i => exact prints_decInt i
  | .str s => exact prints_quote s
  | .dt d => exact prints_quote _
  | .list [] => rw [dump]; exact .of (by decide)
  | .list (v :: l) =>
    rw [dump]
    exact .cons (by decide) (((((prints_newline _).append (prints_dump _ v)).append (prints_dumpList _ l)).append
      (prints_newline _)).append (.cons (by decide) .nil))
  | .dict [] => rw [dump]; exact .of (by decide)
  | .dict ((k, v) :: d) =>
    rw [dump]
    exact .cons (by decide) (((((((prints_newline _).append (prints_quote _)).append (.of (by decide))).append
      (prints_dump _ v)).append (prints_dumpDict _ d)).append (prints_newline _)).append (.cons (by decide) .nil))
theorem prints_dumpList (lvl : Nat) (l : List PyVal) : Prints true (dumpList lvl l) := by
  match l with
  | [] => exact .nil
  | v :: l =>
    rw [dumpList]
    exact .cons (by decide) (((prints_newline _).append (prints_dump _ v)).append (prints_dumpList _ l))
theorem prints_dumpDict (lvl : Nat) (d : List (String × PyVal)) : Prints true (dumpDict lvl d) := by
  match d with
  | [] => exact .nil
  | (k, v) :: d =>
    rw [dumpDict]
    exact .cons (by decide) (((((prints_newline _).append (prints_quote _)).append (.of (by decide))).append
      (prints_dump _ v)).append (prints_dumpDict _ d))
end

theorem prints_dumpsTarget (s : Str) : Prints false (dumpsTarget s) :=
  .cons (by decide) ((((prints_quote _).append (.of (by decide))).append (prints_quote _)).append (.cons (by decide) .nil))

end Verif.Json
