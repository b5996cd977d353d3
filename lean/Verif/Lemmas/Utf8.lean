import Verif.Lemmas.Text

namespace Verif

open Spec

theorem utf8EncodeChar_eq (c : Char) : String.utf8EncodeChar c =
    if c.toNat ≤ 0x7f then [UInt8.ofNat c.toNat]
    else if c.toNat ≤ 0x7ff then [UInt8.ofNat (c.toNat / 64 % 0x20 + 0xc0), UInt8.ofNat (c.toNat % 0x40 + 0x80)]
    else if c.toNat ≤ 0xffff then
      [UInt8.ofNat (c.toNat / 4096 % 0x10 + 0xe0), UInt8.ofNat (c.toNat / 64 % 0x40 + 0x80),
        UInt8.ofNat (c.toNat % 0x40 + 0x80)]
    else
      [UInt8.ofNat (c.toNat / 262144 % 0x08 + 0xf0), UInt8.ofNat (c.toNat / 4096 % 0x40 + 0x80),
        UInt8.ofNat (c.toNat / 64 % 0x40 + 0x80), UInt8.ofNat (c.toNat % 0x40 + 0x80)] := rfl

theorem toNat_ofNat8 {n : Nat} (h : n < 256) : (UInt8.ofNat n).toNat = n := by
  simp only [UInt8.toNat_ofNat']; omega

theorem utf8Decode_char (c : Char) (rest : Bytes) :
    utf8Decode (String.utf8EncodeChar c ++ rest) = (utf8Decode rest).map (c :: ·) := by
  have hv := char_range c
  rw [utf8EncodeChar_eq]
  have hc : ∀ n, n = c.toNat → Char.ofNat n = c := by rintro n rfl; exact ofNat_toNat c
  split
  · simp only [List.cons_append, List.nil_append]
    rw [utf8Decode.eq_def]
    simp only [toNat_ofNat8 (n := c.toNat) (by omega)]
    rw [if_pos (by omega), hc _ rfl]
  · split
    · simp only [List.cons_append, List.nil_append]
      have a1 : c.toNat / 64 % 0x20 + 0xc0 < 256 := by omega
      have a2 : c.toNat % 0x40 + 0x80 < 256 := by omega
      rw [utf8Decode]
      simp only [toNat_ofNat8 a1, toNat_ofNat8 a2, inRange]
      rw [if_neg (by omega), if_pos (by omega), if_pos (by simp; omega), hc _ (by omega)]
    · split
      · simp only [List.cons_append, List.nil_append]
        have a1 : c.toNat / 4096 % 0x10 + 0xe0 < 256 := by omega
        have a2 : c.toNat / 64 % 0x40 + 0x80 < 256 := by omega
        have a3 : c.toNat % 0x40 + 0x80 < 256 := by omega
        rw [utf8Decode]
        simp only [toNat_ofNat8 a1, toNat_ofNat8 a2, toNat_ofNat8 a3, inRange]
        rw [if_neg (by omega), if_neg (by omega), if_pos (by omega), if_pos, hc _ (by omega)]
        simp only [Bool.and_eq_true, decide_eq_true_eq]
        refine ⟨⟨?_, ?_⟩, ?_, ?_⟩
        · split <;> omega
        · split <;> omega
        · omega
        · omega
      · simp only [List.cons_append, List.nil_append]
        have a1 : c.toNat / 262144 % 0x08 + 0xf0 < 256 := by omega
        have a2 : c.toNat / 4096 % 0x40 + 0x80 < 256 := by omega
        have a3 : c.toNat / 64 % 0x40 + 0x80 < 256 := by omega
        have a4 : c.toNat % 0x40 + 0x80 < 256 := by omega
        rw [utf8Decode]
        simp only [toNat_ofNat8 a1, toNat_ofNat8 a2, toNat_ofNat8 a3, toNat_ofNat8 a4, inRange]
        rw [if_neg (by omega), if_neg (by omega), if_neg (by omega), if_pos (by omega), if_pos, hc _ (by omega)]
        simp only [Bool.and_eq_true, decide_eq_true_eq]
        refine ⟨⟨⟨?_, ?_⟩, ?_, ?_⟩, ?_, ?_⟩
        · split <;> omega
        · split <;> omega
        · omega
        · omega
        · omega
        · omega

theorem utf8_cons (c : Char) (s : Str) : utf8 (c :: s) = String.utf8EncodeChar c ++ utf8 s := by simp [utf8]

theorem utf8Decode_utf8 (s : Str) : utf8Decode (utf8 s) = some s := by
  induction s with
  | nil => rfl
  | cons c s ih => rw [utf8_cons, utf8Decode_char, ih]; rfl

theorem toNat_ofNat_char {n : Nat} (h : n.isValidChar) : (Char.ofNat n).toNat = n := by
  unfold Char.ofNat; rw [dif_pos h]; rfl

theorem byte_eq {b : UInt8} {n : Nat} (h : n = b.toNat) : UInt8.ofNat n = b := by
  subst h; simp

theorem utf8Decode_sound (b : Bytes) : ∀ s, utf8Decode b = some s → b = utf8 s := by
  fun_induction utf8Decode b with
  | case1 => intro s h; simp only [Option.some.injEq] at h; subst h; rfl
  | case2 b0 rest n0 h0 ih =>
    intro s h
    simp only [Option.map_eq_some_iff] at h
    obtain ⟨t, ht, rfl⟩ := h
    rw [utf8_cons, ← ih t ht, utf8EncodeChar_eq, toNat_ofNat_char (by unfold Nat.isValidChar; omega), if_pos (by omega)]
    rw [byte_eq rfl]; rfl
  | case3 b0 n0 h0 h1 b1 r h2 ih =>
    intro s h
    simp only [Option.map_eq_some_iff] at h
    obtain ⟨t, ht, rfl⟩ := h
    simp only [inRange, Bool.and_eq_true, decide_eq_true_eq] at h2
    rw [utf8_cons, ← ih t ht, utf8EncodeChar_eq, toNat_ofNat_char (by unfold Nat.isValidChar; omega),
      if_neg (by omega), if_pos (by omega), byte_eq (b := b0) (by omega), byte_eq (b := b1) (by omega)]
    rfl
  | case4 => intro s h; simp at h
  | case5 => intro s h; simp at h
  | case6 b0 n0 h0 h1 h3 b1 b2 r h2 ih =>
    intro s h
    simp only [Option.map_eq_some_iff] at h
    obtain ⟨t, ht, rfl⟩ := h
    simp only [inRange, Bool.and_eq_true, decide_eq_true_eq] at h2
    obtain ⟨⟨h5, h6⟩, h7, h8⟩ := h2
    have e1 : n0 = 0xE0 → 0xA0 ≤ b1.toNat := by intro h; simpa [h] using h5
    have e2 : n0 = 0xED → b1.toNat ≤ 0x9F := by intro h; simpa [h] using h6
    have e3 : 0x80 ≤ b1.toNat := by split at h5 <;> omega
    have e4 : b1.toNat ≤ 0xBF := by split at h6 <;> omega
    rw [utf8_cons, ← ih t ht, utf8EncodeChar_eq, toNat_ofNat_char (by unfold Nat.isValidChar; omega),
      if_neg (by omega), if_neg (by omega), if_pos (by omega), byte_eq (b := b0) (by omega),
      byte_eq (b := b1) (by omega), byte_eq (b := b2) (by omega)]
    rfl
  | case7 => intro s h; simp at h
  | case8 => intro s h; simp at h
  | case9 b0 n0 h0 h1 h3 h4 b1 b2 b3 r h2 ih =>
    intro s h
    simp only [Option.map_eq_some_iff] at h
    obtain ⟨t, ht, rfl⟩ := h
    simp only [inRange, Bool.and_eq_true, decide_eq_true_eq] at h2
    obtain ⟨⟨⟨h5, h6⟩, h7, h8⟩, h9, h10⟩ := h2
    have e1 : n0 = 0xF0 → 0x90 ≤ b1.toNat := by intro h; simpa [h] using h5
    have e2 : n0 = 0xF4 → b1.toNat ≤ 0x8F := by intro h; simpa [h] using h6
    have e3 : 0x80 ≤ b1.toNat := by split at h5 <;> omega
    have e4 : b1.toNat ≤ 0xBF := by split at h6 <;> omega
    rw [utf8_cons, ← ih t ht, utf8EncodeChar_eq, toNat_ofNat_char (by unfold Nat.isValidChar; omega),
      if_neg (by omega), if_neg (by omega), if_neg (by omega), byte_eq (b := b0) (by omega),
      byte_eq (b := b1) (by omega), byte_eq (b := b2) (by omega), byte_eq (b := b3) (by omega)]
    rfl
  | case10 => intro s h; simp at h
  | case11 => intro s h; simp at h
  | case12 => intro s h; simp at h

theorem utf8Decode_eq_some_iff {b : Bytes} {s : Str} : utf8Decode b = some s ↔ b = utf8 s :=
  ⟨utf8Decode_sound b s, by rintro rfl; exact utf8Decode_utf8 s⟩

/-! ### Windows-1252 -/

theorem cp1252Char_iff (b : UInt8) (c : Char) : cp1252Char b = some c ↔ Cp1252Char b c := by
  by_cases h : b.toNat < 0x80 ∨ 0xA0 ≤ b.toNat
  · have hb := b.toNat_lt
    have hs : ∀ c, (b, c) ∉ cp1252Special := by
      intro c hc
      have : ∀ p ∈ cp1252Special, ¬ (p.1.toNat < 0x80 ∨ 0xA0 ≤ p.1.toNat) := by decide
      exact this _ hc h
    unfold cp1252Char Cp1252Char
    rw [if_pos h]
    simp only [h, true_and, hs, or_false, Option.some.injEq]
    constructor
    · rintro rfl; exact toNat_ofNat_char (by unfold Nat.isValidChar; omega)
    · intro e; rw [← e]; exact ofNat_toNat c
  · have : ∀ n : Fin 32, ∀ c, cp1252Char (UInt8.ofNat (0x80 + n.1)) = some c ↔
        (UInt8.ofNat (0x80 + n.1), c) ∈ cp1252Special := by
      intro n c
      have key : ∀ n : Fin 32, cp1252Char (UInt8.ofNat (0x80 + n.1)) =
        cp1252Special.lookup (UInt8.ofNat (0x80 + n.1)) := by decide +kernel
      rw [key n]
      have hmem : ∀ (l : List (UInt8 × Char)) (k : UInt8), (l.map (·.1)).Nodup → (l.lookup k = some c ↔ (k, c) ∈ l) := by
        intro l k
        induction l with
        | nil => simp
        | cons p l ih =>
          intro hnd
          simp only [List.map_cons, List.nodup_cons] at hnd
          rw [List.lookup_cons]
          by_cases hk : k = p.1
          · subst hk
            simp only [beq_self_eq_true, Option.some.injEq, List.mem_cons]
            constructor
            · rintro rfl; left; rfl
            · rintro (h | h)
              · rw [← h]
              · exact absurd (List.mem_map_of_mem (f := (·.1)) h) hnd.1
          · have : (k == p.1) = false := by simpa using hk
            simp only [this, List.mem_cons]
            rw [ih hnd.2]
            constructor
            · exact Or.inr
            · rintro (h | h)
              · exact absurd (congrArg Prod.fst h) hk
              · exact h
      exact hmem _ _ (by decide)
    have hb := b.toNat_lt
    have e : b = UInt8.ofNat (0x80 + (b.toNat - 0x80)) := by
      rw [show 0x80 + (b.toNat - 0x80) = b.toNat by omega]; simp
    have := this ⟨b.toNat - 0x80, by omega⟩ c
    simp only at this
    rw [← e] at this
    rw [this]
    unfold Cp1252Char
    simp [h]

theorem cp1252_strict_iff (b : Bytes) (s : Str) : cp1252.strict b = .ok s ↔ Cp1252 b s := by
  show strictOf (b.map cp1252Char) = .ok s ↔ _
  induction b generalizing s with
  | nil =>
    cases s <;> simp [strictOf, Cp1252]
  | cons x xs ih =>
    cases hx : cp1252Char x with
    | none =>
      have : ∀ c, ¬ Cp1252Char x c := by
        intro c hc; rw [← cp1252Char_iff, hx] at hc; simp at hc
      cases s <;> simp [strictOf, Cp1252, hx, this]
    | some c =>
      cases s with
      | nil =>
        simp only [strictOf, Cp1252, hx, List.map_cons, List.all_cons, iff_false]
        split <;> simp
      | cons d s =>
        rw [Cp1252, ← cp1252Char_iff, hx, ← ih]
        simp only [strictOf, List.map_cons, hx, List.all_cons, Option.isSome_some, Bool.true_and, Option.getD_some,
          Option.some.injEq]
        split
        · simp only [Except.ok.injEq, List.cons.injEq]
        · simp

theorem cp1252_strict_error (b : Bytes) (e : PyErr) (h : cp1252.strict b = .error e) : e = .unicodeDecode := by
  change strictOf (b.map cp1252Char) = _ at h
  unfold strictOf at h
  split at h
  · cases h
  · injection h with h; exact h.symm

end Verif
