import Verif.Spec.Text
import Verif.Lemmas.Bytes

namespace Verif

open Spec

/-! ### splitting at NUL -/

theorem readStringsGo_cons (tp : TextProc) (acc a rest : Bytes) (h : 0 ∉ a) :
    tp.readStringsGo acc (a ++ 0 :: rest) = tp.ansiToStr (acc ++ a) :: tp.readStringsGo [] rest := by
  induction a generalizing acc with
  | nil => simp [TextProc.readStringsGo]
  | cons x xs ih =>
    simp only [List.mem_cons, not_or] at h
    have hx : ¬ x = 0 := fun e => h.1 e.symm
    simp only [List.cons_append, TextProc.readStringsGo, hx, if_false]
    rw [ih _ h.2]; simp

theorem readStringsGo_last (tp : TextProc) (acc a : Bytes) (h : 0 ∉ a) :
    tp.readStringsGo acc a = [tp.ansiToStr (acc ++ a)] := by
  induction a generalizing acc with
  | nil => simp [TextProc.readStringsGo]
  | cons x xs ih =>
    simp only [List.mem_cons, not_or] at h
    have hx : ¬ x = 0 := fun e => h.1 e.symm
    simp only [TextProc.readStringsGo, hx, if_false]
    rw [ih _ h.2]; simp

theorem readStrings_cons (tp : TextProc) {a rest : Bytes} (h : 0 ∉ a) :
    tp.readStrings (a ++ 0 :: rest) = tp.ansiToStr a :: tp.readStrings rest := by
  have := readStringsGo_cons tp [] a rest h
  rwa [List.nil_append] at this

theorem readStrings_last (tp : TextProc) {a : Bytes} (h : 0 ∉ a) : tp.readStrings a = [tp.ansiToStr a] := by
  have := readStringsGo_last tp [] a h
  rwa [List.nil_append] at this

theorem readString_cons (tp : TextProc) {a : Bytes} (rest : Bytes) (h : 0 ∉ a) :
    tp.readString (a ++ 0 :: rest) = tp.ansiToStr a := by
  simp [TextProc.readString, readStrings_cons tp h, TextProc.next]

theorem readString_last (tp : TextProc) {a : Bytes} (h : 0 ∉ a) : tp.readString a = tp.ansiToStr a := by
  simp [TextProc.readString, readStrings_last tp h, TextProc.next]

/-- Every byte string has a part before the first NUL. -/
theorem nul_cases (b : Bytes) : 0 ∉ b ∨ ∃ a rest, 0 ∉ a ∧ b = a ++ 0 :: rest := by
  induction b with
  | nil => left; simp
  | cons x xs ih =>
    by_cases hx : x = 0
    · right; exact ⟨[], xs, by simp, by simp [hx]⟩
    · rcases ih with h | ⟨a, rest, h, e⟩
      · left; simp only [List.mem_cons, not_or]; exact ⟨fun e => hx e.symm, h⟩
      · right
        refine ⟨x :: a, rest, ?_, by simp [e]⟩
        simp only [List.mem_cons, not_or]; exact ⟨fun e => hx e.symm, h⟩

theorem ansiToStr_text {tp : TextProc} {b : Bytes} {s : Str} (h : CodePageText tp b s) : tp.ansiToStr b = pure s := by
  unfold TextProc.ansiToStr
  rw [h.2]; rfl

theorem readString_text {tp : TextProc} {b : Bytes} {s : Str} (h : CodePageText tp b s) :
    tp.readString b = pure s := by
  rw [readString_last tp h.1, ansiToStr_text h]

theorem readString_text_nul {tp : TextProc} {b : Bytes} {s : Str} (h : CodePageText tp b s) (rest : Bytes) :
    tp.readString (b ++ 0 :: rest) = pure s := by
  rw [readString_cons tp rest h.1, ansiToStr_text h]

theorem codePageText_nil (tp : TextProc) : CodePageText tp [] [] := ⟨by simp, rfl⟩

/-! ### units -/

theorem le2_pair (n : Nat) : le 2 n = [UInt8.ofNat n, UInt8.ofNat (n / 256)] := by
  simp only [le, List.cons.injEq, and_true]
  constructor <;> apply UInt8.toNat_inj.mp <;> simp only [UInt8.toNat_ofNat'] <;> omega

theorem le2_zero_iff {n : Nat} (h : n < 65536) : le 2 n = [0, 0] ↔ n = 0 := by
  constructor
  · intro e
    have := leNat_le_of_lt (n := 2) (v := n) (by omega)
    rw [e] at this
    simpa [leNat] using this.symm
  · rintro rfl; rfl

theorem twoBytesEach_le2 (n : Nat) (rest : Bytes) :
    TextProc.twoBytesEach (le 2 n ++ rest) = le 2 n :: TextProc.twoBytesEach rest := by
  simp [le2_pair, TextProc.twoBytesEach]

theorem readWideGo_units (acc : Bytes) (us : List UInt16) (hus : 0 ∉ us) (rest : Bytes) :
    TextProc.readWideGo acc (TextProc.twoBytesEach (units us ++ rest)) =
      TextProc.readWideGo (acc ++ units us) (TextProc.twoBytesEach rest) := by
  induction us generalizing acc with
  | nil => simp [units]
  | cons u us ih =>
    simp only [List.mem_cons, not_or] at hus
    have hu : ¬ le 2 u.toNat = [0, 0] := by
      rw [le2_zero_iff u.toNat_lt]
      intro h; exact hus.1 (UInt16.toNat_inj.mp h.symm)
    have e : units (u :: us) = le 2 u.toNat ++ units us := by simp [units]
    rw [e, List.append_assoc, twoBytesEach_le2, TextProc.readWideGo, if_neg hu, ih _ hus.2, List.append_assoc]

theorem readUnicodeStrings_cons (us : List UInt16) (hus : 0 ∉ us) (rest : Bytes) :
    TextProc.readUnicodeStrings (units us ++ 0 :: 0 :: rest) =
      TextProc.wideToStr (units us) :: TextProc.readUnicodeStrings rest := by
  unfold TextProc.readUnicodeStrings
  rw [readWideGo_units [] us hus]
  simp [TextProc.twoBytesEach, TextProc.readWideGo]

theorem readUnicodeStrings_last (us : List UInt16) (hus : 0 ∉ us) (tail : Bytes) (ht : tail.length < 2) :
    TextProc.readUnicodeStrings (units us ++ tail) = [TextProc.wideToStr (units us ++ tail)] := by
  unfold TextProc.readUnicodeStrings
  rw [readWideGo_units [] us hus]
  match tail, ht with
  | [], _ => simp [TextProc.twoBytesEach, TextProc.readWideGo]
  | [x], _ => simp [TextProc.twoBytesEach, TextProc.readWideGo]

theorem readUnicodeString_cons (us : List UInt16) (hus : 0 ∉ us) (rest : Bytes) :
    TextProc.readUnicodeString (units us ++ 0 :: 0 :: rest) = TextProc.wideToStr (units us) := by
  simp [TextProc.readUnicodeString, readUnicodeStrings_cons us hus, TextProc.next]

theorem readUnicodeString_last (us : List UInt16) (hus : 0 ∉ us) (tail : Bytes) (ht : tail.length < 2) :
    TextProc.readUnicodeString (units us ++ tail) = TextProc.wideToStr (units us ++ tail) := by
  simp [TextProc.readUnicodeString, readUnicodeStrings_last us hus tail ht, TextProc.next]

/-- Every byte string has a part before the first aligned zero unit. -/
theorem unit_cases (b : Bytes) :
    ∃ us : List UInt16, 0 ∉ us ∧
      ((∃ tail, tail.length < 2 ∧ b = units us ++ tail) ∨ ∃ rest, b = units us ++ 0 :: 0 :: rest) := by
  induction b using TextProc.twoBytesEach.induct with
  | case1 => exact ⟨[], by simp, .inl ⟨[], by simp, rfl⟩⟩
  | case2 a => exact ⟨[], by simp, .inl ⟨[a], by simp, rfl⟩⟩
  | case3 x y rest ih =>
    obtain ⟨u, hu⟩ := le2_surj (b := [x, y]) rfl
    by_cases h0 : u = 0
    · refine ⟨[], by simp, .inr ⟨rest, ?_⟩⟩
      subst h0
      have : [x, y] = [0, 0] := by rw [← hu]; rfl
      simp only [List.cons.injEq, and_true] at this
      simp [units, this]
    · obtain ⟨us, hus, h⟩ := ih
      have e : ∀ l, units (u :: us) ++ l = x :: y :: (units us ++ l) := by
        intro l; simp only [units, List.flatMap_cons, hu, List.cons_append, List.nil_append]
      refine ⟨u :: us, ?_, ?_⟩
      · simp only [List.mem_cons, not_or]; exact ⟨fun e => h0 e.symm, hus⟩
      · rcases h with ⟨tail, ht, rfl⟩ | ⟨rest', rfl⟩
        · exact .inl ⟨tail, ht, (e _).symm⟩
        · exact .inr ⟨rest', (e _).symm⟩

/-! ### UTF-16 -/

theorem char_range (c : Char) : c.toNat < 0xD800 ∨ (0xDFFF < c.toNat ∧ c.toNat < 0x110000) := c.valid

/-- The text is the units of its characters. -/
theorem utf16Char_units (c : Char) : ∃ us : List UInt16, utf16Char c = units us ∧ (c ≠ '\x00' → 0 ∉ us) := by
  have hv := char_range c
  unfold utf16Char
  split
  · refine ⟨[UInt16.ofNat c.toNat], ?_, ?_⟩
    · simp [units]; rw [Nat.mod_eq_of_lt (by omega)]
    · intro hc h0
      simp only [List.mem_singleton] at h0
      have := congrArg UInt16.toNat h0
      simp at this
      apply hc
      apply Char.ext; apply UInt32.toNat_inj.mp
      show c.toNat = 0
      omega
  · refine ⟨[UInt16.ofNat (0xD800 + (c.toNat - 0x10000) / 1024), UInt16.ofNat (0xDC00 + (c.toNat - 0x10000) % 1024)], ?_, ?_⟩
    · simp only [units, List.flatMap_cons, List.flatMap_nil, UInt16.toNat_ofNat', List.append_nil]
      rw [Nat.mod_eq_of_lt (a := 0xD800 + (c.toNat - 0x10000) / 1024) (by omega),
        Nat.mod_eq_of_lt (a := 0xDC00 + (c.toNat - 0x10000) % 1024) (by omega)]
    · intro _ h0
      simp only [List.mem_cons, List.not_mem_nil, or_false] at h0
      rcases h0 with h0 | h0 <;> have := congrArg UInt16.toNat h0 <;> simp at this <;> omega

theorem units_append (a b : List UInt16) : units (a ++ b) = units a ++ units b := by simp [units]

theorem utf16_units (s : Str) (hs : '\x00' ∉ s) : ∃ us : List UInt16, utf16 s = units us ∧ 0 ∉ us := by
  induction s with
  | nil => exact ⟨[], rfl, by simp⟩
  | cons c s ih =>
    simp only [List.mem_cons, not_or] at hs
    obtain ⟨us, h1, h2⟩ := ih hs.2
    obtain ⟨us', h1', h2'⟩ := utf16Char_units c
    refine ⟨us' ++ us, ?_, ?_⟩
    · rw [units_append, ← h1, ← h1']; simp [utf16]
    · simp only [List.mem_append, not_or]; exact ⟨h2' (fun e => hs.1 e.symm), h2⟩

theorem unit_value {n : Nat} (h : n < 65536) :
    (UInt8.ofNat n).toNat + 256 * (UInt8.ofNat (n / 256)).toNat = n := by
  simp only [UInt8.toNat_ofNat']; omega

theorem ofNat_toNat (c : Char) : Char.ofNat c.toNat = c := by
  exact Char.ofNat_toNat c

theorem utf16Pieces_two (lo hi : UInt8) (rest : Bytes) : utf16Pieces (lo :: hi :: rest) =
    if isLowSurr (lo.toNat + 256 * hi.toNat) then none :: utf16Pieces rest
    else if isHighSurr (lo.toNat + 256 * hi.toNat) then
      match rest with
      | lo2 :: hi2 :: rest2 =>
        if isLowSurr (lo2.toNat + 256 * hi2.toNat) then
          some (Char.ofNat (0x10000 + (lo.toNat + 256 * hi.toNat - 0xD800) * 0x400
            + (lo2.toNat + 256 * hi2.toNat - 0xDC00))) :: utf16Pieces rest2
        else none :: utf16Pieces (lo2 :: hi2 :: rest2)
      | _ => [none]
    else some (Char.ofNat (lo.toNat + 256 * hi.toNat)) :: utf16Pieces rest := by
  rw [utf16Pieces.eq_def]
  rcases rest with _ | ⟨_, _ | ⟨_, _⟩⟩ <;> rfl

theorem utf16Pieces_char (c : Char) (rest : Bytes) :
    utf16Pieces (utf16Char c ++ rest) = some c :: utf16Pieces rest := by
  have hv := char_range c
  unfold utf16Char
  split
  · rename_i h
    rw [le2_pair]
    simp only [List.cons_append, List.nil_append]
    rw [utf16Pieces_two]
    simp only [unit_value h]
    rw [if_neg (by simp [isLowSurr]; omega), if_neg (by simp [isHighSurr]; omega), ofNat_toNat]
  · rename_i h
    have h1 : 0xD800 + (c.toNat - 0x10000) / 1024 < 65536 := by omega
    have h2 : 0xDC00 + (c.toNat - 0x10000) % 1024 < 65536 := by omega
    rw [le2_pair, le2_pair]
    simp only [List.cons_append, List.nil_append]
    rw [utf16Pieces_two]
    simp only [unit_value h1, unit_value h2]
    rw [if_neg (by simp [isLowSurr]; omega), if_pos (by simp [isHighSurr]; omega), if_pos (by simp [isLowSurr]; omega)]
    have : 0x10000 + (0xD800 + (c.toNat - 0x10000) / 1024 - 0xD800) * 0x400 +
      (0xDC00 + (c.toNat - 0x10000) % 1024 - 0xDC00) = c.toNat := by omega
    rw [this, ofNat_toNat]

theorem utf16Pieces_utf16 (s : Str) (rest : Bytes) :
    utf16Pieces (utf16 s ++ rest) = s.map some ++ utf16Pieces rest := by
  induction s with
  | nil => simp [utf16]
  | cons c s ih =>
    have : utf16 (c :: s) = utf16Char c ++ utf16 s := by simp [utf16]
    rw [this, List.append_assoc, utf16Pieces_char, ih]; rfl

theorem utf16Pieces_low (u : UInt16) (h : LowUnit u) (rest : Bytes) :
    utf16Pieces (le 2 u.toNat ++ rest) = none :: utf16Pieces rest := by
  have := u.toNat_lt
  rw [le2_pair]
  simp only [List.cons_append, List.nil_append]
  rw [utf16Pieces_two]
  simp only [unit_value this]
  rw [if_pos (by simp [isLowSurr, LowUnit] at *; omega)]

theorem utf16Pieces_highEnd (u : UInt16) (h : HighUnit u) (rest : Bytes) (hr : rest.length < 2) :
    utf16Pieces (le 2 u.toNat ++ rest) = [none] := by
  have := u.toNat_lt
  rw [le2_pair]
  simp only [List.cons_append, List.nil_append]
  rw [utf16Pieces_two]
  simp only [unit_value this]
  rw [if_neg (by simp [isLowSurr, HighUnit] at *; omega), if_pos (by simp [isHighSurr, HighUnit] at *; omega)]
  match rest, hr with
  | [], _ => rfl
  | [_], _ => rfl

theorem utf16Pieces_high (u v : UInt16) (h : HighUnit u) (hv : ¬ LowUnit v) (rest : Bytes) :
    utf16Pieces (le 2 u.toNat ++ (le 2 v.toNat ++ rest)) = none :: utf16Pieces (le 2 v.toNat ++ rest) := by
  have hu' := u.toNat_lt
  have hv' := v.toNat_lt
  rw [le2_pair, le2_pair]
  simp only [List.cons_append, List.nil_append]
  rw [utf16Pieces_two]
  simp only [unit_value hu', unit_value hv']
  rw [if_neg (by simp [isLowSurr, HighUnit] at *; omega), if_pos (by simp [isHighSurr, HighUnit] at *; omega),
    if_neg (by simp [isLowSurr, LowUnit] at *; omega)]

theorem utf16_cons (c : Char) (s : Str) : utf16 (c :: s) = utf16Char c ++ utf16 s := by simp [utf16]

/-- The decoder covers every input: either a character or one of the errors. -/
theorem utf16_step (b : Bytes) : b = [] ∨ (∃ x, b = [x]) ∨ (∃ c r, b = utf16Char c ++ r) ∨
    (∃ u r, LowUnit u ∧ b = le 2 u.toNat ++ r) ∨ (∃ u r, HighUnit u ∧ r.length < 2 ∧ b = le 2 u.toNat ++ r) ∨
    (∃ u v r, HighUnit u ∧ ¬ LowUnit v ∧ b = le 2 u.toNat ++ (le 2 v.toNat ++ r)) := by
  match b with
  | [] => left; rfl
  | [x] => right; left; exact ⟨x, rfl⟩
  | x :: y :: r =>
    right; right
    obtain ⟨u, hu⟩ := le2_surj (b := [x, y]) rfl
    have e : x :: y :: r = le 2 u.toNat ++ r := by rw [hu]; rfl
    have hlt := u.toNat_lt
    rw [e]
    by_cases hl : LowUnit u
    · right; left; exact ⟨u, r, hl, rfl⟩
    by_cases hh : HighUnit u
    · match r with
      | [] => right; right; left; exact ⟨u, [], hh, by simp, rfl⟩
      | [z] => right; right; left; exact ⟨u, [z], hh, by simp, rfl⟩
      | z :: w :: r =>
        obtain ⟨v, hv⟩ := le2_surj (b := [z, w]) rfl
        have e : z :: w :: r = le 2 v.toNat ++ r := by rw [hv]; rfl
        rw [e]
        by_cases hl2 : LowUnit v
        · left
          unfold LowUnit at hl2
          unfold HighUnit at hh
          have hc : (0x10000 + (u.toNat - 0xD800) * 1024 + (v.toNat - 0xDC00)).isValidChar := by
            unfold Nat.isValidChar; omega
          refine ⟨Char.ofNat (0x10000 + (u.toNat - 0xD800) * 1024 + (v.toNat - 0xDC00)), r, ?_⟩
          have hn : (Char.ofNat (0x10000 + (u.toNat - 0xD800) * 1024 + (v.toNat - 0xDC00))).toNat =
              0x10000 + (u.toNat - 0xD800) * 1024 + (v.toNat - 0xDC00) := by
            unfold Char.ofNat; rw [dif_pos hc]; rfl
          unfold utf16Char
          rw [hn, if_neg (by omega), ← List.append_assoc]
          have a1 : 0xD800 + (0x10000 + (u.toNat - 0xD800) * 1024 + (v.toNat - 0xDC00) - 0x10000) / 1024 = u.toNat := by
            omega
          have a2 : 0xDC00 + (0x10000 + (u.toNat - 0xD800) * 1024 + (v.toNat - 0xDC00) - 0x10000) % 1024 = v.toNat := by
            omega
          rw [a1, a2]
        · right; right; right; exact ⟨u, v, r, hh, hl2, rfl⟩
    · left
      unfold LowUnit at hl
      unfold HighUnit at hh
      have hc : u.toNat.isValidChar := by unfold Nat.isValidChar; omega
      refine ⟨Char.ofNat u.toNat, r, ?_⟩
      have hn : (Char.ofNat u.toNat).toNat = u.toNat := by unfold Char.ofNat; rw [dif_pos hc]; rfl
      unfold utf16Char
      rw [hn, if_pos hlt]

theorem utf16Char_length_pos (c : Char) : 0 < (utf16Char c).length := by
  unfold utf16Char; split <;> simp

theorem utf16Lenient_total (b : Bytes) : ∃ s, Utf16Lenient b s := by
  induction hn : b.length using Nat.strongRecOn generalizing b with
  | _ n ih =>
    rcases utf16_step b with rfl | ⟨x, rfl⟩ | ⟨c, r, rfl⟩ | ⟨u, r, hu, rfl⟩ | ⟨u, r, hu, hr, rfl⟩ | ⟨u, v, r, hu, hv, rfl⟩
    · exact ⟨_, .nil⟩
    · exact ⟨_, .odd x⟩
    · have := utf16Char_length_pos c
      obtain ⟨s, hs⟩ := ih r.length (by simp at hn; omega) r rfl
      exact ⟨_, .char c hs⟩
    · obtain ⟨s, hs⟩ := ih r.length (by simp at hn; omega) r rfl
      exact ⟨_, .low u hu hs⟩
    · exact ⟨_, .highEnd u hu hr⟩
    · obtain ⟨s, hs⟩ := ih (le 2 v.toNat ++ r).length (by simp at hn ⊢; omega) _ rfl
      exact ⟨_, .high u v hu hv hs⟩

theorem replacementChar_eq : replacementChar = '�' := rfl

theorem utf16Lenient_pieces {b : Bytes} {s : Str} (h : Utf16Lenient b s) : replaceOf (utf16Pieces b) = s := by
  induction h with
  | nil => rfl
  | char c _ ih => rw [utf16Pieces_char]; simp only [replaceOf, List.map_cons] at *; rw [ih]; rfl
  | odd x => rfl
  | low u hu _ ih => rw [utf16Pieces_low u hu]; simp only [replaceOf, List.map_cons] at *; rw [ih]; rfl
  | highEnd u hu hr => rw [utf16Pieces_highEnd u hu _ hr]; rfl
  | high u v hu hv _ ih =>
    rw [utf16Pieces_high u v hu hv]; simp only [replaceOf, List.map_cons] at *; rw [ih]; rfl

/-- No error piece means the bytes are an encoding. -/
theorem utf16Pieces_all (b : Bytes) (h : (utf16Pieces b).all Option.isSome = true) : ∃ s, b = utf16 s := by
  induction hn : b.length using Nat.strongRecOn generalizing b with
  | _ n ih =>
    rcases utf16_step b with rfl | ⟨x, rfl⟩ | ⟨c, r, rfl⟩ | ⟨u, r, hu, rfl⟩ | ⟨u, r, hu, hr, rfl⟩ | ⟨u, v, r, hu, hv, rfl⟩
    · exact ⟨[], rfl⟩
    · simp [utf16Pieces] at h
    · have := utf16Char_length_pos c
      rw [utf16Pieces_char] at h
      obtain ⟨s, rfl⟩ := ih r.length (by simp at hn; omega) r (by simpa using h) rfl
      exact ⟨c :: s, by rw [utf16_cons]⟩
    · rw [utf16Pieces_low u hu] at h; simp at h
    · rw [utf16Pieces_highEnd u hu _ hr] at h; simp at h
    · rw [utf16Pieces_high u v hu hv] at h; simp at h

theorem wideToStr_utf16 (s : Str) : TextProc.wideToStr (utf16 s) = pure s := by
  have h := utf16Pieces_utf16 s []
  simp only [List.append_nil, utf16Pieces] at h
  unfold TextProc.wideToStr decodeUtf16
  have e : strictOf (utf16Pieces (utf16 s)) = .ok s := by
    rw [h]; simp [strictOf, Function.comp_def]
  rw [e]; rfl

theorem wideToStr_bad {b : Bytes} {s : Str} (hb : ∀ t, b ≠ utf16 t) (h : Utf16Lenient b s) :
    TextProc.wideToStr b = ⟨[.decode s], .ok s⟩ := by
  have ha : ¬ (utf16Pieces b).all Option.isSome = true := by
    intro hc
    obtain ⟨t, ht⟩ := utf16Pieces_all b hc
    exact hb t ht
  unfold TextProc.wideToStr decodeUtf16 decodeUtf16Replace
  rw [utf16Lenient_pieces h]
  simp only [strictOf, ha]
  rfl

theorem readUnicodeString_utf16 {s : Str} (hs : '\x00' ∉ s) : TextProc.readUnicodeString (utf16 s) = pure s := by
  obtain ⟨us, h1, h2⟩ := utf16_units s hs
  have := readUnicodeString_last us h2 [] (by simp)
  rw [List.append_nil, ← h1] at this
  rw [this, wideToStr_utf16]

theorem readUnicodeString_utf16_nul {s : Str} (hs : '\x00' ∉ s) (rest : Bytes) :
    TextProc.readUnicodeString (utf16 s ++ 0 :: 0 :: rest) = pure s := by
  obtain ⟨us, h1, h2⟩ := utf16_units s hs
  have := readUnicodeString_cons us h2 rest
  rw [← h1] at this
  rw [this, wideToStr_utf16]

end Verif
