import Verif.Lemmas.Header
import Verif.Py.Json
import Verif.Spec.Json

namespace Verif

open Spec

namespace Json

open Spec.Json

/-! ### strings -/

theorem hexVal_lower {d : Nat} (h : d < 16) : hexVal (hexDigitLower d) = some d := by
  revert d
  decide

theorem hex4_eq {n : Nat} (h : n < 65536) :
    hex4 n = [hexDigitLower (n / 4096), hexDigitLower (n / 256 % 16), hexDigitLower (n / 16 % 16), hexDigitLower (n % 16)] := by
  unfold hex4
  rw [zpad_hexStr_lower (by decide) (by omega)]
  simp only [hexFixedLower]
  have h1 : n / 16 / 16 / 16 % 16 = n / 4096 := by omega
  have h2 : n / 16 / 16 % 16 = n / 256 % 16 := by omega
  rw [h1, h2]
  rfl

theorem fourHex_hex4 {n : Nat} (h : n < 65536) (rest : Str) : fourHex (hex4 n ++ rest) = some (n, rest) := by
  rw [hex4_eq h]
  simp only [List.cons_append, List.nil_append, fourHex, hexVal_lower (show n / 4096 < 16 by omega),
    hexVal_lower (show n / 256 % 16 < 16 by omega), hexVal_lower (show n / 16 % 16 < 16 by omega),
    hexVal_lower (show n % 16 < 16 by omega), Option.bind_eq_bind, Option.bind_some]
  congr 2
  omega

theorem char_ofNat_toNat (c : Char) : Char.ofNat c.toNat = c := Char.ofNat_toNat c

theorem char_cases (c : Char) : c.toNat < 0xD800 ∨ (0xE000 ≤ c.toNat ∧ c.toNat < 0x110000) := by
  have := c.valid
  simp only [UInt32.isValidChar, Nat.isValidChar] at this
  have e : c.toNat = c.val.toNat := rfl
  omega

theorem oneChar_plain {c : Char} (h1 : c ≠ '\\') (h2 : c ≠ '"') (h3 : 0x20 ≤ c.toNat) (rest : Str) :
    oneChar (c :: rest) = some (c, rest) := by
  show (if c = '\\' then _ else if c = '"' ∨ c.toNat < 0x20 then none else some (c, rest)) = _
  rw [if_neg h1, if_neg]
  rintro (h | h)
  · exact h2 h
  · omega

theorem oneChar_quote (rest : Str) : oneChar ('"' :: rest) = none := rfl

theorem oneChar_unit (n : Nat) (h : n < 65536) (h1 : ¬ (0xD800 ≤ n ∧ n < 0xE000)) (rest : Str) :
    oneChar ('\\' :: 'u' :: (hex4 n ++ rest)) = some (Char.ofNat n, rest) := by
  show ((fourHex (hex4 n ++ rest)).bind fun p => _) = _
  rw [fourHex_hex4 h]
  show (if 0xD800 ≤ n ∧ n < 0xDC00 then _ else if 0xDC00 ≤ n ∧ n < 0xE000 then none else some (Char.ofNat n, rest)) = _
  rw [if_neg (by omega), if_neg (by omega)]

theorem oneChar_pair (n m : Nat) (h1 : 0xD800 ≤ n) (h2 : n < 0xDC00) (h3 : 0xDC00 ≤ m) (h4 : m < 0xE000) (rest : Str) :
    oneChar ('\\' :: 'u' :: (hex4 n ++ '\\' :: 'u' :: (hex4 m ++ rest))) =
      some (Char.ofNat (0x10000 + (n - 0xD800) * 0x400 + (m - 0xDC00)), rest) := by
  show ((fourHex (hex4 n ++ '\\' :: 'u' :: (hex4 m ++ rest))).bind fun p => _) = _
  rw [fourHex_hex4 (by omega)]
  show (if 0xD800 ≤ n ∧ n < 0xDC00 then ((fourHex (hex4 m ++ rest)).bind fun p => _) else _) = _
  rw [if_pos ⟨h1, h2⟩, fourHex_hex4 (by omega)]
  show (if 0xDC00 ≤ m ∧ m < 0xE000 then _ else none) = _
  rw [if_pos ⟨h3, h4⟩]

theorem oneChar_letter (c e : Char) (rest : Str) (he : e ≠ 'u') (h : simpleEscape e = some c) :
    oneChar ('\\' :: e :: rest) = some (c, rest) := by
  show (if e = 'u' then _ else (simpleEscape e).map fun x => (x, rest)) = _
  rw [if_neg he, h]
  rfl

theorem toNat_inj {c : Char} {n : Nat} (h : c.toNat = n) : c = Char.ofNat n := by rw [← h, char_ofNat_toNat]

theorem oneChar_high (n : Nat) (h9 : ¬ n < 0x10000) (h : n < 0x110000) (rest : Str) :
    oneChar ('\\' :: 'u' :: (hex4 (0xD800 + (n - 0x10000) / 0x400) ++ '\\' :: 'u' ::
      (hex4 (0xDC00 + (n - 0x10000) % 0x400) ++ rest))) = some (Char.ofNat n, rest) := by
  rw [oneChar_pair _ _ (by omega) (by omega) (by omega) (by omega)]
  have e : 0x10000 + (0xD800 + (n - 0x10000) / 0x400 - 0xD800) * 0x400 +
      (0xDC00 + (n - 0x10000) % 0x400 - 0xDC00) = n := by omega
  rw [e]

theorem oneChar_escChar (c : Char) (rest : Str) : oneChar (escChar c ++ rest) = some (c, rest) := by
  unfold escChar
  by_cases h1 : c = '"'
  · rw [if_pos h1]; exact oneChar_letter _ _ _ (by decide) (by rw [h1]; decide)
  rw [if_neg h1]
  by_cases h2 : c = '\\'
  · rw [if_pos h2]; exact oneChar_letter _ _ _ (by decide) (by rw [h2]; decide)
  rw [if_neg h2]
  by_cases h3 : c = '\n'
  · rw [if_pos h3]; exact oneChar_letter _ _ _ (by decide) (by rw [h3]; decide)
  rw [if_neg h3]
  by_cases h4 : c = '\r'
  · rw [if_pos h4]; exact oneChar_letter _ _ _ (by decide) (by rw [h4]; decide)
  rw [if_neg h4]
  by_cases h5 : c = '\t'
  · rw [if_pos h5]; exact oneChar_letter _ _ _ (by decide) (by rw [h5]; decide)
  rw [if_neg h5]
  by_cases h6 : c.toNat = 12
  · rw [if_pos h6]; exact oneChar_letter _ _ _ (by decide) (by rw [toNat_inj h6]; decide)
  rw [if_neg h6]
  by_cases h7 : c.toNat = 8
  · rw [if_pos h7]; exact oneChar_letter _ _ _ (by decide) (by rw [toNat_inj h7]; decide)
  rw [if_neg h7]
  have := char_cases c
  by_cases h8 : 0x20 ≤ c.toNat ∧ c.toNat ≤ 0x7E
  · rw [if_pos h8]
    exact oneChar_plain h2 h1 h8.1 rest
  rw [if_neg h8]
  by_cases h9 : c.toNat < 0x10000
  · rw [if_pos h9]
    have := oneChar_unit _ h9 (by omega) rest
    rwa [char_ofNat_toNat] at this
  · rw [if_neg h9]
    have := oneChar_high _ h9 (by omega) rest
    rw [char_ofNat_toNat] at this
    rw [List.cons_append, List.cons_append, List.append_assoc, List.cons_append, List.cons_append]
    exact this

theorem escChar_length (c : Char) : 1 ≤ (escChar c).length := by
  have h := oneChar_escChar c []
  rcases hs : escChar c with _ | ⟨d, ds⟩
  · rw [hs] at h
    exact absurd h (by simp [oneChar])
  · simp

theorem escChar_head (c : Char) (rest : Str) : (escChar c ++ rest).head? ≠ some '"' := by
  intro h
  have h1 := oneChar_escChar c rest
  rcases hs : escChar c ++ rest with _ | ⟨d, ds⟩
  · rw [hs] at h; simp at h
  · rw [hs] at h h1
    obtain rfl : d = '"' := by simpa using h
    rw [oneChar_quote] at h1
    simp at h1

theorem stringBody_esc (s rest : Str) (n : Nat) (h : s.length < n) :
    stringBody n (s.flatMap escChar ++ '"' :: rest) = some (s, rest) := by
  induction s generalizing n with
  | nil =>
    obtain ⟨n, rfl⟩ : ∃ m, n = m + 1 := ⟨n - 1, by simp at h; omega⟩
    rw [stringBody]
    rfl
  | cons c s ih =>
    obtain ⟨n, rfl⟩ : ∃ m, n = m + 1 := ⟨n - 1, by simp at h; omega⟩
    rw [stringBody, List.flatMap_cons, List.append_assoc, if_neg (escChar_head _ _), oneChar_escChar]
    simp only [Option.bind_eq_bind, Option.bind_some]
    rw [ih n (by simp at h; omega)]
    rfl

theorem flatMap_escChar_length (s : Str) : s.length ≤ (s.flatMap escChar).length := by
  induction s with
  | nil => simp
  | cons c s ih => rw [List.flatMap_cons, List.length_append, List.length_cons]; have := escChar_length c; omega

theorem quote_body (s rest : Str) : ∃ b, quote s ++ rest = '"' :: b ∧ stringBody (b.length + 1) b = some (s, rest) := by
  refine ⟨s.flatMap escChar ++ '"' :: rest, by simp [quote], stringBody_esc s rest _ ?_⟩
  have := flatMap_escChar_length s
  rw [List.length_append]
  omega

/-! ### numbers -/

theorem decStr_ne_nil (n : Nat) : decStr n ≠ [] := by
  rw [decStr]; split <;> simp

theorem decStr_head_zero (n : Nat) (h : (decStr n).head? = some '0') : n = 0 := by
  induction n using Nat.strongRecOn with
  | _ n ih =>
    rw [decStr] at h
    split at h
    · rename_i hn
      have : ∀ n < 10, [Char.ofNat (48 + n)].head? = some '0' → n = 0 := by decide
      exact this n hn h
    · rename_i hn
      rw [List.head?_append_of_ne_nil _ (decStr_ne_nil _)] at h
      have := ih (n / 10) (by omega) h
      omega

theorem decStr_digits (n : Nat) : ∀ c ∈ decStr n, c.isDigit = true := by
  intro c hc
  rw [decStr_eq] at hc
  exact Nat.isDigit_of_mem_toDigits (b := 10) (by decide) (by decide) hc

theorem natural_decStr (n : Nat) (rest : Str) (h : ∀ c ∈ rest.head?, c.isDigit = false) :
    natural (decStr n ++ rest) = some (n, rest) := by
  have ht : rest.takeWhile Char.isDigit = [] := by
    cases rest with
    | nil => rfl
    | cons c r => rw [List.takeWhile_cons_of_neg]; simp [h c (by simp)]
  have ht' : rest.dropWhile Char.isDigit = rest := by
    cases rest with
    | nil => rfl
    | cons c r => rw [List.dropWhile_cons_of_neg]; simp [h c (by simp)]
  unfold natural
  simp only
  rw [List.takeWhile_append_of_pos (decStr_digits n), ht, List.append_nil, List.dropWhile_append_of_pos (decStr_digits n),
    ht', if_neg]
  · rw [decStr_eq, Nat.ofDigitChars_ten_toDigits]
  · rintro (h1 | ⟨h1, h2⟩)
    · exact decStr_ne_nil n h1
    · obtain rfl := decStr_head_zero n h1
      exact absurd h2 (by decide +kernel)

theorem number_decInt (i : Int) (rest : Str) (h : ∀ c ∈ rest.head?, c.isDigit = false) :
    number (decInt i ++ rest) = some (i, rest) := by
  cases i with
  | ofNat n =>
    have h1 := natural_decStr n rest h
    show number (decStr n ++ rest) = _
    unfold number
    split
    · rename_i cs he
      have h2 := decStr_digits n '-'
      have : '-' ∈ decStr n := by
        rcases hd : decStr n with _ | ⟨c, l⟩
        · exact absurd hd (decStr_ne_nil n)
        · rw [hd, List.cons_append, List.cons.injEq] at he
          rw [he.1]; exact List.mem_cons_self
      exact absurd (h2 this) (by decide)
    · rw [h1]; rfl
  | negSucc n =>
    show number ('-' :: (decStr (n + 1) ++ rest)) = _
    show ((natural (decStr (n + 1) ++ rest)).bind fun p => _) = _
    rw [natural_decStr _ _ h]
    rfl

/-! ### trees -/

mutual
/-- The JSON value with the same leaves and order. -/
def toJ : PyVal → JVal
  | .none => .null
  | .int i => .num i
  | .str s => .str s
  | .dt d => .str d.isoSeconds
  | .list l => .arr (toJList l)
  | .dict d => .obj (toJDict d)
def toJList : List PyVal → List JVal
  | [] => []
  | v :: l => toJ v :: toJList l
def toJDict : List (String × PyVal) → List (List Char × JVal)
  | [] => []
  | (k, v) :: d => (k.toList, toJ v) :: toJDict d
end

theorem skipWs_newline (n : Nat) (c : Char) (s : Str) (h : isWs c = false) : skipWs (newline n ++ c :: s) = c :: s := by
  unfold newline skipWs
  rw [List.dropWhile_append_of_pos, List.dropWhile_cons_of_neg (by rw [h]; simp)]
  intro d hd
  rcases List.mem_cons.1 hd with rfl | hd
  · rfl
  · rw [(List.mem_replicate.1 hd).2]; rfl

theorem skipWs_cons (c : Char) (s : Str) (h : isWs c = false) : skipWs (c :: s) = c :: s := by
  unfold skipWs
  rw [List.dropWhile_cons_of_neg (by rw [h]; simp)]

theorem decInt_head (i : Int) : ∃ c s, decInt i = c :: s ∧ (c = '-' ∨ c.isDigit = true) := by
  cases i with
  | ofNat n =>
    rcases hd : decStr n with _ | ⟨c, l⟩
    · exact absurd hd (decStr_ne_nil n)
    · exact ⟨c, l, hd, .inr (decStr_digits n c (by rw [hd]; exact List.mem_cons_self))⟩
  | negSucc n => exact ⟨_, _, rfl, .inl rfl⟩

/-- A value does not start with white space. -/
theorem dump_head (lvl : Nat) (v : PyVal) : ∃ c s, dump lvl v = c :: s ∧ isWs c = false ∧ c ≠ ']' ∧ c ≠ '}' := by
  rcases v with _ | i | s | d | l | d
  · exact ⟨_, _, rfl, by decide, by decide, by decide⟩
  · have := decInt_head i
    obtain ⟨c, s, h1, h2⟩ := this
    refine ⟨c, s, by rw [dump, h1], ?_⟩
    rcases h2 with rfl | h2
    · exact ⟨by decide, by decide, by decide⟩
    · have hne : ∀ x : Char, x.isDigit = false → c ≠ x := by
        rintro x hx rfl
        rw [h2] at hx; cases hx
      refine ⟨?_, hne _ (by decide), hne _ (by decide)⟩
      simp [isWs, hne ' ' (by decide), hne '\n' (by decide), hne '\r' (by decide), hne '\t' (by decide)]
  · exact ⟨_, _, rfl, by decide, by decide, by decide⟩
  · exact ⟨_, _, rfl, by decide, by decide, by decide⟩
  · rcases l with _ | ⟨v, l⟩
    · exact ⟨_, _, rfl, by decide, by decide, by decide⟩
    · exact ⟨_, _, rfl, by decide, by decide, by decide⟩
  · rcases d with _ | ⟨⟨k, v⟩, d⟩
    · exact ⟨_, _, rfl, by decide, by decide, by decide⟩
    · exact ⟨_, _, rfl, by decide, by decide, by decide⟩

theorem skipWs_newline_dump (n lvl : Nat) (v : PyVal) (s : Str) :
    skipWs (newline n ++ (dump lvl v ++ s)) = dump lvl v ++ s := by
  obtain ⟨c, t, h, h1, -⟩ := dump_head lvl v
  rw [h, List.cons_append, skipWs_newline _ _ _ h1]

theorem skipWs_dump (lvl : Nat) (v : PyVal) (s : Str) : skipWs (dump lvl v ++ s) = dump lvl v ++ s := by
  obtain ⟨c, t, h, h1, -⟩ := dump_head lvl v
  rw [h, List.cons_append, skipWs_cons _ _ h1]

/-- No digit. -/
def NoDigit (rest : Str) : Prop := ∀ c ∈ rest.head?, c.isDigit = false

theorem noDigit_newline (n : Nat) (s : Str) : NoDigit (newline n ++ s) := by
  intro c hc
  obtain rfl : '\n' = c := by simpa [newline] using hc
  decide

theorem noDigit_comma (s : Str) : NoDigit (',' :: s) := by
  intro c hc
  obtain rfl : ',' = c := by simpa using hc
  decide

theorem value_str (n : Nat) (s rest : Str) : value (n + 1) (quote s ++ rest) = some (.str s, rest) := by
  obtain ⟨b, h1, h2⟩ := quote_body s rest
  rw [h1, value, if_pos rfl, h2]
  rfl

theorem value_int (n : Nat) (i : Int) (rest : Str) (hr : NoDigit rest) :
    value (n + 1) (decInt i ++ rest) = some (.num i, rest) := by
  have hn := number_decInt i rest hr
  obtain ⟨c, s, h, h2⟩ := decInt_head i
  have hne : ∀ x : Char, x.isDigit = false → x ≠ '-' → c ≠ x := by
    rintro x hx hm rfl
    rcases h2 with h2 | h2
    · exact hm h2
    · rw [h2] at hx; cases hx
  rw [h, List.cons_append] at hn ⊢
  rw [value, if_neg (hne _ (by decide) (by decide)), if_neg (hne _ (by decide) (by decide)),
    if_neg (hne _ (by decide) (by decide)), if_neg (hne _ (by decide) (by decide)), if_neg (hne _ (by decide) (by decide)),
    if_neg (hne _ (by decide) (by decide)), hn]
  rfl

theorem noDigit_dumpList (lvl lvl' : Nat) (l : List PyVal) (s : Str) : NoDigit (dumpList lvl l ++ (newline lvl' ++ s)) := by
  cases l with
  | nil => exact noDigit_newline _ _
  | cons v l => exact noDigit_comma _

theorem noDigit_dumpDict (lvl lvl' : Nat) (d : List (String × PyVal)) (s : Str) :
    NoDigit (dumpDict lvl d ++ (newline lvl' ++ s)) := by
  cases d with
  | nil => exact noDigit_newline _ _
  | cons e d => exact noDigit_comma _

theorem member_dump (n : Nat) (k : Str) (lvl : Nat) (v : PyVal) (rest : Str)
    (hv : value n (dump lvl v ++ rest) = some (toJ v, rest)) :
    member (n + 1) (quote k ++ (": ".toList ++ (dump lvl v ++ rest))) = some ((k, toJ v), rest) := by
  obtain ⟨b, h1, h2⟩ := quote_body k (": ".toList ++ (dump lvl v ++ rest))
  have e : ": ".toList ++ (dump lvl v ++ rest) = ':' :: ' ' :: (dump lvl v ++ rest) := rfl
  have hs : skipWs (' ' :: (dump lvl v ++ rest)) = dump lvl v ++ rest := by
    have := skipWs_dump lvl v rest
    unfold skipWs at this ⊢
    rw [List.dropWhile_cons_of_pos (by decide), this]
  rw [h1, member, if_pos rfl, h2, e]
  simp only [Option.bind_eq_bind, Option.bind_some, skipWs_cons ':' _ (by decide), List.head?_cons, if_true, List.tail_cons, hs]
  rw [hv]
  rfl

mutual
theorem value_dump (lvl : Nat) (v : PyVal) (rest : Str) (hr : NoDigit rest) (fuel : Nat)
    (hf : (dump lvl v).length ≤ fuel) : value fuel (dump lvl v ++ rest) = some (toJ v, rest) := by
  obtain ⟨n, rfl⟩ : ∃ n, fuel = n + 1 := by
    obtain ⟨c, s, h, -⟩ := dump_head lvl v
    rw [h] at hf
    exact ⟨fuel - 1, by simp at hf; omega⟩
  match v with
  | .none => rfl
  | .str s => exact value_str n s rest
  | .dt d => exact value_str n _ rest
  | .int i => exact value_int n i rest hr
  | .list [] => rfl
  | .list (v :: l) =>
    have hl : (dump (lvl + 1) v).length + (dumpList (lvl + 1) l).length + 1 ≤ n := by
      rw [dump] at hf
      simp [newline] at hf ⊢
      omega
    have e : dump lvl (.list (v :: l)) ++ rest =
        '[' :: (newline (lvl + 1) ++ (dump (lvl + 1) v ++ (dumpList (lvl + 1) l ++ (newline lvl ++ ']' :: rest)))) := by
      rw [dump]; simp
    have h1 := value_dump (lvl + 1) v (dumpList (lvl + 1) l ++ (newline lvl ++ ']' :: rest))
      (noDigit_dumpList _ _ _ _) n (by omega)
    have h2 := elements_dump (lvl + 1) lvl l rest n (by omega)
    have hh : (dump (lvl + 1) v ++ (dumpList (lvl + 1) l ++ (newline lvl ++ ']' :: rest))).head? ≠ some ']' := by
      obtain ⟨c, s, h, -, h3, -⟩ := dump_head (lvl + 1) v
      rw [h]; simpa using h3
    rw [e, value, if_neg (by decide), if_pos rfl]
    simp only [skipWs_newline_dump, if_neg hh]
    rw [h1]
    simp only [Option.bind_eq_bind, Option.bind_some]
    rw [h2]
    rfl
  | .dict [] => rfl
  | .dict ((k, v) :: d) =>
    have hl : (dump (lvl + 1) v).length + (dumpDict (lvl + 1) d).length + 2 ≤ n := by
      rw [dump] at hf
      simp [newline, quote] at hf ⊢
      omega
    obtain ⟨m, rfl⟩ : ∃ m, n = m + 1 := ⟨n - 1, by omega⟩
    have e : dump lvl (.dict ((k, v) :: d)) ++ rest =
        '{' :: (newline (lvl + 1) ++ (quote k.toList ++ (": ".toList ++ (dump (lvl + 1) v ++
          (dumpDict (lvl + 1) d ++ (newline lvl ++ '}' :: rest)))))) := by
      rw [dump]; simp
    have h1 := value_dump (lvl + 1) v (dumpDict (lvl + 1) d ++ (newline lvl ++ '}' :: rest))
      (noDigit_dumpDict _ _ _ _) m (by omega)
    have h1' := member_dump m k.toList (lvl + 1) v _ h1
    have h2 := members_dump (lvl + 1) lvl d rest (m + 1) (by omega)
    have hs : skipWs (newline (lvl + 1) ++ (quote k.toList ++ (": ".toList ++ (dump (lvl + 1) v ++
          (dumpDict (lvl + 1) d ++ (newline lvl ++ '}' :: rest)))))) =
        quote k.toList ++ (": ".toList ++ (dump (lvl + 1) v ++ (dumpDict (lvl + 1) d ++ (newline lvl ++ '}' :: rest)))) :=
      skipWs_newline _ '"' _ (by decide)
    rw [e, value, if_neg (by decide), if_neg (by decide), if_pos rfl]
    simp only [hs]
    rw [if_neg (by simp [quote]), h1']
    simp only [Option.bind_eq_bind, Option.bind_some]
    rw [h2]
    rfl
theorem elements_dump (lvl lvl' : Nat) (l : List PyVal) (rest : Str) (fuel : Nat)
    (hf : (dumpList lvl l).length + 1 ≤ fuel) :
    elements fuel (skipWs (dumpList lvl l ++ (newline lvl' ++ ']' :: rest))) = some (toJList l, rest) := by
  obtain ⟨n, rfl⟩ : ∃ n, fuel = n + 1 := ⟨fuel - 1, by omega⟩
  match l with
  | [] =>
    rw [dumpList, List.nil_append, skipWs_newline _ _ _ (by decide), elements, if_pos rfl]
    rfl
  | v :: l =>
    have hl : (dump lvl v).length + (dumpList lvl l).length + 1 ≤ n := by
      rw [dumpList] at hf
      simp [newline] at hf ⊢
      omega
    have h1 := value_dump lvl v (dumpList lvl l ++ (newline lvl' ++ ']' :: rest)) (noDigit_dumpList _ _ _ _) n (by omega)
    have h2 := elements_dump lvl lvl' l rest n (by omega)
    have e : dumpList lvl (v :: l) ++ (newline lvl' ++ ']' :: rest) =
        ',' :: (newline lvl ++ (dump lvl v ++ (dumpList lvl l ++ (newline lvl' ++ ']' :: rest)))) := by
      rw [dumpList]; simp
    rw [e, skipWs_cons _ _ (by decide), elements, if_neg (by decide), if_pos rfl, skipWs_newline_dump, h1]
    simp only [Option.bind_eq_bind, Option.bind_some]
    rw [h2]
    rfl
theorem members_dump (lvl lvl' : Nat) (d : List (String × PyVal)) (rest : Str) (fuel : Nat)
    (hf : (dumpDict lvl d).length + 1 ≤ fuel) :
    members fuel (skipWs (dumpDict lvl d ++ (newline lvl' ++ '}' :: rest))) = some (toJDict d, rest) := by
  obtain ⟨n, rfl⟩ : ∃ n, fuel = n + 1 := ⟨fuel - 1, by omega⟩
  match d with
  | [] =>
    rw [dumpDict, List.nil_append, skipWs_newline _ _ _ (by decide), members, if_pos rfl]
    rfl
  | (k, v) :: d =>
    have hl : (dump lvl v).length + (dumpDict lvl d).length + 2 ≤ n := by
      rw [dumpDict] at hf
      simp [newline, quote] at hf ⊢
      omega
    obtain ⟨m, rfl⟩ : ∃ m, n = m + 1 := ⟨n - 1, by omega⟩
    have h1 := value_dump lvl v (dumpDict lvl d ++ (newline lvl' ++ '}' :: rest)) (noDigit_dumpDict _ _ _ _) m (by omega)
    have h1' := member_dump m k.toList lvl v _ h1
    have h2 := members_dump lvl lvl' d rest (m + 1) (by omega)
    have e : dumpDict lvl ((k, v) :: d) ++ (newline lvl' ++ '}' :: rest) =
        ',' :: (newline lvl ++ (quote k.toList ++ (": ".toList ++ (dump lvl v ++
          (dumpDict lvl d ++ (newline lvl' ++ '}' :: rest)))))) := by
      rw [dumpDict]; simp
    have hs : skipWs (newline lvl ++ (quote k.toList ++ (": ".toList ++ (dump lvl v ++
          (dumpDict lvl d ++ (newline lvl' ++ '}' :: rest)))))) =
        quote k.toList ++ (": ".toList ++ (dump lvl v ++ (dumpDict lvl d ++ (newline lvl' ++ '}' :: rest)))) :=
      skipWs_newline _ '"' _ (by decide)
    rw [e, skipWs_cons _ _ (by decide), members, if_neg (by decide), if_pos rfl, hs, h1']
    simp only [Option.bind_eq_bind, Option.bind_some]
    rw [h2]
    rfl
end

theorem decode_dump (v : PyVal) : decode (dump 0 v) = some (toJ v) := by
  have h := value_dump 0 v [] (by intro c hc; simp at hc) ((dump 0 v).length + 1) (by omega)
  have hs := skipWs_dump 0 v []
  rw [List.append_nil] at h hs
  unfold decode
  rw [hs, h]
  rfl

/-! ### only ASCII -/

/-- All characters are ASCII. -/
def Ascii (s : Str) : Prop := ∀ c ∈ s, c.toNat < 128

theorem Ascii.append {s t : Str} (h : Ascii s) (h' : Ascii t) : Ascii (s ++ t) := by
  intro c hc
  rcases List.mem_append.1 hc with hc | hc
  · exact h c hc
  · exact h' c hc

theorem Ascii.cons {c : Char} {t : Str} (h : c.toNat < 128) (h' : Ascii t) : Ascii (c :: t) := by
  intro d hd
  rcases List.mem_cons.1 hd with rfl | hd
  · exact h
  · exact h' d hd

theorem Ascii.nil : Ascii [] := fun _ h => by simp at h

theorem hexDigitLower_ascii {d : Nat} (h : d < 16) : (hexDigitLower d).toNat < 128 := by
  revert d
  decide

theorem ascii_hex4 {n : Nat} (h : n < 65536) : Ascii (hex4 n) := by
  rw [hex4_eq h]
  exact .cons (hexDigitLower_ascii (by omega)) (.cons (hexDigitLower_ascii (by omega)) (.cons (hexDigitLower_ascii (by omega))
    (.cons (hexDigitLower_ascii (by omega)) .nil)))

theorem ascii_escChar (c : Char) : Ascii (escChar c) := by
  have := char_cases c
  unfold escChar
  by_cases h1 : c = '"'
  · rw [if_pos h1]; unfold Ascii; decide
  rw [if_neg h1]
  by_cases h2 : c = '\\'
  · rw [if_pos h2]; unfold Ascii; decide
  rw [if_neg h2]
  by_cases h3 : c = '\n'
  · rw [if_pos h3]; unfold Ascii; decide
  rw [if_neg h3]
  by_cases h4 : c = '\r'
  · rw [if_pos h4]; unfold Ascii; decide
  rw [if_neg h4]
  by_cases h5 : c = '\t'
  · rw [if_pos h5]; unfold Ascii; decide
  rw [if_neg h5]
  by_cases h6 : c.toNat = 12
  · rw [if_pos h6]; unfold Ascii; decide
  rw [if_neg h6]
  by_cases h7 : c.toNat = 8
  · rw [if_pos h7]; unfold Ascii; decide
  rw [if_neg h7]
  by_cases h8 : 0x20 ≤ c.toNat ∧ c.toNat ≤ 0x7E
  · rw [if_pos h8]
    exact .cons (by omega) .nil
  rw [if_neg h8]
  by_cases h9 : c.toNat < 0x10000
  · rw [if_pos h9]
    exact .cons (by decide) (.cons (by decide) (ascii_hex4 h9))
  · rw [if_neg h9]
    exact .cons (by decide) (.cons (by decide) (.append (ascii_hex4 (by omega))
      (.cons (by decide) (.cons (by decide) (ascii_hex4 (by omega))))))

theorem ascii_quote (s : Str) : Ascii (quote s) := by
  refine .cons (by decide) (.append ?_ (.cons (by decide) .nil))
  intro c hc
  obtain ⟨d, -, hd⟩ := List.mem_flatMap.1 hc
  exact ascii_escChar d c hd

theorem ascii_newline (n : Nat) : Ascii (newline n) := by
  refine .cons (by decide) ?_
  intro c hc
  rw [(List.mem_replicate.1 hc).2]
  decide

theorem ascii_decStr (n : Nat) : Ascii (decStr n) := by
  intro c hc
  have := decStr_digits n c hc
  simp only [Char.isDigit, ge_iff_le, Bool.and_eq_true, decide_eq_true_eq, UInt32.le_iff_toNat_le] at this
  have e : c.toNat = c.val.toNat := rfl
  have e2 : '9'.val.toNat = 57 := rfl
  omega

theorem ascii_decInt (i : Int) : Ascii (decInt i) := by
  cases i with
  | ofNat n => exact ascii_decStr n
  | negSucc n => exact .cons (by decide) (ascii_decStr _)

mutual
theorem ascii_dump (lvl : Nat) (v : PyVal) : Ascii (dump lvl v) := by
  match v with
  | .none => rw [dump]; unfold Ascii; decide
  | .int i => exact ascii_decInt i
  | .str s => exact ascii_quote s
  | .dt d => exact ascii_quote _
  | .list [] => rw [dump]; unfold Ascii; decide
  | .list (v :: l) =>
    rw [dump]
    exact .cons (by decide) (((((ascii_newline _).append (ascii_dump _ v)).append (ascii_dumpList _ l)).append
      (ascii_newline _)).append (.cons (by decide) .nil))
  | .dict [] => rw [dump]; unfold Ascii; decide
  | .dict ((k, v) :: d) =>
    rw [dump]
    exact .cons (by decide) (((((((ascii_newline _).append (ascii_quote _)).append (by unfold Ascii; decide)).append
      (ascii_dump _ v)).append (ascii_dumpDict _ d)).append (ascii_newline _)).append (.cons (by decide) .nil))
theorem ascii_dumpList (lvl : Nat) (l : List PyVal) : Ascii (dumpList lvl l) := by
  match l with
  | [] => exact .nil
  | v :: l =>
    rw [dumpList]
    exact .cons (by decide) (((ascii_newline _).append (ascii_dump _ v)).append (ascii_dumpList _ l))
theorem ascii_dumpDict (lvl : Nat) (d : List (String × PyVal)) : Ascii (dumpDict lvl d) := by
  match d with
  | [] => exact .nil
  | (k, v) :: d =>
    rw [dumpDict]
    exact .cons (by decide) (((((ascii_newline _).append (ascii_quote _)).append (by unfold Ascii; decide)).append
      (ascii_dump _ v)).append (ascii_dumpDict _ d))
end

/-! ### the tree told -/

mutual
/-- No dictionary has a key twice. -/
def Distinct : PyVal → Prop
  | .list l => DistinctList l
  | .dict d => (d.map Prod.fst).Nodup ∧ DistinctEntries d
  | _ => True
def DistinctList : List PyVal → Prop
  | [] => True
  | v :: l => Distinct v ∧ DistinctList l
def DistinctEntries : List (String × PyVal) → Prop
  | [] => True
  | (_, v) :: d => Distinct v ∧ DistinctEntries d
end

theorem isoSeconds_eq (d : DateTime) : d.isoSeconds = isoText d := by
  have h : ∀ w n, zdec w n = padded w n := by
    intro w n
    rw [zdec, decStr_eq]
    rfl
  unfold DateTime.isoSeconds isoText
  simp only [h]
  simp

theorem insertKey_perm (k : String) (v : PyVal) (d : Dict) : (insertKey k v d).Perm ((k, v) :: d) := by
  induction d with
  | nil => exact .refl _
  | cons e d ih =>
    rw [insertKey]
    split
    · exact .refl _
    · exact (List.Perm.cons _ ih).trans (.swap _ _ _)

theorem toJDict_eq_map (d : List (String × PyVal)) : toJDict d = d.map fun e => (e.1.toList, toJ e.2) := by
  induction d with
  | nil => rfl
  | cons e d ih => rw [toJDict, ih]; rfl

theorem sortDict_perm (d : List (String × PyVal)) : (sortDict d).Perm (d.map fun e => (e.1, sortKeys e.2)) := by
  induction d with
  | nil => exact .refl _
  | cons e d ih =>
    rw [sortDict]
    exact (insertKey_perm _ _ _).trans (.cons _ ih)

theorem insertKey_sorted (k : String) (v : PyVal) (d : Dict) (h : d.Pairwise fun a b => a.1.toList ≤ b.1.toList) :
    (insertKey k v d).Pairwise fun a b => a.1.toList ≤ b.1.toList := by
  induction d with
  | nil => exact List.pairwise_singleton _ _
  | cons e d ih =>
    rw [insertKey]
    have h' := List.pairwise_cons.1 h
    split
    · rename_i hk
      have hk : k.toList ≤ e.1.toList := by simpa [keyLe] using hk
      refine List.pairwise_cons.2 ⟨fun x hx => ?_, h⟩
      rcases List.mem_cons.1 hx with rfl | hx
      · exact hk
      · exact List.le_trans hk (h'.1 x hx)
    · rename_i hk
      have hk : ¬ k.toList ≤ e.1.toList := by simpa [keyLe] using hk
      refine List.pairwise_cons.2 ⟨fun x hx => ?_, ih h'.2⟩
      rcases List.mem_cons.1 ((insertKey_perm k v d).mem_iff.1 hx) with rfl | hx
      · exact (List.le_total _ _).resolve_left hk
      · exact h'.1 x hx

theorem sortDict_sorted (d : List (String × PyVal)) : (sortDict d).Pairwise fun a b => a.1.toList ≤ b.1.toList := by
  induction d with
  | nil => exact .nil
  | cons e d ih =>
    rw [sortDict]
    exact insertKey_sorted _ _ _ ih

mutual
theorem tells_sort (v : PyVal) (h : Distinct v) : Tells (toJ (sortKeys v)) v := by
  match v with
  | .none => exact .null
  | .int i => exact .num i
  | .str s => exact .str s
  | .dt d =>
    show Tells (.str d.isoSeconds) _
    rw [isoSeconds_eq]
    exact .date d
  | .list l => exact .arr _ _ (tells_sortList l h)
  | .dict d =>
    show Tells (.obj (toJDict (sortDict d))) _
    refine .obj _ (toJDict (d.map fun e => (e.1, sortKeys e.2))) d ?_ ?_ ?_ ?_
    · rw [toJDict_eq_map, toJDict_eq_map]
      exact ((sortDict_perm d).map _).symm
    · rw [toJDict_eq_map, List.map_map, List.map_map]
      rfl
    · rw [toJDict_eq_map, List.map_map, List.map_map]
      exact tells_sortEntries d h.2
    · rw [toJDict_eq_map, List.pairwise_map]
      have hn : ((sortDict d).map Prod.fst).Nodup := by
        have := ((sortDict_perm d).map Prod.fst).nodup_iff
        rw [this, List.map_map]
        exact h.1
      have hn' := List.pairwise_map.1 hn
      refine ((sortDict_sorted d).and hn').imp ?_
      rintro a b ⟨h1, h2⟩
      by_contra hn
      exact h2 (String.toList_inj.1 (List.le_antisymm h1 (List.not_lt.1 hn)))
theorem tells_sortList (l : List PyVal) (h : DistinctList l) : List.Forall₂ Tells (toJList (sortList l)) l := by
  match l with
  | [] => exact .nil
  | v :: l => exact .cons (tells_sort v h.1) (tells_sortList l h.2)
theorem tells_sortEntries (d : List (String × PyVal)) (h : DistinctEntries d) :
    List.Forall₂ Tells (d.map ((·.2) ∘ (fun e : String × PyVal => (e.1.toList, toJ e.2)) ∘ fun e => (e.1, sortKeys e.2)))
      (d.map (·.2)) := by
  match d with
  | [] => exact .nil
  | (k, v) :: d => exact .cons (tells_sort v h.1) (tells_sortEntries d h.2)
end

end Json

end Verif
