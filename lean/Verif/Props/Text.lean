import Verif.Lemmas.Utf8

/-
C18-C21, C44: strings.
-/

namespace Verif.Props

open Spec

/-! ### C18 -/

/-- C18: what follows the first NUL byte has no influence, neither on the result nor on the warnings. -/
theorem ansi_stops_at_nul (tp : TextProc) (a rest : Bytes) (h : 0 ∉ a) :
    tp.readString (a ++ 0 :: rest) = tp.readString a := by
  rw [readString_cons tp rest h, readString_last tp h]

/-- C18: every byte string falls under `ansi_stops_at_nul` or has no NUL. -/
theorem ansi_nul_cases (b : Bytes) : 0 ∉ b ∨ ∃ a rest, 0 ∉ a ∧ b = a ++ 0 :: rest := nul_cases b

/-- C18: `read_strings` yields the NUL separated pieces in order, each decoded like a string of its own. -/
theorem ansi_pieces (tp : TextProc) (ps : List Bytes) (last : Bytes) (h : ∀ p ∈ ps, 0 ∉ p) (hl : 0 ∉ last) :
    tp.readStrings (ps.flatMap (· ++ [0]) ++ last) = (ps ++ [last]).map tp.readString := by
  induction ps with
  | nil => simp [readStrings_last tp hl, readString_last tp hl]
  | cons p ps ih =>
    have hp := h p (by simp)
    simp only [List.flatMap_cons, List.append_assoc, List.cons_append, List.map_cons]
    rw [readStrings_cons tp hp, readString_last tp hp]
    congr 1
    exact ih (fun q hq => h q (by simp [hq]))

/-- Two terminated pieces, the second empty, and what follows the last NUL. -/
example (tp : TextProc) : tp.readStrings [0x61, 0x62, 0, 0, 0x63] = [tp.readString [0x61, 0x62], tp.readString [], tp.readString [0x63]] :=
  ansi_pieces tp [[0x61, 0x62], []] [0x63] (by decide) (by decide)

/-! ### C19 -/

/-- C19: what follows the first zero unit at an even offset has no influence. -/
theorem wide_stops_at_nul (us : List UInt16) (rest : Bytes) (h : 0 ∉ us) :
    TextProc.readUnicodeString (units us ++ le 2 0 ++ rest) = TextProc.readUnicodeString (units us) := by
  have h1 := readUnicodeString_cons us h rest
  have h2 := readUnicodeString_last us h [] (by simp)
  rw [List.append_nil] at h2
  rw [h2, List.append_assoc]; exact h1

/-- C19: every byte string has a zero unit at an even offset, or consists of non-zero units and at most one
further byte. -/
theorem wide_nul_cases (b : Bytes) : ∃ us : List UInt16, 0 ∉ us ∧
    ((∃ tail, tail.length < 2 ∧ b = units us ++ tail) ∨ ∃ rest, b = units us ++ le 2 0 ++ rest) := by
  obtain ⟨us, h, h'⟩ := unit_cases b
  refine ⟨us, h, ?_⟩
  rcases h' with h' | ⟨rest, rfl⟩
  · exact .inl h'
  · exact .inr ⟨rest, by simp; rfl⟩

/-- C19: an odd byte at the end is kept: it becomes one replacement character, with a warning. -/
theorem wide_odd_byte (s : Str) (hs : '\x00' ∉ s) (x : UInt8) :
    TextProc.readUnicodeString (utf16 s ++ [x]) = ⟨[.decode (s ++ ['�'])], .ok (s ++ ['�'])⟩ := by
  obtain ⟨us, h1, h2⟩ := utf16_units s hs
  have := readUnicodeString_last us h2 [x] (by simp)
  rw [← h1] at this
  rw [this]
  have hl : Utf16Lenient (utf16 s ++ [x]) (s ++ ['�']) := by
    clear this h1 h2 hs
    induction s with
    | nil => exact .odd x
    | cons c s ih => rw [utf16_cons, List.append_assoc]; exact .char c ih
  refine wideToStr_bad ?_ hl
  intro t ht
  have he : (utf16 t).length % 2 = 0 := by
    clear ht
    induction t with
    | nil => rfl
    | cons c t ih =>
      rw [utf16_cons, List.length_append]
      have : (utf16Char c).length % 2 = 0 := by unfold utf16Char; split <;> simp
      omega
  have he' : (utf16 s).length % 2 = 0 := by
    rw [h1]; clear ht hl this h1 h2 he
    induction us with
    | nil => rfl
    | cons c t ih =>
      have : units (c :: t) = le 2 c.toNat ++ units t := by simp [units]
      rw [this, List.length_append, le_length]; omega
  have := congrArg List.length ht
  simp at this
  omega

example : TextProc.readUnicodeString [0x41, 0, 0x42] = ⟨[.decode ['A', '�']], .ok ['A', '�']⟩ := wide_odd_byte ['A'] (by decide) 0x42

/-! ### C20 -/

/-- C20: bytes the code page can decode are decoded by it, without warnings. -/
theorem ansi_codepage (tp : TextProc) (c : Codec) (b : Bytes) (s : Str) (hb : b ≠ []) (h0 : 0 ∉ b)
    (hc : tp.env.resolve tp.cp = some c) (hs : c.strict b = .ok s) : tp.readString b = pure s := by
  rw [readString_last tp h0]
  simp only [TextProc.ansiToStr, decodeNamed, hb, hc, hs, if_false]
  rfl

/-- C20: otherwise, if they are UTF-8 they are decoded as such, without warnings. -/
theorem ansi_utf8 (tp : TextProc) (c : Codec) (s : Str) (h0 : 0 ∉ utf8 s)
    (hc : tp.env.resolve tp.cp = some c) (hs : c.strict (utf8 s) = .error .unicodeDecode) :
    tp.readString (utf8 s) = pure s := by
  rw [readString_last tp h0]
  by_cases hb : utf8 s = []
  · have : s = [] := by
      cases s with
      | nil => rfl
      | cons c s =>
        rw [utf8_cons, List.append_eq_nil_iff] at hb
        exact absurd hb.1 String.utf8EncodeChar_ne_nil
    subst this; rfl
  · simp only [TextProc.ansiToStr, decodeNamed, hb, hc, hs, if_false, decodeUtf8, utf8Decode_utf8]
    rfl

/-- C20: otherwise the code page decodes them with replacement characters, and one warning quotes the result. -/
theorem ansi_replace (tp : TextProc) (c : Codec) (b : Bytes) (s : Str) (hb : b ≠ []) (h0 : 0 ∉ b)
    (hc : tp.env.resolve tp.cp = some c) (hs : c.strict b = .error .unicodeDecode) (hu : ∀ t, b ≠ utf8 t)
    (hr : c.replace b = .ok s) : tp.readString b = ⟨[.decode s], .ok s⟩ := by
  rw [readString_last tp h0]
  have hd : utf8Decode b = none := by
    cases hd : utf8Decode b with
    | none => rfl
    | some t => exact absurd (utf8Decode_sound b t hd) (hu t)
  simp only [TextProc.ansiToStr, decodeNamed, decodeNamedReplace, hb, hc, hs, if_false, decodeUtf8, hd, hr]
  rfl

/-- C20: an exception of the code page other than `UnicodeDecodeError` is passed on. -/
theorem ansi_other_error (tp : TextProc) (c : Codec) (b : Bytes) (e : PyErr) (hb : b ≠ []) (h0 : 0 ∉ b)
    (hc : tp.env.resolve tp.cp = some c) (hs : c.strict b = .error e) (he : e ≠ .unicodeDecode) :
    tp.readString b = Py.raise e := by
  rw [readString_last tp h0]
  simp only [TextProc.ansiToStr, decodeNamed, hb, hc, hs, if_false]
  simp only [Py.tryExcept]
  simp [he]
  rfl

/-- A codec that decodes one byte to `x`, fails softly on two and hard on more. -/
def oddCodec : Codec where
  strict
    | [_] => .ok ['x']
    | [_, _] => .error .unicodeDecode
    | _ => .error .valueError
  replace _ := .ok ['?']

example (hash : Bytes → Str) :
    let tp := TextProc.mk' ⟨fun _ => some oddCodec, hash⟩ (some "odd")
    tp.readString [0xC3] = pure ['x'] ∧ tp.readString [0xC3, 0x81] = pure ['Á'] ∧
      tp.readString [0xC3, 0xC3] = ⟨[.decode ['?']], .ok ['?']⟩ ∧ tp.readString [1, 2, 3] = Py.raise .valueError := by
  refine ⟨ansi_codepage _ oddCodec _ _ (by decide) (by decide) rfl rfl, ansi_utf8 _ oddCodec ['Á'] (by decide) rfl rfl,
    ansi_replace _ oddCodec _ _ (by decide) (by decide) rfl rfl (fun t ht => ?_) rfl,
    ansi_other_error _ oddCodec _ _ (by decide) (by decide) rfl rfl (by decide)⟩
  rw [← utf8Decode_eq_some_iff, show utf8Decode [0xC3, 0xC3] = none by decide +kernel] at ht
  cases ht

/-- The text that Windows-1252 with replacement yields: one character per byte. -/
def Cp1252Lenient : Bytes → Str → Prop
  | [], [] => True
  | b :: bs, c :: cs => (Cp1252Char b c ∨ ((∀ d, ¬ Cp1252Char b d) ∧ c = '�')) ∧ Cp1252Lenient bs cs
  | _, _ => False

theorem cp1252_lenient (b : Bytes) : Cp1252Lenient b (replaceOf (b.map cp1252Char)) := by
  induction b with
  | nil => trivial
  | cons x xs ih =>
    simp only [replaceOf, List.map_cons, Cp1252Lenient] at *
    refine ⟨?_, ih⟩
    cases hx : cp1252Char x with
    | none =>
      right
      refine ⟨?_, rfl⟩
      intro d hd; rw [← cp1252Char_iff, hx] at hd; simp at hd
    | some c => left; rw [← cp1252Char_iff, hx]; rfl

theorem cp1252_lenient_unique {b : Bytes} {s t : Str} (hs : Cp1252Lenient b s) (ht : Cp1252Lenient b t) : s = t := by
  induction b generalizing s t with
  | nil => cases s <;> cases t <;> simp_all [Cp1252Lenient]
  | cons x xs ih =>
    cases s with
    | nil => simp [Cp1252Lenient] at hs
    | cons c s =>
      cases t with
      | nil => simp [Cp1252Lenient] at ht
      | cons d t =>
        simp only [Cp1252Lenient] at hs ht
        obtain ⟨h1, h2⟩ := hs
        obtain ⟨h3, h4⟩ := ht
        rw [ih h2 h4]
        congr 1
        rcases h1 with h1 | ⟨h1, rfl⟩ <;> rcases h3 with h3 | ⟨h3, rfl⟩
        · rw [← cp1252Char_iff] at h1 h3; rw [h1] at h3; exact Option.some.inj h3
        · exact absurd h1 (h3 _)
        · exact absurd h3 (h1 _)
        · rfl

/-- C20: with the default code page (no argument, or an empty one) decoding never raises.  It gives the
Windows-1252 text, else the UTF-8 text, else, with one warning, one character per byte. -/
theorem ansi_default (env : Env) (cp : Option String) (hcp : cp = none ∨ cp = some "" ∨ cp = some "cp1252")
    (b : Bytes) (h0 : 0 ∉ b) (s : Str) :
    (Cp1252 b s → (TextProc.mk' env cp).readString b = pure s) ∧
      ((∀ t, ¬ Cp1252 b t) → b = utf8 s → (TextProc.mk' env cp).readString b = pure s) ∧
      ((∀ t, ¬ Cp1252 b t) → (∀ t, b ≠ utf8 t) → Cp1252Lenient b s →
        (TextProc.mk' env cp).readString b = ⟨[.decode s], .ok s⟩) := by
  have hr : (TextProc.mk' env cp).env.resolve (TextProc.mk' env cp).cp = some cp1252 := by
    rcases hcp with rfl | rfl | rfl <;> rfl
  have hne : (∀ t, ¬ Cp1252 b t) → b ≠ [] := by
    rintro h rfl; exact h [] trivial
  have herr : (∀ t, ¬ Cp1252 b t) → cp1252.strict b = .error .unicodeDecode := by
    intro h
    cases hs : cp1252.strict b with
    | error e => rw [cp1252_strict_error b e hs]
    | ok t => exact absurd ((cp1252_strict_iff b t).mp hs) (h t)
  refine ⟨?_, ?_, ?_⟩
  · intro h
    by_cases hb : b = []
    · subst hb
      cases s with
      | nil => rfl
      | cons c s => exact absurd h (by simp [Cp1252])
    · exact ansi_codepage _ cp1252 b s hb h0 hr ((cp1252_strict_iff b s).mpr h)
  · intro h hu
    subst hu
    exact ansi_utf8 _ cp1252 s h0 hr (herr h)
  · intro h hu hl
    refine ansi_replace _ cp1252 b s (hne h) h0 hr (herr h) hu ?_
    show Except.ok _ = Except.ok _
    rw [cp1252_lenient_unique (cp1252_lenient b) hl]

/-- C20: the three cases of `ansi_default` cover every byte string, so the default code page never raises. -/
theorem ansi_default_total (env : Env) (b : Bytes) : ∃ s w, (TextProc.mk' env none).readString b = ⟨w, .ok s⟩ := by
  have key : ∀ b, 0 ∉ b → ∃ s w, (TextProc.mk' env none).readString b = ⟨w, .ok s⟩ := by
    intro b h0
    by_cases h1 : ∃ t, Cp1252 b t
    · obtain ⟨t, ht⟩ := h1
      exact ⟨t, [], (ansi_default env none (.inl rfl) b h0 t).1 ht⟩
    · have h1' : ∀ t, ¬ Cp1252 b t := fun t ht => h1 ⟨t, ht⟩
      by_cases h2 : ∃ t, b = utf8 t
      · obtain ⟨t, ht⟩ := h2
        exact ⟨t, [], (ansi_default env none (.inl rfl) b h0 t).2.1 h1' ht⟩
      · have h2' : ∀ t, b ≠ utf8 t := fun t ht => h2 ⟨t, ht⟩
        exact ⟨_, _, (ansi_default env none (.inl rfl) b h0 _).2.2 h1' h2' (cp1252_lenient b)⟩
  rcases nul_cases b with h0 | ⟨a, rest, h0, rfl⟩
  · exact key b h0
  · rw [ansi_stops_at_nul _ _ _ h0]; exact key a h0

/-- "Größe" in Windows-1252. -/
example (env : Env) : (TextProc.mk' env none).readString [0x47, 0x72, 0xF6, 0xDF, 0x65, 0, 0x81] = pure "Größe".toList := by
  have h := (ansi_default env none (.inl rfl) [0x47, 0x72, 0xF6, 0xDF, 0x65] (by decide) "Größe".toList).1
    (by simp [Cp1252, Cp1252Char])
  rw [← h]
  exact ansi_stops_at_nul _ [0x47, 0x72, 0xF6, 0xDF, 0x65] [0x81] (by decide)

/-- "Á" in UTF-8 contains the byte 0x81, which Windows-1252 leaves undefined. -/
example (env : Env) : (TextProc.mk' env none).readString [0xC3, 0x81] = pure ['Á'] := by
  refine (ansi_default env none (.inl rfl) [0xC3, 0x81] (by decide) ['Á']).2.1 ?_ (by decide)
  intro t ht
  rw [← cp1252_strict_iff] at ht
  have : cp1252.strict [0xC3, 0x81] = .error .unicodeDecode := by rfl
  rw [this] at ht; cases ht

/-- A lone 0x81 is replaced. -/
example (env : Env) : (TextProc.mk' env none).readString [0x41, 0x81] = ⟨[.decode ['A', '�']], .ok ['A', '�']⟩ := by
  rfl

/-! ### C21 -/

/-- C21: a NUL-free text is read back from its UTF-16LE encoding, at the end of the data or before a NUL unit and
anything else, without warnings. -/
theorem wide_roundtrip (s : Str) (hs : '\x00' ∉ s) (rest : Bytes) :
    TextProc.readUnicodeString (utf16 s) = pure s ∧
      TextProc.readUnicodeString (utf16 s ++ le 2 0 ++ rest) = pure s := by
  refine ⟨readUnicodeString_utf16 hs, ?_⟩
  rw [List.append_assoc]; exact readUnicodeString_utf16_nul hs rest

/-- C21: the units before the first NUL unit (with a possible odd byte at the very end) are decoded if they are
UTF-16, without warning; otherwise malformed parts become U+FFFD and one warning quotes the result.  Nothing is
raised. -/
theorem wide_decode (us : List UInt16) (h : 0 ∉ us) (tail : Bytes) (ht : tail.length < 2) (s : Str)
    (hs : Utf16Lenient (units us ++ tail) s) :
    TextProc.readUnicodeString (units us ++ tail) =
      if units us ++ tail = utf16 s then pure s else ⟨[.decode s], .ok s⟩ := by
  rw [readUnicodeString_last us h tail ht]
  by_cases hw : ∃ t, units us ++ tail = utf16 t
  · obtain ⟨t, e⟩ := hw
    have hst : s = t := by
      have h1 := utf16Lenient_pieces hs
      have h2 := utf16Pieces_utf16 t []
      rw [List.append_nil] at h2
      rw [e, h2] at h1
      rw [← h1]; simp [replaceOf, utf16Pieces, Function.comp_def]
    subst hst
    rw [if_pos e, e, wideToStr_utf16]
  · have hw' : ∀ t, units us ++ tail ≠ utf16 t := fun t e => hw ⟨t, e⟩
    rw [if_neg (hw' s), wideToStr_bad hw' hs]

/-- C21: every byte string has a lenient reading, and only one. -/
theorem wide_lenient_unique (b : Bytes) : ∃ s, Utf16Lenient b s ∧ ∀ t, Utf16Lenient b t → t = s := by
  obtain ⟨s, hs⟩ := utf16Lenient_total b
  refine ⟨s, hs, fun t ht => ?_⟩
  rw [← utf16Lenient_pieces ht, utf16Lenient_pieces hs]

/-- C21: reading never raises. -/
theorem wide_total (b : Bytes) : ∃ s w, TextProc.readUnicodeString b = ⟨w, .ok s⟩ := by
  have key : ∀ us : List UInt16, 0 ∉ us → ∀ tail : Bytes, tail.length < 2 →
      ∃ s w, TextProc.readUnicodeString (units us ++ tail) = ⟨w, .ok s⟩ := by
    intro us h tail ht
    obtain ⟨s, hs⟩ := utf16Lenient_total (units us ++ tail)
    have := wide_decode us h tail ht s hs
    split at this
    · exact ⟨s, [], this⟩
    · exact ⟨s, _, this⟩
  obtain ⟨us, h, ⟨tail, ht, rfl⟩ | ⟨rest, rfl⟩⟩ := wide_nul_cases b
  · exact key us h tail ht
  · rw [wide_stops_at_nul us rest h]
    have := key us h [] (by simp)
    rwa [List.append_nil] at this

/-- A text has at most one character per started unit. -/
theorem lenient_length {b : Bytes} {s : Str} (h : Utf16Lenient b s) : 2 * s.length ≤ b.length + 1 := by
  induction h with
  | nil => simp
  | char c _ ih =>
    have : 2 ≤ (utf16Char c).length := by unfold utf16Char; split <;> simp
    simp; omega
  | odd x => simp
  | low u _ _ ih => simp; omega
  | highEnd u _ _ => simp; omega
  | high u v _ _ _ ih => simp at *; omega

theorem wide_length {b : Bytes} {s : Str} {w : List Warn} (h : TextProc.readUnicodeString b = ⟨w, .ok s⟩) :
    2 * s.length ≤ b.length + 1 := by
  have key : ∀ us : List UInt16, 0 ∉ us → ∀ tail : Bytes, tail.length < 2 → ∀ s w,
      TextProc.readUnicodeString (units us ++ tail) = ⟨w, .ok s⟩ → 2 * s.length ≤ (units us ++ tail).length + 1 := by
    intro us h tail ht s w hr
    obtain ⟨t, hs⟩ := utf16Lenient_total (units us ++ tail)
    have hd := wide_decode us h tail ht t hs
    have := lenient_length hs
    rw [hr] at hd
    split at hd <;> (cases hd; exact this)
  obtain ⟨us, h0, ⟨tail, ht, rfl⟩ | ⟨rest, rfl⟩⟩ := wide_nul_cases b
  · exact key us h0 tail ht s w h
  · rw [wide_stops_at_nul us rest h0] at h
    have := key us h0 [] (by simp) s w (by rwa [List.append_nil])
    simp at this ⊢; omega

/-- A character outside the basic plane, a NUL unit, and garbage. -/
example : TextProc.readUnicodeString [0x3D, 0xD8, 0x00, 0xDE, 0x41, 0x00, 0, 0, 0x00, 0xD8] = pure ['😀', 'A'] :=
  (wide_roundtrip ['😀', 'A'] (by decide) [0x00, 0xD8]).2

/-- A high surrogate followed by a letter. -/
example : TextProc.readUnicodeString [0x3D, 0xD8, 0x41, 0x00] = ⟨[.decode ['�', 'A']], .ok ['�', 'A']⟩ := by
  rfl

/-! ### C44 -/

theorem unknown_resolved (tp : TextProc) (hc : tp.env.resolve tp.cp = none) (b : Bytes) :
    tp.readString b = if b = [] ∨ b.head? = some 0 then pure [] else Py.raise .lookupError := by
  have key : ∀ a, 0 ∉ a → tp.readString a = if a = [] then pure [] else Py.raise .lookupError := by
    intro a h0
    rw [readString_last tp h0]
    by_cases ha : a = []
    · subst ha; rfl
    · simp only [TextProc.ansiToStr, decodeNamed, ha, hc, if_false]
      rfl
  rcases nul_cases b with h0 | ⟨a, rest, h0, rfl⟩
  · rw [key b h0]
    cases b with
    | nil => simp
    | cons x xs =>
      simp only [List.mem_cons, not_or] at h0
      have : ¬ x = 0 := fun e => h0.1 e.symm
      simp [this]
  · rw [ansi_stops_at_nul _ _ _ h0, key a h0]
    cases a with
    | nil => simp
    | cons x xs =>
      simp only [List.mem_cons, not_or] at h0
      have : ¬ x = 0 := fun e => h0.1 e.symm
      simp [this]

/-- C44: an unknown code page raises `LookupError` exactly for a string with at least one byte before its NUL;
the empty string is always fine. -/
theorem unknown_codepage (env : Env) (name : String) (h0 : name ≠ "") (h1 : name ≠ "cp1252") (hl : env.lookup name = none) (b : Bytes) :
    (TextProc.mk' env (some name)).readString b = if b = [] ∨ b.head? = some 0 then pure [] else Py.raise .lookupError := by
  apply unknown_resolved
  simp [TextProc.mk', Env.resolve, h0, h1, hl]

example (hash : Bytes → Str) :
    (TextProc.mk' ⟨fun _ => none, hash⟩ (some "klingon")).readString [0x41] = Py.raise .lookupError ∧
      (TextProc.mk' ⟨fun _ => none, hash⟩ (some "klingon")).readString [0, 0x41] = pure [] :=
  ⟨unknown_codepage _ _ (by decide) (by decide) rfl [0x41], unknown_codepage _ _ (by decide) (by decide) rfl [0, 0x41]⟩

theorem known_resolved (tp : TextProc) (c : Codec) (hc : tp.env.resolve tp.cp = some c)
    (hs : ∀ b, c.strict b ≠ .error .lookupError) (hr : ∀ b, c.replace b ≠ .error .lookupError) (b : Bytes) :
    ¬ (tp.readString b).Raises .lookupError := by
  have key : ∀ a, 0 ∉ a → ¬ (tp.readString a).Raises .lookupError := by
    intro a h0
    rw [readString_last tp h0]
    intro he
    by_cases ha : a = []
    · subst ha; simp [Py.Raises, TextProc.ansiToStr, decodeNamed] at he
    · simp only [Py.Raises, TextProc.ansiToStr, decodeNamed, decodeNamedReplace, ha, hc, if_false, Py.tryExcept] at he
      cases h1 : c.strict a with
      | ok s => simp [h1] at he
      | error e =>
        simp only [h1] at he
        split at he
        · cases h2 : utf8Decode a with
          | some s => simp [decodeUtf8, h2] at he
          | none =>
            simp only [decodeUtf8, h2, Py.raise_res, decide_true, if_true] at he
            cases h3 : c.replace a with
            | ok s => rw [h3] at he; cases he
            | error e' =>
              rw [h3] at he
              apply hr a
              rw [h3]
              exact he
        · apply hs a
          rw [h1]; exact he
  rcases nul_cases b with h0 | ⟨a, rest, h0, rfl⟩
  · exact key b h0
  · rw [ansi_stops_at_nul _ _ _ h0]; exact key a h0

/-- C44: the default code page, which is also what an empty name and `cp1252` stand for, never raises it. -/
theorem default_codepage (env : Env) (cp : Option String) (h : cp = none ∨ cp = some "" ∨ cp = some "cp1252") (b : Bytes) :
    ¬ ((TextProc.mk' env cp).readString b).Raises .lookupError := by
  refine known_resolved _ cp1252 (by rcases h with rfl | rfl | rfl <;> rfl) (fun b => ?_) (fun b => (by simp [cp1252])) b
  unfold cp1252 strictOf
  simp only
  split <;> simp

/-- C44: a known code page never raises `LookupError` of its own accord; only the codec could. -/
theorem known_codepage (env : Env) (name : String) (c : Codec) (hl : env.lookup name = some c)
    (hs : ∀ b, c.strict b ≠ .error .lookupError) (hr : ∀ b, c.replace b ≠ .error .lookupError) (b : Bytes) :
    ¬ ((TextProc.mk' env (some name)).readString b).Raises .lookupError := by
  by_cases h0 : name = ""
  · exact default_codepage env _ (.inr (.inl (congrArg some h0))) b
  by_cases h1 : name = "cp1252"
  · exact default_codepage env _ (.inr (.inr (congrArg some h1))) b
  · exact known_resolved _ c (by simp [TextProc.mk', Env.resolve, h0, h1, hl]) hs hr b

end Verif.Props
