import Verif.Lemmas.Guid

/-
C05: GUIDs are rendered canonically and losslessly.
-/

namespace Verif.Props

open Spec

/-- C05: the 16 bytes of a GUID are rendered as its registry text, whatever follows them, without warnings. -/
theorem guid_text (g : Guid) (rest : Bytes) : parseUuid (g.encode ++ rest) = pure g.text :=
  parseUuid_encode_append g rest

/-- C05: 16 arbitrary bytes are some GUID, so `guid_text` covers every input of that length. -/
theorem guid_every_16_bytes (b : Bytes) (h : b.length = 16) : ∃ g : Guid, g.encode = b :=
  Guid_encode_surj h

/-- C05: the bytes can be recovered from the text; distinct GUIDs print differently. -/
theorem guid_lossless (b b' : Bytes) (h : b.length = 16) (h' : b'.length = 16) (s : Str)
    (hs : (parseUuid b).Returns s) (hs' : (parseUuid b').Returns s) : b = b' := by
  obtain ⟨g, rfl⟩ := Guid_encode_surj h
  obtain ⟨g', rfl⟩ := Guid_encode_surj h'
  simp only [Py.Returns, parseUuid_encode, Py.pure_res, Except.ok.injEq] at hs hs'
  rw [Guid_text_inj (hs.trans hs'.symm)]

/-- C05: the rendering has 36 characters, dashes at 8, 13, 18, 23 and upper-case hexadecimal digits elsewhere. -/
theorem guid_shape (g : Guid) :
    g.text.length = 36 ∧
      ∀ i c, g.text[i]? = some c →
        if i = 8 ∨ i = 13 ∨ i = 18 ∨ i = 23 then c = '-' else c ∈ "0123456789ABCDEF".toList := by
  have hd : ∀ n : Nat, hexDigit (n % 16) ∈ "0123456789ABCDEF".toList := by
    intro n
    have : ∀ d : Fin 16, hexDigit d.1 ∈ "0123456789ABCDEF".toList := by decide
    exact this ⟨n % 16, Nat.mod_lt _ (by decide)⟩
  refine ⟨by simp [Guid.text], ?_⟩
  intro i c hc
  have hi : i < 36 := by
    have := (List.getElem?_eq_some_iff.mp hc).1
    simpa [Guid.text] using this
  simp only [Guid.text, Guid.hex2, hexFixed, List.nil_append, List.cons_append] at hc
  have : i = 0 ∨ i = 1 ∨ i = 2 ∨ i = 3 ∨ i = 4 ∨ i = 5 ∨ i = 6 ∨ i = 7 ∨ i = 8 ∨ i = 9 ∨ i = 10 ∨ i = 11 ∨
    i = 12 ∨ i = 13 ∨ i = 14 ∨ i = 15 ∨ i = 16 ∨ i = 17 ∨ i = 18 ∨ i = 19 ∨ i = 20 ∨ i = 21 ∨ i = 22 ∨ i = 23 ∨
    i = 24 ∨ i = 25 ∨ i = 26 ∨ i = 27 ∨ i = 28 ∨ i = 29 ∨ i = 30 ∨ i = 31 ∨ i = 32 ∨ i = 33 ∨ i = 34 ∨ i = 35 := by
    omega
  rcases this with h | h | h | h | h | h | h | h | h | h | h | h | h | h | h | h | h | h | h | h | h | h | h | h |
    h | h | h | h | h | h | h | h | h | h | h | h <;> subst h <;>
    simp only [List.getElem?_cons_zero, List.getElem?_cons_succ, Option.some.injEq] at hc <;>
    rw [← hc] <;> first | rfl | exact hd _

/-- C05: fewer than 16 bytes raise `struct.error`. -/
theorem guid_short (b : Bytes) (h : b.length < 16) : parseUuid b = Py.raise .structError := parseUuid_short h

/-- The shell link class id, as an example of a GUID. -/
example : (⟨0x00021401, 0, 0, 0xC0, 0, 0, 0, 0, 0, 0, 0x46⟩ : Guid).text
    = "00021401-0000-0000-C000-000000000046".toList := by decide

example : (parseUuid [0x01, 0x14, 2, 0, 0, 0, 0, 0, 0xC0, 0, 0, 0, 0, 0, 0, 0x46]).res
    = .ok "00021401-0000-0000-C000-000000000046".toList := by decide +kernel

example (rest : Bytes) : parseUuid ([0x01, 0x14, 2, 0, 0, 0, 0, 0, 0xC0, 0, 0, 0, 0, 0, 0, 0x46] ++ rest) =
    pure "00021401-0000-0000-C000-000000000046".toList :=
  guid_text ⟨0x00021401, 0, 0, 0xC0, 0, 0, 0, 0, 0, 0, 0x46⟩ rest

example : ∃ g : Guid, g.encode = [0, 1, 2, 3, 4, 5, 6, 7, 8, 9, 10, 11, 12, 13, 14, 15] := guid_every_16_bytes _ rfl

/-- Two values that differ in the byte order of the first part. -/
example (s : Str) (h : (parseUuid [1, 2, 3, 4, 5, 6, 7, 8, 9, 10, 11, 12, 13, 14, 15, 16]).Returns s) :
    ¬ (parseUuid [4, 3, 2, 1, 5, 6, 7, 8, 9, 10, 11, 12, 13, 14, 15, 16]).Returns s :=
  fun h' => absurd (guid_lossless _ _ rfl rfl s h h') (by decide)

example : parseUuid [1, 2, 3, 4, 5, 6, 7, 8, 9, 10, 11, 12, 13, 14, 15] = Py.raise .structError := guid_short _ (by decide)

end Verif.Props
