import Verif.Model.StringData
import Verif.Spec.StringData
import Verif.Lemmas.Header
import Verif.Lemmas.Text

namespace Verif

open Spec

theorem rLinkFlags_uAt {h : LnkHeader} {flags : Nat} (hf : uAt 4 h.raw 20 = some flags) :
    h.rLinkFlags = pure flags := by
  unfold LnkHeader.rLinkFlags; rw [unpackU_slice _ _ _ (by decide), hf]

theorem hasFlag_bit {h : LnkHeader} {flags : Nat} (hf : uAt 4 h.raw 20 = some flags) {i : Nat} {name : String}
    (hn : linkFlagNames[i]? = some name) : h.hasFlag name = pure (flags.testBit i) := by
  unfold LnkHeader.hasFlag LnkHeader.linkFlags
  rw [rLinkFlags_uAt hf]
  simp only [pure_bind, linkFlagNames_eq]
  congr 1
  rw [Bool.eq_iff_iff, List.contains_iff_mem]
  exact mem_setBitNames linkFlagNames_nodup hn

theorem hasFlag_short {h : LnkHeader} (hf : uAt 4 h.raw 20 = none) (name : String) :
    h.hasFlag name = Py.raise .structError := by
  unfold LnkHeader.hasFlag LnkHeader.linkFlags LnkHeader.rLinkFlags
  rw [unpackU_slice _ _ _ (by decide), hf]; rfl

namespace StringData

/-- How the model decodes the characters of a string. -/
def readText (tp : TextProc) (unicode : Bool) (b : Bytes) : Py Str :=
  if unicode then TextProc.readUnicodeString b else tp.readString b

/-- Bytes per character unit. -/
def unit (unicode : Bool) : Nat := if unicode then 2 else 1

/-- The number of characters taken for a declared count. -/
def accepted (limited : Bool) (count : Nat) : Nat := if limited then min count 260 else count

theorem read_eq {h : LnkHeader} {flags : Nat} (hf : uAt 4 h.raw 20 = some flags) (tp : TextProc) (count : Nat)
    (hc : count < 65536) (body : Bytes) (limited : Bool) :
    read h tp (le 2 count ++ body) limited =
      (do
        let t ← readText tp (flags.testBit 7) (body.take (accepted limited count * unit (flags.testBit 7)))
        pure (t, 2 + accepted limited count * unit (flags.testBit 7))) := by
  unfold read
  rw [slice_append_exact (by simp), unpackU_le (by omega), hasFlag_bit hf (i := 7) rfl]
  have hs : ∀ n, slice (le 2 count ++ body) 2 (2 + n) = body.take n := by
    intro n
    unfold slice
    rw [List.drop_append_of_le_length (by simp), List.drop_eq_nil_of_le (by simp)]
    simp
  have ha : (if (limited && decide (count > 260)) = true then 260 else count) = accepted limited count := by
    unfold accepted
    cases limited
    · simp
    · simp only [Bool.true_and, decide_eq_true_eq, if_true]; split <;> omega
  simp only [pure_bind, ha]
  cases flags.testBit 7
  · simp only [hs, unit, readText, Bool.false_eq_true, if_false, Nat.mul_one]
  · simp only [hs, unit, readText, if_true]

theorem read_short {h : LnkHeader} (tp : TextProc) {b : Bytes} (hb : b.length < 2) (limited : Bool) :
    read h tp b limited = Py.raise .structError := by
  unfold read
  have : unpackU 2 (slice b 0 2) = Py.raise .structError := by
    unfold unpackU; rw [if_neg]; simp; omega
  rw [this]; rfl

/-- The model's table and the specification's fields belong together. -/
def Matches : List (String × String × Bool) → List StringField → Prop
  | [], [] => True
  | (flag, key, limited) :: ms, f :: fs =>
    (linkFlagNames[f.bit]? = some flag ∧ f.key = key ∧ f.limit = if limited then 260 else 65535) ∧ Matches ms fs
  | _, _ => False

theorem matches_fields (s : Strings) : Matches fields s.fields := by
  simp [Matches, fields, Strings.fields, linkFlagNames]

/-- One round of the loop on an absent string. -/
theorem loop_absent {h : LnkHeader} {flags : Nat} (hf : uAt 4 h.raw 20 = some flags) (tp : TextProc) (raw : Bytes)
    {bit : Nat} {flag key : String} {limited : Bool} (hn : linkFlagNames[bit]? = some flag)
    (hb : flags.testBit bit = false) (ms : List (String × String × Bool)) (data : List (String × Str)) (start : Nat) :
    loop h tp raw ((flag, key, limited) :: ms) data start = loop h tp raw ms data start := by
  rw [loop, hasFlag_bit hf hn, hb]
  rfl

/-- One round of the loop when the length prefix is missing. -/
theorem loop_short {h : LnkHeader} {flags : Nat} (hf : uAt 4 h.raw 20 = some flags) (tp : TextProc) (raw : Bytes)
    {bit : Nat} {flag key : String} {limited : Bool} (hn : linkFlagNames[bit]? = some flag)
    (hb : flags.testBit bit = true) (ms : List (String × String × Bool)) (data : List (String × Str)) (start : Nat)
    (hs : (raw.drop start).length < 2) :
    loop h tp raw ((flag, key, limited) :: ms) data start = ⟨[.stringData], .ok ⟨data, start⟩⟩ := by
  rw [loop, hasFlag_bit hf hn, hb]
  simp only [pure_bind, if_true]
  rw [read_short tp hs]
  rfl

theorem attempt_pure (a : α) (p) : Py.attempt (pure a : Py α) p = pure (.ok a) := rfl

/-- One round of the loop on a string. -/
theorem loop_present {h : LnkHeader} {flags : Nat} (hf : uAt 4 h.raw 20 = some flags) (tp : TextProc) (raw : Bytes)
    {bit : Nat} {flag key : String} {limited : Bool} (hn : linkFlagNames[bit]? = some flag)
    (hb : flags.testBit bit = true) (ms : List (String × String × Bool)) (data : List (String × Str)) (start : Nat)
    {count : Nat} {body : Bytes} (hc : count < 65536) (hs : raw.drop start = le 2 count ++ body) {text : Str}
    {w : List Warn}
    (ht : readText tp (flags.testBit 7) (body.take (accepted limited count * unit (flags.testBit 7))) = ⟨w, .ok text⟩) :
    loop h tp raw ((flag, key, limited) :: ms) data start =
      ⟨w ++ (loop h tp raw ms (data ++ [(key, text)]) (start + (2 + accepted limited count * unit (flags.testBit 7)))).warns,
        (loop h tp raw ms (data ++ [(key, text)]) (start + (2 + accepted limited count * unit (flags.testBit 7)))).res⟩ := by
  rw [loop, hasFlag_bit hf hn, hb, hs, read_eq hf tp count hc, ht]
  simp only [pure_bind, if_true]
  simp only [bind, Py.andThen, Py.attempt, pure, Py.ret, List.append_nil]

/-- A valid string is decoded to its text. -/
theorem readText_valid {tp : TextProc} {u : Bool} {f : StringField} (hv : f.Valid tp u) {raw : Bytes} {text : Str}
    (hc : f.content = some (raw, text)) :
    readText tp u raw = pure text ∧ (if u then raw.length / 2 else raw.length) ≤ f.limit ∧
      (if u then raw.length / 2 else raw.length) * unit u = raw.length := by
  have := hv raw text hc
  cases u
  · simp only [Bool.false_eq_true, if_false] at this
    exact ⟨readString_text this.1, this.2, by simp [unit]⟩
  · simp only [if_true] at this
    obtain ⟨rfl, h0, hl⟩ := this
    refine ⟨readUnicodeString_utf16 h0, hl, ?_⟩
    have he : (utf16 text).length % 2 = 0 := by
      clear hl hc hv h0
      induction text with
      | nil => rfl
      | cons c t ih =>
        rw [utf16_cons, List.length_append]
        have : (utf16Char c).length % 2 = 0 := by unfold utf16Char; split <;> simp
        omega
    simp only [unit, if_true]; omega

theorem encodeFields_cons (u : Bool) (f : StringField) (fs : List StringField) :
    encodeFields u (f :: fs) = f.encode u ++ encodeFields u fs := by simp [encodeFields]

theorem encodeFields_append (u : Bool) (fs gs : List StringField) :
    encodeFields u (fs ++ gs) = encodeFields u fs ++ encodeFields u gs := by simp [encodeFields]

theorem fieldTexts_append (fs gs : List StringField) : fieldTexts (fs ++ gs) = fieldTexts fs ++ fieldTexts gs := by
  simp [fieldTexts]

theorem Matches_split {ms : List (String × String × Bool)} {fs gs : List StringField} (h : Matches ms (fs ++ gs)) :
    ∃ ms1 ms2, ms = ms1 ++ ms2 ∧ Matches ms1 fs ∧ Matches ms2 gs := by
  induction fs generalizing ms with
  | nil => exact ⟨[], ms, rfl, trivial, h⟩
  | cons f fs ih =>
    match ms, h with
    | m :: ms, h =>
      obtain ⟨ms1, ms2, rfl, h1, h2⟩ := ih h.2
      exact ⟨m :: ms1, ms2, rfl, ⟨h.1, h1⟩, h2⟩

/-- The loop over complete valid fields. -/
theorem loop_fields {h : LnkHeader} {flags : Nat} (hf : uAt 4 h.raw 20 = some flags) (tp : TextProc)
    (fs : List StringField) (ms ms' : List (String × String × Bool)) (hm : Matches ms fs) (ha : Announced flags fs)
    (hv : ∀ f ∈ fs, f.Valid tp (flags.testBit 7)) (raw : Bytes) (rest : Bytes) (data : List (String × Str)) (start : Nat)
    (hs : raw.drop start = encodeFields (flags.testBit 7) fs ++ rest) :
    loop h tp raw (ms ++ ms') data start =
      loop h tp raw ms' (data ++ fieldTexts fs) (start + (encodeFields (flags.testBit 7) fs).length) := by
  induction fs generalizing ms data start with
  | nil =>
    match ms, hm with
    | [], _ => simp [fieldTexts, encodeFields]
  | cons f fs ih =>
    match ms, hm with
    | (flag, key, limited) :: ms, hm =>
      obtain ⟨⟨h1, h2, h3⟩, hm⟩ := hm
      have ha' : Announced flags fs := fun g hg => ha g (by simp [hg])
      have hv' : ∀ g ∈ fs, g.Valid tp (flags.testBit 7) := fun g hg => hv g (by simp [hg])
      have hb := ha f (by simp)
      rw [encodeFields_cons] at hs ⊢
      cases hc : f.content with
      | none =>
        have he : f.encode (flags.testBit 7) = [] := by simp [StringField.encode, hc]
        rw [he, List.nil_append] at hs ⊢
        rw [List.cons_append, loop_absent hf tp raw h1 (by rw [hb, hc]; rfl), ih ms hm ha' hv' data start hs]
        congr 2
        simp [fieldTexts, hc]
      | some c =>
        obtain ⟨b, text⟩ := c
        obtain ⟨t1, t2, t3⟩ := readText_valid (hv f (by simp)) hc
        have he : f.encode (flags.testBit 7) = stringBytes (flags.testBit 7) b := by simp [StringField.encode, hc]
        rw [he] at hs ⊢
        unfold stringBytes at hs ⊢
        generalize hcnt : (if flags.testBit 7 = true then b.length / 2 else b.length) = count at *
        rw [List.append_assoc, List.append_assoc] at hs
        have hlim : f.limit ≤ 65535 := by rw [h3]; split <;> omega
        have hacc : accepted limited count = count := by
          unfold accepted
          cases limited
          · simp
          · simp at h3 ⊢; omega
        rw [List.cons_append, loop_present hf tp raw h1 (by rw [hb, hc]; rfl) (ms ++ ms') data start
          (count := count) (by omega) hs (text := text) (w := [])]
        · rw [hacc, t3]
          simp only [List.nil_append]
          have hd : raw.drop (start + (2 + b.length)) = encodeFields (flags.testBit 7) fs ++ rest := by
            rw [← List.drop_drop, hs, ← List.append_assoc]
            rw [List.drop_append_of_le_length (by simp), List.drop_eq_nil_of_le (by simp)]; rfl
          have := ih ms hm ha' hv' (data ++ [(key, text)]) (start + (2 + b.length)) hd
          rw [this]
          have e1 : data ++ [(key, text)] ++ fieldTexts fs = data ++ fieldTexts (f :: fs) := by
            simp [fieldTexts, hc, h2]
          have e2 : start + (2 + b.length) + (encodeFields (flags.testBit 7) fs).length =
              start + (le 2 count ++ b ++ encodeFields (flags.testBit 7) fs).length := by simp; omega
          rw [e1, e2]
        · rw [hacc, t3, List.take_append_of_le_length (by simp), List.take_of_length_le (by simp)]; exact t1

/-- The loop when nothing more is announced. -/
theorem loop_done {h : LnkHeader} {flags : Nat} (hf : uAt 4 h.raw 20 = some flags) (tp : TextProc)
    (fs : List StringField) (ms : List (String × String × Bool)) (hm : Matches ms fs)
    (ha : ∀ f ∈ fs, flags.testBit f.bit = false) (raw : Bytes) (data : List (String × Str)) (start : Nat) :
    loop h tp raw ms data start = pure ⟨data, start⟩ := by
  induction fs generalizing ms with
  | nil => match ms, hm with | [], _ => rfl
  | cons f fs ih =>
    match ms, hm with
    | (flag, key, limited) :: ms, hm =>
      rw [loop_absent hf tp raw hm.1.1 (ha f (by simp))]
      exact ih ms hm.2 (fun g hg => ha g (by simp [hg]))

/-- The loop when the data are used up. -/
theorem loop_exhausted {h : LnkHeader} {flags : Nat} (hf : uAt 4 h.raw 20 = some flags) (tp : TextProc)
    (fs : List StringField) (ms : List (String × String × Bool)) (hm : Matches ms fs)
    (raw : Bytes) (data : List (String × Str)) (start : Nat) (hs : (raw.drop start).length < 2) :
    loop h tp raw ms data start =
      ⟨if fs.any (fun f => flags.testBit f.bit) then [.stringData] else [], .ok ⟨data, start⟩⟩ := by
  induction fs generalizing ms with
  | nil => match ms, hm with | [], _ => rfl
  | cons f fs ih =>
    match ms, hm with
    | (flag, key, limited) :: ms, hm =>
      cases hb : flags.testBit f.bit with
      | false =>
        rw [loop_absent hf tp raw hm.1.1 hb, ih ms hm.2]
        simp [hb]
      | true =>
        rw [loop_short hf tp raw hm.1.1 hb _ _ _ hs]
        simp [hb]

end StringData

end Verif
