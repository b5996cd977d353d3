import Verif.Lemmas.StringData
import Verif.Props.Text

/-
C15-C17: the string data section.
-/

namespace Verif.Props

open Spec

/-- The announced strings are the ones present, and they are valid for the encoding the header declares. -/
structure GoodStrings (tp : TextProc) (flags : Nat) (s : Strings) : Prop where
  announced : Announced flags s.fields
  valid : ∀ f ∈ s.fields, f.Valid tp (flags.testBit 7)

/-! ### C15 -/

/-- C15: the section is read back, whatever follows it: every text under its key in file order, the exact number
of bytes, no warnings.  `flags` is the LinkFlags word of the header; bit 7 is IsUnicode. -/
theorem string_data_roundtrip (h : LnkHeader) (tp : TextProc) (flags : Nat) (hf : uAt 4 h.raw 20 = some flags)
    (s : Strings) (hs : GoodStrings tp flags s) (rest : Bytes) :
    StringData.init h tp (s.encode (flags.testBit 7) ++ rest) =
      pure ⟨fieldTexts s.fields, (s.encode (flags.testBit 7)).length⟩ := by
  unfold StringData.init
  have := StringData.loop_fields hf tp s.fields StringData.fields [] (StringData.matches_fields s) hs.announced
    hs.valid (s.encode (flags.testBit 7) ++ rest) rest [] 0 rfl
  rw [List.append_nil] at this
  rw [this, StringData.loop]
  simp [Strings.encode]

/-- C15: each accessor gives the text of its own string, and nothing for an absent one. -/
theorem string_data_accessors (s : Strings) (n : Nat) :
    let sd : StringData := ⟨fieldTexts s.fields, n⟩
    sd.get? "description" = s.name.map (·.2) ∧ sd.get? "relative_path" = s.relativePath.map (·.2) ∧
      sd.get? "working_directory" = s.workingDir.map (·.2) ∧
      sd.get? "command_line_arguments" = s.arguments.map (·.2) ∧
      sd.get? "icon_location" = s.iconLocation.map (·.2) := by
  obtain ⟨a, b, c, d, e⟩ := s
  rcases a with _ | ⟨a1, a2⟩ <;> rcases b with _ | ⟨b1, b2⟩ <;> rcases c with _ | ⟨c1, c2⟩ <;>
    rcases d with _ | ⟨d1, d2⟩ <;> rcases e with _ | ⟨e1, e2⟩ <;>
    simp [StringData.get?, fieldTexts, Strings.fields, List.lookup]

/-- C15: the dictionary has exactly the announced strings. -/
theorem string_data_dict (s : Strings) (n : Nat) :
    (StringData.mk (fieldTexts s.fields) n).asDict = s.fields.filterMap fun f => f.content.map fun c => (f.key, .str c.2) := by
  simp only [StringData.asDict, fieldTexts, List.map_filterMap, Option.map_map]
  rfl

/-- Two announced strings in Unicode form: a name and arguments. -/
def exampleStrings : Strings :=
  ⟨some (utf16 "Größe".toList, "Größe".toList), none, none, some (utf16 "-x 😀".toList, "-x 😀".toList), none⟩

/-- LinkFlags with HasName, HasArguments and IsUnicode. -/
def exampleHeaderObject : LnkHeader := ⟨List.replicate 20 0 ++ [0xA4, 0, 0, 0]⟩

theorem exampleStrings_good (tp : TextProc) : GoodStrings tp 0xA4 exampleStrings := by
  have hb : Nat.testBit 0xA4 7 = true := by decide
  constructor
  · intro f hf
    simp only [Strings.fields, List.mem_cons, List.not_mem_nil, or_false] at hf
    rcases hf with rfl | rfl | rfl | rfl | rfl <;> decide
  · rw [hb]
    intro f hf raw text hc
    simp only [Strings.fields, List.mem_cons, List.not_mem_nil, or_false] at hf
    simp only [if_true]
    rcases hf with rfl | rfl | rfl | rfl | rfl <;>
      simp only [exampleStrings, Option.some.injEq, Prod.mk.injEq, reduceCtorEq] at hc
    · obtain ⟨rfl, rfl⟩ := hc; refine ⟨rfl, by decide, by decide⟩
    · obtain ⟨rfl, rfl⟩ := hc; refine ⟨rfl, by decide, by decide⟩

example (tp : TextProc) : StringData.init exampleHeaderObject tp (exampleStrings.encode true ++ [1, 2, 3]) =
    pure ⟨[("description", "Größe".toList), ("command_line_arguments", "-x 😀".toList)], 24⟩ :=
  string_data_roundtrip exampleHeaderObject tp 0xA4 (by decide) exampleStrings (exampleStrings_good tp) [1, 2, 3]

/-! ### C16 -/

/-- C16: the section is cut before or inside the length prefix of an announced string: the strings before it are
kept and one warning is issued. -/
theorem string_data_cut_prefix (h : LnkHeader) (tp : TextProc) (flags : Nat) (hf : uAt 4 h.raw 20 = some flags)
    (s : Strings) (hs : GoodStrings tp flags s) (pre post : List StringField) (f : StringField)
    (hsplit : s.fields = pre ++ f :: post) (hc : f.content.isSome) (x : Bytes) (hx : x.length < 2) :
    StringData.init h tp (encodeFields (flags.testBit 7) pre ++ x) =
      ⟨[.stringData], .ok ⟨fieldTexts pre, (encodeFields (flags.testBit 7) pre).length⟩⟩ := by
  have hm := StringData.matches_fields s
  rw [hsplit] at hm
  obtain ⟨ms1, ms2, he, h1, h2⟩ := StringData.Matches_split hm
  have hmem : ∀ g ∈ pre, g ∈ s.fields := fun g hg => by rw [hsplit]; simp [hg]
  unfold StringData.init
  rw [he, StringData.loop_fields hf tp pre ms1 ms2 h1 (fun g hg => hs.announced g (hmem g hg))
    (fun g hg => hs.valid g (hmem g hg)) _ x [] 0 rfl]
  simp only [List.nil_append, Nat.zero_add]
  rw [StringData.loop_exhausted hf tp (f :: post) ms2 h2]
  · have : flags.testBit f.bit = true := by rw [hs.announced f (by rw [hsplit]; simp), hc]
    simp [this]
  · simpa using hx

/-- C16: the section is cut inside the characters of an announced string: the strings before it are kept, this
one is what its remaining bytes decode to, and there is one warning more exactly if further strings were
announced. -/
theorem string_data_cut_text (h : LnkHeader) (tp : TextProc) (flags : Nat) (hf : uAt 4 h.raw 20 = some flags)
    (s : Strings) (hs : GoodStrings tp flags s) (pre post : List StringField) (f : StringField)
    (hsplit : s.fields = pre ++ f :: post) (raw : Bytes) (text : Str) (hc : f.content = some (raw, text))
    (x y : Bytes) (hxy : raw = x ++ y) (hy : y ≠ []) (text' : Str) (w : List Warn)
    (ht : (if flags.testBit 7 then TextProc.readUnicodeString x else tp.readString x) = ⟨w, .ok text'⟩) :
    StringData.init h tp
        (encodeFields (flags.testBit 7) pre ++ (stringBytes (flags.testBit 7) raw).take (2 + x.length)) =
      ⟨w ++ (if post.any (fun g => g.content.isSome) then [.stringData] else []),
        .ok ⟨fieldTexts pre ++ [(f.key, text')], (encodeFields (flags.testBit 7) (pre ++ [f])).length⟩⟩ := by
  have hm := StringData.matches_fields s
  rw [hsplit] at hm
  obtain ⟨ms1, ms2, he, h1, h2⟩ := StringData.Matches_split hm
  have hmem : ∀ g ∈ pre, g ∈ s.fields := fun g hg => by rw [hsplit]; simp [hg]
  have hfm : f ∈ s.fields := by rw [hsplit]; simp
  have hfe : f.encode (flags.testBit 7) = stringBytes (flags.testBit 7) raw := by simp [StringField.encode, hc]
  obtain ⟨t1, t2, t3⟩ := StringData.readText_valid (hs.valid f hfm) hc
  unfold StringData.init
  rw [he, StringData.loop_fields hf tp pre ms1 ms2 h1 (fun g hg => hs.announced g (hmem g hg))
    (fun g hg => hs.valid g (hmem g hg)) _ _ [] 0 rfl]
  simp only [List.nil_append, Nat.zero_add]
  match ms2, h2 with
  | (flag, key, limited) :: ms2, h2 =>
    obtain ⟨⟨k1, k2, k3⟩, h2⟩ := h2
    have hb : flags.testBit f.bit = true := by rw [hs.announced f hfm, hc]; rfl
    have htake : (stringBytes (flags.testBit 7) raw).take (2 + x.length) =
        le 2 (if flags.testBit 7 then raw.length / 2 else raw.length) ++ x := by
      unfold stringBytes
      rw [List.take_append, List.take_of_length_le (by simp)]
      simp [hxy]
    rw [encodeFields_append', List.length_append, encodeFields_single, hfe]
    have hlen : (stringBytes (flags.testBit 7) raw).length = 2 + raw.length := by simp [stringBytes]
    rw [hlen, htake]
    generalize hcnt : (if flags.testBit 7 = true then raw.length / 2 else raw.length) = count at *
    have hlim : f.limit ≤ 65535 := by rw [k3]; split <;> omega
    have hacc : StringData.accepted limited count = count := by
      unfold StringData.accepted
      cases limited
      · simp
      · simp at k3 ⊢; omega
    have hxl : x.length ≤ raw.length := by rw [hxy]; simp
    have hyl : 0 < y.length := List.length_pos_iff.mpr hy
    have hrl : raw.length = x.length + y.length := by rw [hxy]; simp
    rw [StringData.loop_present hf tp _ k1 hb ms2 (fieldTexts pre) _ (count := count) (body := x) (by omega) (by simp)
      (text := text') (w := w)]
    · rw [hacc, t3, StringData.loop_exhausted hf tp post ms2 h2]
      · have : post.any (fun g => flags.testBit g.bit) = post.any (fun g => g.content.isSome) := by
          rw [Bool.eq_iff_iff, List.any_eq_true, List.any_eq_true]
          constructor
          · rintro ⟨g, hg, hb⟩
            exact ⟨g, hg, by rw [← hs.announced g (by rw [hsplit]; simp [hg]), hb]⟩
          · rintro ⟨g, hg, hb⟩
            exact ⟨g, hg, by rw [hs.announced g (by rw [hsplit]; simp [hg]), hb]⟩
        rw [this, k2]
      · simp; omega
    · rw [hacc, t3, List.take_of_length_le hxl]; exact ht
where
  encodeFields_append' (u : Bool) (fs gs : List StringField) :
      encodeFields u (fs ++ gs) = encodeFields u fs ++ encodeFields u gs := by simp [encodeFields]
  encodeFields_single (u : Bool) (f : StringField) : encodeFields u [f] = f.encode u := by simp [encodeFields]

/-- C16: every proper cut of the section is a cut of the kind treated by `string_data_cut_prefix` or
`string_data_cut_text`. -/
theorem string_data_cuts (u : Bool) (fs : List StringField) (n : Nat) (hn : n < (encodeFields u fs).length) :
    ∃ pre f post raw text, fs = pre ++ f :: post ∧ f.content = some (raw, text) ∧
      ((∃ x, x.length < 2 ∧ (encodeFields u fs).take n = encodeFields u pre ++ x) ∨
        ∃ x y, y ≠ [] ∧ raw = x ++ y ∧
          (encodeFields u fs).take n = encodeFields u pre ++ (stringBytes u raw).take (2 + x.length)) := by
  induction fs generalizing n with
  | nil => simp [encodeFields] at hn
  | cons f fs ih =>
    rw [StringData.encodeFields_cons] at hn ⊢
    by_cases hlt : n < (f.encode u).length
    · cases hc : f.content with
      | none => simp [StringField.encode, hc] at hlt
      | some c =>
        obtain ⟨raw, text⟩ := c
        have hfe : f.encode u = stringBytes u raw := by simp [StringField.encode, hc]
        refine ⟨[], f, fs, raw, text, rfl, hc, ?_⟩
        rw [List.take_append_of_le_length (by omega), hfe]
        rw [hfe] at hlt
        have hlen : (stringBytes u raw).length = 2 + raw.length := by simp [stringBytes]
        by_cases h2 : n < 2
        · left
          exact ⟨(stringBytes u raw).take n, by simp; omega, by simp [encodeFields]⟩
        · right
          refine ⟨raw.take (n - 2), raw.drop (n - 2), ?_, (List.take_append_drop _ _).symm, ?_⟩
          · intro h
            have := congrArg List.length h
            simp at this; omega
          · have : 2 + (raw.take (n - 2)).length = n := by simp; omega
            rw [this]; rfl
    · obtain ⟨pre, g, post, raw, text, rfl, hc, h⟩ := ih (n - (f.encode u).length) (by simp at hn; omega)
      refine ⟨f :: pre, g, post, raw, text, rfl, hc, ?_⟩
      rw [List.take_append, List.take_of_length_le (by omega), StringData.encodeFields_cons]
      rcases h with ⟨x, hx, hh⟩ | ⟨x, y, hy, hr, hh⟩
      · left; exact ⟨x, hx, by rw [hh, List.append_assoc]⟩
      · right; exact ⟨x, y, hy, hr, by rw [hh, List.append_assoc]⟩

/-- C16: on arbitrary bytes the section never raises, unless the code page itself does. -/
theorem string_data_total (h : LnkHeader) (tp : TextProc) (flags : Nat) (hf : uAt 4 h.raw 20 = some flags)
    (hcp : flags.testBit 7 = false → ∀ b, ∃ s w, tp.readString b = ⟨w, .ok s⟩) (raw : Bytes) :
    ∃ sd w, StringData.init h tp raw = ⟨w, .ok sd⟩ ∧ w.count .stringData ≤ 1 ∧
      (.stringData ∈ w → raw.length < sd.size + 2) := by
  have hrt : ∀ b, ∃ s w, StringData.readText tp (flags.testBit 7) b = ⟨w, .ok s⟩ ∧ .stringData ∉ w := by
    intro b
    unfold StringData.readText
    cases hb : flags.testBit 7 with
    | true =>
      simp only [if_true]
      obtain ⟨us, h0, ⟨tail, ht, rfl⟩ | ⟨rest, rfl⟩⟩ := wide_nul_cases b
      · obtain ⟨s, hs⟩ := utf16Lenient_total (units us ++ tail)
        have := wide_decode us h0 tail ht s hs
        split at this
        · exact ⟨s, [], this, by simp⟩
        · exact ⟨s, _, this, by simp⟩
      · rw [wide_stops_at_nul us rest h0]
        obtain ⟨s, hs⟩ := utf16Lenient_total (units us ++ [])
        have := wide_decode us h0 [] (by simp) s hs
        rw [List.append_nil] at this
        split at this
        · exact ⟨s, [], this, by simp⟩
        · exact ⟨s, _, this, by simp⟩
    | false =>
      simp only [Bool.false_eq_true, if_false]
      obtain ⟨s, w, hw⟩ := hcp hb b
      exact ⟨s, w, hw, by
        have := ansi_warns tp b
        rw [hw] at this
        intro hmem
        obtain ⟨s', hs'⟩ := this _ hmem
        cases hs'⟩
  have key : ∀ (fs : List StringField) (ms : List (String × String × Bool)), StringData.Matches ms fs →
      ∀ data start, ∃ sd w, StringData.loop h tp raw ms data start = ⟨w, .ok sd⟩ ∧ w.count .stringData ≤ 1 ∧
        (.stringData ∈ w → raw.length < sd.size + 2) := by
    intro fs
    induction fs with
    | nil =>
      intro ms hm data start
      match ms, hm with
      | [], _ => exact ⟨_, [], rfl, by simp, by simp⟩
    | cons f fs ih =>
      intro ms hm data start
      match ms, hm with
      | (flag, key, limited) :: ms, hm =>
        cases hb : flags.testBit f.bit with
        | false => rw [StringData.loop_absent hf tp raw hm.1.1 hb]; exact ih ms hm.2 data start
        | true =>
          by_cases hs : (raw.drop start).length < 2
          · rw [StringData.loop_short hf tp raw hm.1.1 hb _ _ _ hs]
            refine ⟨_, _, rfl, by simp, fun _ => ?_⟩
            simp at hs ⊢; omega
          · obtain ⟨c, hcc⟩ := le2_surj (b := (raw.drop start).take 2) (by simp at hs ⊢; omega)
            have hd : raw.drop start = le 2 c.toNat ++ (raw.drop start).drop 2 := by
              rw [hcc, List.take_append_drop]
            obtain ⟨t, w, ht, hw⟩ := hrt (((raw.drop start).drop 2).take
              (StringData.accepted limited c.toNat * StringData.unit (flags.testBit 7)))
            rw [StringData.loop_present hf tp raw hm.1.1 hb ms data start c.toNat_lt hd ht]
            obtain ⟨sd, w', h1, h2, h3⟩ := ih ms hm.2 (data ++ [(key, t)])
              (start + (2 + StringData.accepted limited c.toNat * StringData.unit (flags.testBit 7)))
            rw [h1]
            refine ⟨sd, w ++ w', rfl, ?_, ?_⟩
            · rw [List.count_append, List.count_eq_zero.mpr hw]; omega
            · intro hmem
              rcases List.mem_append.mp hmem with hmem | hmem
              · exact absurd hmem hw
              · exact h3 hmem
  exact key (Strings.mk none none none none none).fields _ (StringData.matches_fields _) [] 0
where
  /-- Code page strings only ever warn about decoding. -/
  ansi_warns (tp : TextProc) (b : Bytes) : ∀ w ∈ (tp.readString b).warns, ∃ s, w = .decode s := by
    have key : ∀ a, ∀ w ∈ (tp.ansiToStr a).warns, ∃ s, w = .decode s := by
      intro a w hw
      have h1 : (decodeNamed tp.env tp.cp a).warns = [] := by
        unfold decodeNamed; split
        · rfl
        · split <;> rfl
      have h2 : (decodeUtf8 a).warns = [] := by unfold decodeUtf8; split <;> rfl
      have h3 : (decodeNamedReplace tp.env tp.cp a).warns = [] := by
        unfold decodeNamedReplace; split
        · rfl
        · split <;> rfl
      unfold TextProc.ansiToStr Py.tryExcept at hw
      split at hw
      · split at hw
        · simp only [h1, h2, List.nil_append] at hw
          split at hw
          · split at hw
            · simp only [bind, Py.andThen] at hw
              cases h4 : (decodeNamedReplace tp.env tp.cp a).res with
              | error e => rw [h4] at hw; simp [h3] at hw
              | ok s => rw [h4] at hw; simp [h3, Py.warn, pure, Py.ret] at hw; exact ⟨s, hw⟩
            · simp [h2] at hw
          · simp [h2] at hw
        · simp [h1] at hw
      · simp [h1] at hw
    rcases nul_cases b with h0 | ⟨a, rest, h0, rfl⟩
    · rw [readString_last tp h0]; exact key b
    · rw [readString_cons tp rest h0]; exact key a

/-- C16: in particular with Unicode strings, or with the default code page. -/
theorem string_data_total_default (env : Env) (h : LnkHeader) (flags : Nat) (hf : uAt 4 h.raw 20 = some flags)
    (raw : Bytes) : ∃ sd w, StringData.init h (TextProc.mk' env none) raw = ⟨w, .ok sd⟩ := by
  obtain ⟨sd, w, h1, _⟩ := string_data_total h (TextProc.mk' env none) flags hf
    (fun _ b => ansi_default_total env b) raw
  exact ⟨sd, w, h1⟩

/-- Rubbish in place of the strings. -/
example (env : Env) : ∃ sd w, StringData.init exampleHeaderObject (TextProc.mk' env none) [255, 255, 1] = ⟨w, .ok sd⟩ :=
  string_data_total_default env exampleHeaderObject 0xA4 (by decide) [255, 255, 1]

/-- `exampleStrings` cut inside the arguments, and after the first byte of their length. -/
example (tp : TextProc) : StringData.init exampleHeaderObject tp ((exampleStrings.encode true).take 18) =
    pure ⟨[("description", "Größe".toList), ("command_line_arguments", "-x".toList)], 24⟩ :=
  string_data_cut_text exampleHeaderObject tp 0xA4 (by decide) exampleStrings (exampleStrings_good tp)
    [⟨2, "description", 260, exampleStrings.name⟩, ⟨3, "relative_path", 260, none⟩, ⟨4, "working_directory", 260, none⟩]
    [⟨6, "icon_location", 65535, none⟩] ⟨5, "command_line_arguments", 65535, exampleStrings.arguments⟩ rfl
    (utf16 "-x 😀".toList) "-x 😀".toList rfl (utf16 "-x".toList) (utf16 " 😀".toList) (by decide) (by decide)
    "-x".toList [] (readUnicodeString_utf16 (by decide))

example (tp : TextProc) : StringData.init exampleHeaderObject tp ((exampleStrings.encode true).take 13) =
    ⟨[.stringData], .ok ⟨[("description", "Größe".toList)], 12⟩⟩ :=
  string_data_cut_prefix exampleHeaderObject tp 0xA4 (by decide) exampleStrings (exampleStrings_good tp)
    [⟨2, "description", 260, exampleStrings.name⟩, ⟨3, "relative_path", 260, none⟩, ⟨4, "working_directory", 260, none⟩]
    [⟨6, "icon_location", 65535, none⟩] ⟨5, "command_line_arguments", 65535, exampleStrings.arguments⟩ rfl rfl
    [5] (by decide)

/-! ### C17 -/

/-- C17: an announced string is cut to its limit (260 for name, relative path and working directory, else the
65535 the length field can express), whatever count is declared and whatever follows: its text is decoded from
that many units, and if it is the last one announced, that is also what the section consumes. -/
theorem string_data_limit (h : LnkHeader) (tp : TextProc) (flags : Nat) (hf : uAt 4 h.raw 20 = some flags)
    (s : Strings) (hs : GoodStrings tp flags s) (pre post : List StringField) (f : StringField)
    (hsplit : s.fields = pre ++ f :: post) (hc : f.content.isSome) (count : UInt16) (body : Bytes) (text : Str)
    (w : List Warn)
    (ht : (if flags.testBit 7 then TextProc.readUnicodeString (body.take (2 * min count.toNat f.limit))
      else tp.readString (body.take (min count.toNat f.limit))) = ⟨w, .ok text⟩)
    (hpost : ∀ g ∈ post, g.content = none) :
    StringData.init h tp (encodeFields (flags.testBit 7) pre ++ le 2 count.toNat ++ body) =
      ⟨w, .ok ⟨fieldTexts pre ++ [(f.key, text)], (encodeFields (flags.testBit 7) pre).length +
        (2 + min count.toNat f.limit * if flags.testBit 7 then 2 else 1)⟩⟩ := by
  have hm := StringData.matches_fields s
  rw [hsplit] at hm
  obtain ⟨ms1, ms2, he, h1, h2⟩ := StringData.Matches_split hm
  have hmem : ∀ g ∈ pre, g ∈ s.fields := fun g hg => by rw [hsplit]; simp [hg]
  have hfm : f ∈ s.fields := by rw [hsplit]; simp
  unfold StringData.init
  rw [he, StringData.loop_fields hf tp pre ms1 ms2 h1 (fun g hg => hs.announced g (hmem g hg))
    (fun g hg => hs.valid g (hmem g hg)) _ (le 2 count.toNat ++ body) [] 0 (by simp)]
  simp only [List.nil_append, Nat.zero_add]
  match ms2, h2 with
  | (flag, key, limited) :: ms2, h2 =>
    obtain ⟨⟨k1, k2, k3⟩, h2⟩ := h2
    have hb : flags.testBit f.bit = true := by rw [hs.announced f hfm, hc]
    have hacc : StringData.accepted limited count.toNat = min count.toNat f.limit := by
      have := count.toNat_lt
      unfold StringData.accepted
      rw [k3]
      cases limited <;> simp
      omega
    rw [StringData.loop_present hf tp _ k1 hb ms2 (fieldTexts pre) _ (count := count.toNat) (body := body)
      count.toNat_lt (by simp) (text := text) (w := w)]
    · rw [hacc, StringData.loop_done hf tp post ms2 h2]
      · simp [StringData.unit, k2]
      · intro g hg
        rw [hs.announced g (by rw [hsplit]; simp [hg]), hpost g hg]; rfl
    · rw [hacc, ← ht]
      unfold StringData.readText StringData.unit
      cases flags.testBit 7 <;> simp [Nat.mul_comm]

/-- C17: for every file, no text reported for the three limited strings has more than 260 characters. -/
theorem string_data_limited_texts (h : LnkHeader) (tp : TextProc) (flags : Nat) (hf : uAt 4 h.raw 20 = some flags)
    (hcp : flags.testBit 7 = false → ∀ b s w, tp.readString b = ⟨w, .ok s⟩ → s.length ≤ b.length)
    (raw : Bytes) (sd : StringData) (hi : (StringData.init h tp raw).res = .ok sd) (key : String)
    (hk : key = "description" ∨ key = "relative_path" ∨ key = "working_directory") (t : Str)
    (ht : sd.get? key = some t) : t.length ≤ 260 := by
  have hlen : ∀ (n : Nat) (b : Bytes) t w, StringData.readText tp (flags.testBit 7) (b.take (n * StringData.unit (flags.testBit 7))) =
      ⟨w, .ok t⟩ → t.length ≤ n := by
    intro n b t w hr
    unfold StringData.readText StringData.unit at hr
    cases hb : flags.testBit 7 with
    | true =>
      rw [hb] at hr
      simp only [if_true] at hr
      have := wide_length hr
      simp at this; omega
    | false =>
      rw [hb] at hr
      simp only [Bool.false_eq_true, if_false] at hr
      have := hcp hb _ _ _ hr
      simp at this; omega
  have inv : ∀ (fs : List StringField) (ms : List (String × String × Bool)), StringData.Matches ms fs →
      (∀ f ∈ fs, f.key = "description" ∨ f.key = "relative_path" ∨ f.key = "working_directory" → f.limit = 260) →
      ∀ data start, (∀ kt ∈ data, kt.1 = "description" ∨ kt.1 = "relative_path" ∨ kt.1 = "working_directory" →
        kt.2.length ≤ 260) → ∀ sd, (StringData.loop h tp raw ms data start).res = .ok sd →
      ∀ kt ∈ sd.data, kt.1 = "description" ∨ kt.1 = "relative_path" ∨ kt.1 = "working_directory" →
        kt.2.length ≤ 260 := by
    intro fs
    induction fs with
    | nil =>
      intro ms hm hl data start hd sd hsd
      match ms, hm with
      | [], _ => cases hsd; exact hd
    | cons f fs ih =>
      intro ms hm hl data start hd sd hsd
      match ms, hm with
      | (flag, key, limited) :: ms, hm =>
        have hl' : ∀ g ∈ fs, g.key = "description" ∨ g.key = "relative_path" ∨ g.key = "working_directory" →
            g.limit = 260 := fun g hg => hl g (by simp [hg])
        cases hb : flags.testBit f.bit with
        | false =>
          rw [StringData.loop_absent hf tp raw hm.1.1 hb] at hsd
          exact ih ms hm.2 hl' data start hd sd hsd
        | true =>
          by_cases hs : (raw.drop start).length < 2
          · rw [StringData.loop_short hf tp raw hm.1.1 hb _ _ _ hs] at hsd
            cases hsd; exact hd
          · obtain ⟨c, hcc⟩ := le2_surj (b := (raw.drop start).take 2) (by simp at hs ⊢; omega)
            have hdr : raw.drop start = le 2 c.toNat ++ (raw.drop start).drop 2 := by
              rw [hcc, List.take_append_drop]
            cases hr : StringData.readText tp (flags.testBit 7) (((raw.drop start).drop 2).take
                (StringData.accepted limited c.toNat * StringData.unit (flags.testBit 7))) with
            | mk w res =>
              cases res with
              | ok t =>
                rw [StringData.loop_present hf tp raw hm.1.1 hb ms data start c.toNat_lt hdr hr] at hsd
                refine ih ms hm.2 hl' _ _ ?_ sd hsd
                intro kt hkt hkk
                rcases List.mem_append.mp hkt with hkt | hkt
                · exact hd kt hkt hkk
                · have := List.mem_singleton.mp hkt
                  subst this
                  have h260 := hl f (by simp) (by rw [hm.1.2.1]; exact hkk)
                  have hlim := hm.1.2.2
                  have hlimited : limited = true := by
                    cases limited
                    · simp at hlim; omega
                    · rfl
                  subst hlimited
                  have := hlen _ _ _ _ hr
                  simp [StringData.accepted] at this
                  simp; omega
              | error e =>
                rw [StringData.loop, hasFlag_bit hf hm.1.1, hb, hdr, StringData.read_eq hf tp _ c.toNat_lt, hr] at hsd
                simp only [bind, Py.andThen, Py.attempt] at hsd
                by_cases he : e = .structError
                · simp [he, Py.warn, pure, Py.ret] at hsd
                  subst hsd; exact hd
                · simp [he] at hsd
  have hmem : (key, t) ∈ sd.data := by
    unfold StringData.get? at ht
    obtain ⟨l1, l2, he, _⟩ := List.lookup_eq_some_iff.mp ht
    rw [he]; simp
  refine inv (Strings.mk none none none none none).fields _ (StringData.matches_fields _) ?_ [] 0 (by simp) sd hi
    (key, t) hmem hk
  intro f hfm
  simp only [Strings.fields, List.mem_cons, List.not_mem_nil, or_false] at hfm
  rcases hfm with rfl | rfl | rfl | rfl | rfl <;> simp

/-- The condition of `string_data_limited_texts` holds for the default code page. -/
theorem default_codepage_length (env : Env) (b : Bytes) (s : Str) (w : List Warn)
    (h : (TextProc.mk' env none).readString b = ⟨w, .ok s⟩) : s.length ≤ b.length := by
  have hcp : ∀ {b s}, Cp1252 b s → s.length = b.length := by
    intro b
    induction b with
    | nil => intro s h; cases s <;> simp_all [Cp1252]
    | cons x xs ih => intro s h; cases s <;> simp_all [Cp1252]
  have hcl : ∀ {b s}, Cp1252Lenient b s → s.length = b.length := by
    intro b
    induction b with
    | nil => intro s h; cases s <;> simp_all [Cp1252Lenient]
    | cons x xs ih => intro s h; cases s <;> simp_all [Cp1252Lenient]
  have hu8 : ∀ s, s.length ≤ (utf8 s).length := by
    intro s
    induction s with
    | nil => simp
    | cons c s ih =>
      have : 0 < (String.utf8EncodeChar c).length := by rw [String.length_utf8EncodeChar]; exact c.utf8Size_pos
      simp [utf8] at *; omega
  have key : ∀ b s w, 0 ∉ b → (TextProc.mk' env none).readString b = ⟨w, .ok s⟩ → s.length ≤ b.length := by
    intro b s w h0 h
    by_cases h1 : ∃ t, Cp1252 b t
    · obtain ⟨t, ht⟩ := h1
      rw [(ansi_default env none (.inl rfl) b h0 t).1 ht] at h
      cases h; exact (hcp ht).le
    · have h1' : ∀ t, ¬ Cp1252 b t := fun t ht => h1 ⟨t, ht⟩
      by_cases h2 : ∃ t, b = utf8 t
      · obtain ⟨t, ht⟩ := h2
        rw [(ansi_default env none (.inl rfl) b h0 t).2.1 h1' ht] at h
        cases h; rw [ht]; exact hu8 _
      · have h2' : ∀ t, b ≠ utf8 t := fun t ht => h2 ⟨t, ht⟩
        rw [(ansi_default env none (.inl rfl) b h0 _).2.2 h1' h2' (cp1252_lenient b)] at h
        cases h; exact (hcl (cp1252_lenient b)).le
  rcases nul_cases b with h0 | ⟨a, rest, h0, rfl⟩
  · exact key b s w h0 h
  · rw [ansi_stops_at_nul _ _ _ h0] at h
    have := key a s w h0 h
    simp; omega

/-- LinkFlags with HasName and IsUnicode only. -/
def nameOnlyHeader : LnkHeader := ⟨List.replicate 20 0 ++ [0x84, 0, 0, 0]⟩

/-- A name of 300 characters is cut to 260, and the section is taken to end 80 bytes early. -/
example (tp : TextProc) : StringData.init nameOnlyHeader tp (le 2 300 ++ utf16 (List.replicate 300 'x')) =
    pure ⟨[("description", List.replicate 260 'x')], 522⟩ := by
  have hb : Nat.testBit 0x84 7 = true := by decide
  have := string_data_limit nameOnlyHeader tp 0x84 (by decide) ⟨some ([], []), none, none, none, none⟩
    ⟨by
      intro f hf
      simp only [Strings.fields, List.mem_cons, List.not_mem_nil, or_false] at hf
      rcases hf with rfl | rfl | rfl | rfl | rfl <;> decide, by
      intro f hf raw text hc
      simp only [Strings.fields, List.mem_cons, List.not_mem_nil, or_false] at hf
      rcases hf with rfl | rfl | rfl | rfl | rfl <;> simp at hc
      obtain ⟨rfl, rfl⟩ := hc
      rw [hb]; simp [utf16]⟩
    [] [⟨3, "relative_path", 260, none⟩, ⟨4, "working_directory", 260, none⟩,
      ⟨5, "command_line_arguments", 65535, none⟩, ⟨6, "icon_location", 65535, none⟩]
    ⟨2, "description", 260, some ([], [])⟩ rfl rfl 300 (utf16 (List.replicate 300 'x')) (List.replicate 260 'x') []
    (by
      have ht : (utf16 (List.replicate 300 'x')).take (2 * min (300 : UInt16).toNat 260) =
          utf16 (List.replicate 260 'x') := by decide +kernel
      rw [hb, if_pos rfl, ht]
      exact readUnicodeString_utf16 (by decide +kernel))
    (by intro g hg; simp at hg; rcases hg with rfl | rfl | rfl | rfl <;> rfl)
  exact this

/-- Whatever follows the header, a reported name has at most 260 characters. -/
example (env : Env) (raw : Bytes) (sd : StringData) (hi : (StringData.init exampleHeaderObject (TextProc.mk' env none) raw).res = .ok sd)
    (t : Str) (ht : sd.get? "description" = some t) : t.length ≤ 260 :=
  string_data_limited_texts _ _ 0xA4 (by decide) (fun _ => default_codepage_length env) raw sd hi _ (.inl rfl) t ht

end Verif.Props
