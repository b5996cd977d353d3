import Verif.Model.Header
import Verif.Model.File
import Verif.Spec.Header
import Verif.Lemmas.Guid

namespace Verif

open Spec

/-! ### numbers as text -/

theorem decStr_eq (n : Nat) : decStr n = Nat.toDigits 10 n := by
  induction n using Nat.strongRecOn with
  | _ n ih =>
    rw [decStr]
    have hd : ∀ d, d < 10 → Char.ofNat (48 + d) = d.digitChar := by
      intro d hd
      have : ∀ d : Fin 10, Char.ofNat (48 + d.1) = d.1.digitChar := by decide
      exact this ⟨d, hd⟩
    split
    · rename_i h; rw [Nat.toDigits_of_lt_base h, hd n h]
    · rename_i h
      rw [ih (n / 10) (by omega), Nat.toDigits_of_base_le (n := n) (by decide) (by omega),
        hd _ (Nat.mod_lt _ (by decide))]

theorem hexStr_eq (n : Nat) : hexStr false n = Nat.toDigits 16 n := by
  induction n using Nat.strongRecOn with
  | _ n ih =>
    rw [hexStr]
    have hd : ∀ d, d < 16 → hexChar false d = d.digitChar := by
      intro d hd
      have : ∀ d : Fin 16, hexChar false d.1 = d.1.digitChar := by decide
      exact this ⟨d, hd⟩
    split
    · rename_i h; rw [Nat.toDigits_of_lt_base h, hd n h]
    · rename_i h
      rw [ih (n / 16) (by omega), Nat.toDigits_of_base_le (n := n) (by decide) (by omega),
        hd _ (Nat.mod_lt _ (by decide))]

theorem toDigits10_inj {a b : Nat} (h : Nat.toDigits 10 a = Nat.toDigits 10 b) : a = b := by
  have ha := Nat.ofDigitChars_ten_toDigits (n := a)
  have hb := Nat.ofDigitChars_ten_toDigits (n := b)
  rw [h] at ha; omega

theorem byteHex_eq (b : UInt8) : byteHex b = hexFixedLower 2 b.toNat := by
  have := b.toNat_lt
  simp only [byteHex, hexFixedLower, List.nil_append, List.singleton_append]
  rw [hexChar_false (by omega), hexChar_false (by omega), Nat.mod_eq_of_lt (a := b.toNat / 16) (by omega)]

/-! ### flags -/

theorem and_two_pow_ne_zero (v i : Nat) : (v &&& 2 ^ i != 0) = v.testBit i := by
  rw [Nat.testBit_eq_decide_div_mod_eq]
  have h := Nat.testBit_eq_decide_div_mod_eq (x := v) (i := i)
  by_cases hb : v.testBit i
  · have : (v &&& 2 ^ i) ≠ 0 := by
      intro h0
      have := congrArg (fun x => x.testBit i) h0
      simp [Nat.testBit_and, Nat.testBit_two_pow_self, hb] at this
    rw [hb] at h
    simp [this, ← h]
  · have : (v &&& 2 ^ i) = 0 := by
      apply Nat.eq_of_testBit_eq
      intro j
      simp only [Nat.testBit_and, Nat.testBit_two_pow, Nat.zero_testBit]
      by_cases hij : i = j
      · subst hij; simp [hb]
      · simp [hij]
    simp only [Bool.not_eq_true] at hb
    rw [hb] at h
    simp [this, ← h]

/-- A table whose masks are the powers of two in order lists the names of the set bits. -/
theorem flagNames_eq (names : List String) (table : List (Nat × String))
    (ht : table = (List.range names.length).map fun i => (2 ^ i, names.getD i "")) (v : Nat) :
    LnkHeader.flagNames table v = setBitNames names v := by
  subst ht
  unfold LnkHeader.flagNames setBitNames
  rw [List.filter_map, List.map_map]
  rw [← List.filterMap_eq_map, List.filterMap_filter]
  apply List.filterMap_congr
  intro i hi
  simp only [List.mem_range] at hi
  simp only [Function.comp, and_two_pow_ne_zero, List.getD_eq_getElem?_getD, List.getElem?_eq_getElem hi,
    Option.getD_some]

theorem linkFlagTable : LnkHeader.LINK_FLAG_MASK
    = (List.range linkFlagNames.length).map fun i => (2 ^ i, linkFlagNames.getD i "") := by decide

theorem fileFlagTable : LnkHeader.FILE_FLAG_MASK
    = (List.range fileFlagNames.length).map fun i => (2 ^ i, fileFlagNames.getD i "") := by decide

theorem linkFlagNames_eq (v : Nat) :
    LnkHeader.flagNames LnkHeader.LINK_FLAG_MASK v = setBitNames linkFlagNames v :=
  flagNames_eq _ _ linkFlagTable v

theorem fileFlagNames_eq (v : Nat) :
    LnkHeader.flagNames LnkHeader.FILE_FLAG_MASK v = setBitNames fileFlagNames v :=
  flagNames_eq _ _ fileFlagTable v

theorem mem_setBitNames {names : List String} (hn : names.Nodup) {v i : Nat} {name : String}
    (h : names[i]? = some name) : name ∈ setBitNames names v ↔ v.testBit i = true := by
  obtain ⟨hi, hn'⟩ := List.getElem?_eq_some_iff.mp h
  unfold setBitNames
  rw [List.mem_filterMap]
  constructor
  · rintro ⟨j, hj, hj'⟩
    by_cases hb : v.testBit j = true
    case neg => simp [hb] at hj'
    rw [if_pos hb] at hj'
    have : i = j := (List.getElem?_inj hi hn).mp (h.trans hj'.symm)
    rw [this]; exact hb
  · intro hb
    exact ⟨i, by simpa using hi, by simp [hb, h]⟩

theorem linkFlagNames_nodup : linkFlagNames.Nodup := by decide
theorem fileFlagNames_nodup : fileFlagNames.Nodup := by decide

/-! ### the encoded header -/

@[simp] theorem Header_encode_length (h : Header) : h.encode.length = 76 := by simp [Header.encode]

/-- `must_be` applied to a computation without warnings. -/
theorem mustBe_pure (func : String) (expected : MustVal) (wrap : α → MustVal) (a : α) :
    mustBe func expected wrap (pure a) =
      ⟨if wrap a = expected then [] else [.mustBe func expected (wrap a)], .ok a⟩ := by
  unfold mustBe
  by_cases h : wrap a = expected
  · simp only [pure_bind, h, ne_eq, not_true, if_false, if_true]; rfl
  · simp only [pure_bind, h, ne_eq, not_false_eq_true, if_true, if_false]; rfl

section
variable (hd : Header) (rest : Bytes)

theorem Header_slice {s e : Nat} (h : e ≤ 76) (_hs : s ≤ e) :
    slice (hd.encode ++ rest) s e = slice hd.encode s e := slice_append_left (by simpa using h)

theorem Header_slice_0 : slice hd.encode 0 4 = le 4 hd.headerSize.toNat := by
  unfold Header.encode; slices
theorem Header_slice_4 : slice hd.encode 4 20 = hd.linkCLSID.encode := by
  unfold Header.encode; slices
theorem Header_slice_20 : slice hd.encode 20 24 = le 4 hd.linkFlags.toNat := by
  unfold Header.encode; slices
theorem Header_slice_24 : slice hd.encode 24 28 = le 4 hd.fileAttributes.toNat := by
  unfold Header.encode; slices
theorem Header_slice_28 : slice hd.encode 28 36 = leI 8 hd.creationTime.toInt := by
  unfold Header.encode; slices
theorem Header_slice_36 : slice hd.encode 36 44 = leI 8 hd.accessTime.toInt := by
  unfold Header.encode; slices
theorem Header_slice_44 : slice hd.encode 44 52 = leI 8 hd.writeTime.toInt := by
  unfold Header.encode; slices
theorem Header_slice_52 : slice hd.encode 52 56 = le 4 hd.fileSize.toNat := by
  unfold Header.encode; slices
theorem Header_slice_56 : slice hd.encode 56 60 = leI 4 hd.iconIndex.toInt := by
  unfold Header.encode; slices
theorem Header_slice_60 : slice hd.encode 60 64 = leI 4 hd.showCommand.toInt := by
  unfold Header.encode; slices
theorem Header_slice_64 : slice hd.encode 64 66 = [hd.hotKeyLow, hd.hotKeyHigh] := by
  unfold Header.encode; slices
theorem Header_slice_66 : slice hd.encode 66 68 = le 2 hd.reserved1.toNat := by
  unfold Header.encode; slices
theorem Header_slice_68 : slice hd.encode 68 72 = le 4 hd.reserved2.toNat := by
  unfold Header.encode; slices
theorem Header_slice_72 : slice hd.encode 72 76 = le 4 hd.reserved3.toNat := by
  unfold Header.encode; slices
end

/-- `raw` agrees with the serialized header on its 76 bytes. -/
def HeaderRaw (hd : Header) (raw : Bytes) : Prop := ∀ s e, e ≤ 76 → slice raw s e = slice hd.encode s e

theorem HeaderRaw_take (hd : Header) (rest : Bytes) (n : Nat) (hn : 76 ≤ n) :
    HeaderRaw hd ((hd.encode ++ rest).take n) := by
  intro s e he
  rw [slice_take (by omega), slice_append_left (by simpa using he)]

theorem HeaderRaw_append (hd : Header) (rest : Bytes) : HeaderRaw hd (hd.encode ++ rest) := by
  intro s e he
  rw [slice_append_left (by simpa using he)]

namespace LnkHeader

variable {hd : Header} {h : LnkHeader}

/-- The warning list of a check. -/
def checkWarns (func : String) (expected got : MustVal) : List Warn :=
  if got = expected then [] else [.mustBe func expected got]

theorem mustBe_pure' (func : String) (expected : MustVal) (wrap : α → MustVal) (a : α) :
    mustBe func expected wrap (pure a) = ⟨checkWarns func expected (wrap a), .ok a⟩ := mustBe_pure ..

theorem size_enc (hr : HeaderRaw hd h.raw) :
    h.size = ⟨checkWarns "size" (.int 0x4C) (.int hd.headerSize.toNat), .ok hd.headerSize.toNat⟩ := by
  unfold size
  rw [hr _ _ (by decide), Header_slice_0, unpackU_le4, mustBe_pure']

theorem linkClsId_enc (hr : HeaderRaw hd h.raw) :
    h.linkClsId = ⟨checkWarns "link_cls_id" (.str shellLinkCLSID.text) (.str hd.linkCLSID.text),
      .ok hd.linkCLSID.text⟩ := by
  unfold linkClsId
  rw [hr _ _ (by decide), Header_slice_4, parseUuid_encode, mustBe_pure']
  rfl

theorem rLinkFlags_enc (hr : HeaderRaw hd h.raw) : h.rLinkFlags = pure hd.linkFlags.toNat := by
  unfold rLinkFlags; rw [hr _ _ (by decide), Header_slice_20, unpackU_le4]

theorem linkFlags_enc (hr : HeaderRaw hd h.raw) :
    h.linkFlags = pure (setBitNames linkFlagNames hd.linkFlags.toNat) := by
  unfold linkFlags; rw [rLinkFlags_enc hr, pure_bind, linkFlagNames_eq]

theorem rFileFlags_enc (hr : HeaderRaw hd h.raw) : h.rFileFlags = pure hd.fileAttributes.toNat := by
  unfold rFileFlags; rw [hr _ _ (by decide), Header_slice_24, unpackU_le4]

theorem fileFlags_enc (hr : HeaderRaw hd h.raw) :
    h.fileFlags = pure (setBitNames fileFlagNames hd.fileAttributes.toNat) := by
  unfold fileFlags; rw [rFileFlags_enc hr, pure_bind, fileFlagNames_eq]

theorem creationTime_enc (hr : HeaderRaw hd h.raw) :
    h.creationTime = parseFiletime (leI 8 hd.creationTime.toInt) := by
  unfold creationTime; rw [hr _ _ (by decide), Header_slice_28]

theorem accessTime_enc (hr : HeaderRaw hd h.raw) :
    h.accessTime = parseFiletime (leI 8 hd.accessTime.toInt) := by
  unfold accessTime; rw [hr _ _ (by decide), Header_slice_36]

theorem writeTime_enc (hr : HeaderRaw hd h.raw) :
    h.writeTime = parseFiletime (leI 8 hd.writeTime.toInt) := by
  unfold writeTime; rw [hr _ _ (by decide), Header_slice_44]

theorem fileSize_enc (hr : HeaderRaw hd h.raw) : h.fileSize = pure hd.fileSize.toNat := by
  unfold fileSize; rw [hr _ _ (by decide), Header_slice_52, unpackU_le4]

theorem iconIndex_enc (hr : HeaderRaw hd h.raw) : h.iconIndex = pure hd.iconIndex.toInt := by
  unfold iconIndex; rw [hr _ _ (by decide), Header_slice_56, unpackI_leI4]

theorem windowStyles_lookup (v : Int) : (WINDOW_STYLES.lookup v).getD "SW_SHOWNORMAL" = showCommandName v := by
  unfold WINDOW_STYLES showCommandName
  simp only [List.lookup]
  by_cases h1 : v = 1
  · subst h1; rfl
  by_cases h3 : v = 3
  · subst h3; rfl
  by_cases h7 : v = 7
  · subst h7; rfl
  simp [h3, h7, beq_eq_false_iff_ne.mpr h1, beq_eq_false_iff_ne.mpr h3, beq_eq_false_iff_ne.mpr h7]

theorem windowStyle_enc (hr : HeaderRaw hd h.raw) : h.windowStyle = pure (showCommandName hd.showCommand.toInt) := by
  unfold windowStyle; rw [hr _ _ (by decide), Header_slice_60, unpackI_leI4, pure_bind, windowStyles_lookup]

theorem hotkeyHigh_lookup (c : UInt8) : (HOTKEY_VALUES_HIGH.lookup c.toNat).map String.toList = modifierName c.toNat := by
  have : ∀ i : Fin 256, (HOTKEY_VALUES_HIGH.lookup i.1).map String.toList = modifierName i.1 := by decide +kernel
  exact this ⟨c.toNat, c.toNat_lt⟩

theorem hotkeyLow_lookup (c : UInt8) : (HOTKEY_VALUES_LOW.lookup c.toNat).map String.toList = keyName c.toNat := by
  have : ∀ i : Fin 256, (HOTKEY_VALUES_LOW.lookup i.1).map String.toList = keyName i.1 := by decide +kernel
  exact this ⟨c.toNat, c.toNat_lt⟩

theorem hotKey_enc (hr : HeaderRaw hd h.raw) : h.hotKey = pure (hotKeyText hd.hotKeyLow hd.hotKeyHigh) := by
  unfold hotKey
  simp only [hr _ _ (show 66 ≤ 76 by decide), Header_slice_64]
  have hb : bytesHex [hd.hotKeyLow, hd.hotKeyHigh] = hotKeyHex hd.hotKeyLow hd.hotKeyHigh := by
    simp [bytesHex, hotKeyHex, byteHex_eq]
  unfold hotKeyText
  rw [← hotkeyHigh_lookup, ← hotkeyLow_lookup, hb]
  cases HOTKEY_VALUES_HIGH.lookup hd.hotKeyHigh.toNat <;> cases HOTKEY_VALUES_LOW.lookup hd.hotKeyLow.toNat <;> rfl

theorem rawHotKey_enc (hr : HeaderRaw hd h.raw) :
    h.rawHotKey = pure (hd.hotKeyLow.toNat + 256 * hd.hotKeyHigh.toNat) := by
  unfold rawHotKey; rw [hr _ _ (by decide), Header_slice_64]
  simp [unpackU, leNat]

theorem reserved0_enc (hr : HeaderRaw hd h.raw) :
    h.reserved0 = ⟨checkWarns "reserved0" (.int 0) (.int hd.reserved1.toNat), .ok hd.reserved1.toNat⟩ := by
  unfold reserved0; rw [hr _ _ (by decide), Header_slice_66, unpackU_le2, mustBe_pure']

theorem reserved1_enc (hr : HeaderRaw hd h.raw) :
    h.reserved1 = ⟨checkWarns "reserved1" (.int 0) (.int hd.reserved2.toNat), .ok hd.reserved2.toNat⟩ := by
  unfold reserved1; rw [hr _ _ (by decide), Header_slice_68, unpackU_le4, mustBe_pure']

theorem reserved2_enc (hr : HeaderRaw hd h.raw) :
    h.reserved2 = ⟨checkWarns "reserved2" (.int 0) (.int hd.reserved3.toNat), .ok hd.reserved3.toNat⟩ := by
  unfold reserved2; rw [hr _ _ (by decide), Header_slice_72, unpackU_le4, mustBe_pure']

theorem init_enc (hd : Header) (rest : Bytes) :
    LnkHeader.init (hd.encode ++ rest) = ⟨checkWarns "size" (.int 0x4C) (.int hd.headerSize.toNat),
      .ok ⟨(hd.encode ++ rest).take hd.headerSize.toNat⟩⟩ := by
  unfold init
  rw [if_neg (by intro h; have := congrArg List.length h; simp at this)]
  rw [size_enc (h := ⟨hd.encode ++ rest⟩) (HeaderRaw_append hd rest)]
  simp only [Py.bind_def, Py.andThen]
  simp

/-- Every 76 bytes are the serialization of a header. -/
theorem exists_header (b : Bytes) (hb : 76 ≤ b.length) : ∃ hd : Header, ∃ rest, b = hd.encode ++ rest := by
  have cut : ∀ (n : Nat) (b : Bytes), n ≤ b.length → ∃ x y, b = x ++ y ∧ x.length = n ∧ y.length = b.length - n :=
    fun n b hn => ⟨b.take n, b.drop n, (List.take_append_drop n b).symm, by simpa using hn, by simp⟩
  obtain ⟨x0, b, rfl, h0, l0⟩ := cut 4 b (by omega)
  obtain ⟨x1, b, rfl, h1, l1⟩ := cut 16 b (by omega)
  obtain ⟨x2, b, rfl, h2, l2⟩ := cut 4 b (by omega)
  obtain ⟨x3, b, rfl, h3, l3⟩ := cut 4 b (by omega)
  obtain ⟨x4, b, rfl, h4, l4⟩ := cut 8 b (by omega)
  obtain ⟨x5, b, rfl, h5, l5⟩ := cut 8 b (by omega)
  obtain ⟨x6, b, rfl, h6, l6⟩ := cut 8 b (by omega)
  obtain ⟨x7, b, rfl, h7, l7⟩ := cut 4 b (by omega)
  obtain ⟨x8, b, rfl, h8, l8⟩ := cut 4 b (by omega)
  obtain ⟨x9, b, rfl, h9, l9⟩ := cut 4 b (by omega)
  obtain ⟨x10, b, rfl, h10, l10⟩ := cut 1 b (by omega)
  obtain ⟨x11, b, rfl, h11, l11⟩ := cut 1 b (by omega)
  obtain ⟨x12, b, rfl, h12, l12⟩ := cut 2 b (by omega)
  obtain ⟨x13, b, rfl, h13, l13⟩ := cut 4 b (by omega)
  obtain ⟨x14, b, rfl, h14, l14⟩ := cut 4 b (by omega)
  obtain ⟨v0, rfl⟩ := le4_surj h0
  obtain ⟨v1, rfl⟩ := Guid_encode_surj h1
  obtain ⟨v2, rfl⟩ := le4_surj h2
  obtain ⟨v3, rfl⟩ := le4_surj h3
  obtain ⟨v4, rfl⟩ := leI8_surj h4
  obtain ⟨v5, rfl⟩ := leI8_surj h5
  obtain ⟨v6, rfl⟩ := leI8_surj h6
  obtain ⟨v7, rfl⟩ := le4_surj h7
  obtain ⟨v8, rfl⟩ := leI4_surj h8
  obtain ⟨v9, rfl⟩ := leI4_surj h9
  obtain ⟨v10, rfl⟩ := List.length_eq_one_iff.mp h10
  obtain ⟨v11, rfl⟩ := List.length_eq_one_iff.mp h11
  obtain ⟨v12, rfl⟩ := le2_surj h12
  obtain ⟨v13, rfl⟩ := le4_surj h13
  obtain ⟨v14, rfl⟩ := le4_surj h14
  exact ⟨⟨v0, v1, v2, v3, v4, v5, v6, v7, v8, v9, v10, v11, v12, v13, v14⟩, b, by simp [Header.encode]⟩

end LnkHeader

end Verif
