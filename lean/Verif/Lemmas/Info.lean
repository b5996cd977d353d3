import Verif.Spec.Info
import Verif.Model.File
import Verif.Lemmas.Targets
import Verif.Lemmas.Utf8

namespace Verif

open Spec

/-! ### hexadecimal -/

theorem hexChar_false_digitChar {d : Nat} (h : d < 16) : hexChar false d = d.digitChar := by
  have : ∀ d : Fin 16, hexChar false d.1 = d.1.digitChar := by decide
  exact this ⟨d, h⟩

theorem hexStr_false_eq (n : Nat) : hexStr false n = Nat.toDigits 16 n := by
  induction n using Nat.strong_induction_on with
  | _ n ih =>
    by_cases h : n < 16
    · rw [hexStr_lt h, Nat.toDigits_of_lt_base h, hexChar_false_digitChar h]
    · rw [hexStr_ge h, ih (n / 16) (by omega), Nat.toDigits_of_base_le (n := n) (by omega) (by omega),
        hexChar_false_digitChar (by omega)]

theorem pyHex_eq (n : Nat) : pyHex n = hex0x n := by rw [pyHex, hex0x, hexStr_false_eq]

/-- The value of a lower-case hexadecimal digit. -/
def hexValChar (c : Char) : Nat := if c.toNat < 0x40 then c.toNat - 0x30 else c.toNat - 0x61 + 10

/-- The value of lower-case hexadecimal digits. -/
def hexVal (s : Str) : Nat := s.foldl (fun a c => a * 16 + hexValChar c) 0

theorem hexValChar_hexChar {d : Nat} (h : d < 16) : hexValChar (hexChar false d) = d := by
  have : ∀ d : Fin 16, hexValChar (hexChar false d.1) = d.1 := by decide
  exact this ⟨d, h⟩

theorem hexVal_hexStr (n : Nat) : hexVal (hexStr false n) = n := by
  induction n using Nat.strong_induction_on with
  | _ n ih =>
    by_cases h : n < 16
    · rw [hexStr_lt h]; simp [hexVal, hexValChar_hexChar h]
    · rw [hexStr_ge h]
      have := ih (n / 16) (by omega)
      unfold hexVal at this ⊢
      rw [List.foldl_append, this]
      simp only [List.foldl_cons, List.foldl_nil, hexValChar_hexChar (Nat.mod_lt n (by omega : 0 < 16))]
      omega

/-! ### network providers -/

/-- Searching by hexadecimal text is searching by number among the keys that are the text of their own value. -/
theorem find_pyHex (table : List (String × String)) (n : Nat) :
    ((table.find? fun kv => kv.1.toList = pyHex n).map Prod.snd) =
      (table.filterMap fun kv =>
        if kv.1.toList = pyHex (hexVal (kv.1.toList.drop 2)) then some (hexVal (kv.1.toList.drop 2), kv.2)
        else none).lookup n := by
  induction table with
  | nil => rfl
  | cons kv table ih =>
    obtain ⟨k, v⟩ := kv
    rw [List.find?_cons, List.filterMap_cons]
    by_cases hk : k.toList = pyHex n
    · have hv : hexVal (k.toList.drop 2) = n := by rw [hk]; exact hexVal_hexStr n
      rw [hv, if_pos hk]
      simp [hk, List.lookup]
    · simp only [decide_eq_false hk]
      rw [ih]
      by_cases hs : k.toList = pyHex (hexVal (k.toList.drop 2))
      · have hne : (n == hexVal (k.toList.drop 2)) = false := by
          simp only [beq_eq_false_iff_ne, ne_eq]
          intro hn
          rw [← hn] at hs
          exact hk hs
        rw [if_pos hs]
        simp only [List.lookup, hne]
      · rw [if_neg hs]

theorem lookup_filter_key (p : Nat → Bool) (l : List (Nat × β)) (n : Nat) :
    (l.filter fun kv => p kv.1).lookup n = if p n then l.lookup n else none := by
  induction l with
  | nil => simp
  | cons kv l ih =>
    obtain ⟨k, v⟩ := kv
    by_cases hk : n = k
    · subst hk
      by_cases hp : p n
      · simp [hp, List.lookup]
      · simp [hp, ih]
    · have hne : (n == k) = false := by simpa using hk
      by_cases hp : p k
      · simp [hp, List.lookup, hne, ih]
      · simp [hp, List.lookup, hne, ih]

theorem provider_lookup (n : Nat) :
    ((LnkInfo.NETWORK_PROVIDER_TYPES.find? fun kv => kv.1.toList = pyHex n).map Prod.snd) = reportedProvider n := by
  rw [find_pyHex]
  unfold reportedProvider
  rw [← lookup_filter_key (fun k => (Nat.toDigits 16 k).all Char.isDigit) providerTable n]
  congr 1
  decide +kernel

/-- ASCII text is text of the default code page. -/
theorem asciiText_valid (env : Env) (s : String) (hs : ∀ c ∈ s.toList, 0 < c.toNat ∧ c.toNat < 128) :
    (asciiText s).Valid (TextProc.mk' env none) false := by
  have key : ∀ l : List Char, (∀ c ∈ l, 0 < c.toNat ∧ c.toNat < 128) →
      0 ∉ l.map (fun c => UInt8.ofNat c.toNat) ∧ Cp1252 (l.map fun c => UInt8.ofNat c.toNat) l := by
    intro l
    induction l with
    | nil => intro _; exact ⟨by simp, trivial⟩
    | cons c l ih =>
      intro h
      obtain ⟨h1, h2⟩ := ih fun c hc => h c (List.mem_cons_of_mem _ hc)
      obtain ⟨h3, h4⟩ := h c List.mem_cons_self
      have hn : (UInt8.ofNat c.toNat).toNat = c.toNat := UInt8.toNat_ofNat_of_lt' (by simp [UInt8.size]; omega)
      constructor
      · simp only [List.map_cons, List.mem_cons, not_or]
        refine ⟨fun h0 => ?_, h1⟩
        have := congrArg UInt8.toNat h0
        rw [hn] at this
        simp at this
        omega
      · refine ⟨?_, h2⟩
        unfold Cp1252Char
        rw [hn]
        exact .inl ⟨.inl h4, rfl⟩
  obtain ⟨h0, h1⟩ := key s.toList hs
  refine ⟨h0, ?_⟩
  unfold decodeNamed
  split
  · rename_i he
    have : s.toList = [] := by simpa [asciiText] using he
    rw [show (asciiText s).text = s.toList from rfl, this]
  · show (⟨[], cp1252.strict (s.toList.map fun c => UInt8.ofNat c.toNat)⟩ : Py Str) = _
    rw [(cp1252_strict_iff _ _).mpr h1]
    rfl

/-! ### reading at offsets -/

theorem Spec.HasAt.left {raw : Bytes} {off : Nat} {a b : Bytes} (h : HasAt raw off (a ++ b)) : HasAt raw off a := by
  obtain ⟨pre, post, rfl, rfl⟩ := h
  exact ⟨pre, b ++ post, by simp, rfl⟩

theorem Spec.HasAt.right {raw : Bytes} {off : Nat} {a b : Bytes} (h : HasAt raw off (a ++ b)) :
    HasAt raw (off + a.length) b := by
  obtain ⟨pre, post, rfl, rfl⟩ := h
  exact ⟨pre ++ a, post, by simp, by simp⟩

theorem Spec.HasAt.slice_eq {raw : Bytes} {off : Nat} {a : Bytes} (h : HasAt raw off a) {e : Nat} (he : e = off + a.length) :
    slice raw off e = a := by
  obtain ⟨pre, post, rfl, rfl⟩ := h
  rw [List.append_assoc]
  exact slice_mid rfl he

theorem Spec.HasAt.drop_eq {raw : Bytes} {off : Nat} {a : Bytes} (h : HasAt raw off a) : ∃ post, raw.drop off = a ++ post := by
  obtain ⟨pre, post, rfl, rfl⟩ := h
  exact ⟨post, by rw [List.append_assoc, drop_append_exact rfl]⟩

theorem Spec.HasAt.append {raw : Bytes} {off : Nat} {a : Bytes} (h : HasAt raw off a) (rest : Bytes) :
    HasAt (raw ++ rest) off a := by
  obtain ⟨pre, post, rfl, rfl⟩ := h
  exact ⟨pre, post ++ rest, by simp, rfl⟩

namespace LnkInfo

theorem u32_at {i : LnkInfo} {off : Nat} {v : UInt32} (h : HasAt i.raw off (le 4 v.toNat)) :
    i.u32 off = pure v.toNat := by
  unfold u32
  rw [h.slice_eq (by simp), unpackU_le4]

theorem readString_at {i : LnkInfo} {off : Nat} {t : Text} (hv : t.Valid i.tp false)
    (h : HasAt i.raw off (t.encodeZ false)) : i.tp.readString (i.raw.drop off) = pure t.text := by
  obtain ⟨post, hp⟩ := h.drop_eq
  rw [hp, readString_encodeZ hv]

theorem readUnicodeString_at {i : LnkInfo} {off : Nat} {t : Text} {tp : TextProc} (hv : t.Valid tp true)
    (h : HasAt i.raw off (t.encodeZ true)) : TextProc.readUnicodeString (i.raw.drop off) = pure t.text := by
  obtain ⟨post, hp⟩ := h.drop_eq
  rw [hp, readUnicodeString_encodeZ hv]

/-- A u32 inside something present. -/
theorem u32_in {i : LnkInfo} {off : Nat} {x : Bytes} (h : HasAt i.raw off x) (k : Nat) {v : UInt32}
    (hs : slice x k (k + 4) = le 4 v.toNat) : i.u32 (off + k) = pure v.toNat := by
  obtain ⟨pre, post, he, rfl⟩ := h
  unfold u32
  have hl := congrArg List.length hs
  simp only [slice_length, le_length] at hl
  rw [he, List.append_assoc, slice_append_right (by omega),
    show pre.length + k - pre.length = k by omega, show pre.length + k + 4 - pre.length = k + 4 by omega,
    slice_append_left (by omega), hs, unpackU_le4]

section header
variable {i : LnkInfo} {h : InfoHeader}

theorem u32_header (hh : HasAt i.raw 0 h.encode) (k : Nat) {v : UInt32} (hs : slice h.encode k (k + 4) = le 4 v.toNat) :
    i.u32 k = pure v.toNat := by
  have := u32_in hh k hs
  rwa [Nat.zero_add] at this

theorem size_of (hh : HasAt i.raw 0 h.encode) : i.size = pure h.size.toNat :=
  u32_header hh 0 (by unfold InfoHeader.encode; slices)

theorem headerSize_of (hh : HasAt i.raw 0 h.encode) : i.headerSize = pure h.headerSize.toNat :=
  u32_header hh 4 (by unfold InfoHeader.encode; slices)

theorem flags_of (hh : HasAt i.raw 0 h.encode) : i.flags = pure h.flags.toNat :=
  u32_header hh 8 (by unfold InfoHeader.encode; slices)

theorem volumeIdOffset_of (hh : HasAt i.raw 0 h.encode) : i.volumeIdOffset = pure h.volumeIdOffset.toNat :=
  u32_header hh 12 (by unfold InfoHeader.encode; slices)

theorem localBasePathOffset_of (hh : HasAt i.raw 0 h.encode) :
    i.localBasePathOffset = pure h.localBasePathOffset.toNat :=
  u32_header hh 16 (by unfold InfoHeader.encode; slices)

theorem cnrlOffset_of (hh : HasAt i.raw 0 h.encode) : i.cnrlOffset = pure h.networkOffset.toNat :=
  u32_header hh 20 (by unfold InfoHeader.encode; slices)

theorem commonPathSuffixOffset_of (hh : HasAt i.raw 0 h.encode) :
    i.commonPathSuffixOffset = pure h.suffixOffset.toNat :=
  u32_header hh 24 (by unfold InfoHeader.encode; slices)

theorem hasOptFields_of (hh : HasAt i.raw 0 h.encode) (hv : h.Valid) : i.hasOptFields = pure h.wide.isSome := by
  unfold hasOptFields
  rw [headerSize_of hh, pure_bind, hv]

theorem localBasePathOffsetUnicode_of (hh : HasAt i.raw 0 h.encode) (hv : h.Valid) :
    i.localBasePathOffsetUnicode = pure (h.wide.map (·.1.toNat)) := by
  unfold localBasePathOffsetUnicode
  rw [hasOptFields_of hh hv, pure_bind]
  rcases hw : h.wide with _ | ⟨a, b⟩
  · rfl
  · rw [u32_header hh 28 (v := a) (by unfold InfoHeader.encode; rw [hw]; slices)]
    rfl

theorem commonPathSuffixOffsetUnicode_of (hh : HasAt i.raw 0 h.encode) (hv : h.Valid) :
    i.commonPathSuffixOffsetUnicode = pure (h.wide.map (·.2.toNat)) := by
  unfold commonPathSuffixOffsetUnicode
  rw [hasOptFields_of hh hv, pure_bind]
  rcases hw : h.wide with _ | ⟨a, b⟩
  · rfl
  · rw [u32_header hh 32 (v := b) (by unfold InfoHeader.encode; rw [hw]; slices)]
    rfl

/-- Reading a text at an offset where 0 means none. -/
theorem textAt_ansi {off : Nat} {t : Option Text} (h : TextAt i.tp i.raw false off 0 t) :
    (if off = 0 then pure none else (do
      let text ← i.tp.readString (i.raw.drop off)
      pure (some text)) : Py (Option Str)) = pure (t.map (·.text)) := by
  unfold TextAt at h
  by_cases h0 : off = 0
  · rw [if_pos h0] at h ⊢
    rw [h]; rfl
  · rw [if_neg h0] at h ⊢
    obtain ⟨x, rfl, hv, hx⟩ := h
    rw [Nat.add_zero] at hx
    rw [readString_at hv hx]
    rfl

theorem textAt_wide {tp : TextProc} {shift : Nat} {o : Option Nat} {t : Option Text}
    (h : TextAt tp i.raw true (o.getD 0) shift t) :
    (match (generalizing := false) o with
      | none => pure none
      | some 0 => pure none
      | some start => (do
        let text ← TextProc.readUnicodeString (i.raw.drop (start + shift))
        pure (some text)) : Py (Option Str)) = pure (t.map (·.text)) := by
  unfold TextAt at h
  match o with
  | none => simp only [Option.getD_none, if_true] at h; rw [h]; rfl
  | some 0 => simp only [Option.getD_some, if_true] at h; rw [h]; rfl
  | some (n + 1) =>
    simp only [Option.getD_some, Nat.add_eq_zero_iff, Nat.one_ne_zero, and_false, if_false] at h
    obtain ⟨x, rfl, hv, hx⟩ := h
    show (TextProc.readUnicodeString (i.raw.drop (n + 1 + shift)) >>= _) = _
    rw [readUnicodeString_at hv hx]
    rfl

variable {t : InfoTexts}

theorem localBasePath_of (hi : InfoIn i.tp i.raw h t) : i.localBasePath = pure (t.base.map (·.text)) := by
  unfold localBasePath
  rw [localBasePathOffset_of hi.header, pure_bind, textAt_ansi hi.base]

theorem commonPathSuffix_of (hi : InfoIn i.tp i.raw h t) : i.commonPathSuffix = pure (t.suffix.map (·.text)) := by
  unfold commonPathSuffix
  rw [commonPathSuffixOffset_of hi.header, pure_bind, textAt_ansi hi.suffix]

theorem localBasePathUnicode_of (hi : InfoIn i.tp i.raw h t) :
    i.localBasePathUnicode = pure (t.wideBase.map (·.text)) := by
  unfold localBasePathUnicode
  rw [localBasePathOffsetUnicode_of hi.header hi.valid, pure_bind]
  exact textAt_wide (shift := 0) hi.wideBase

theorem commonPathSuffixUnicode_of (hi : InfoIn i.tp i.raw h t) :
    i.commonPathSuffixUnicode = pure (t.wideSuffix4.map (·.text)) := by
  unfold commonPathSuffixUnicode
  rw [commonPathSuffixOffsetUnicode_of hi.header hi.valid, pure_bind]
  exact textAt_wide (shift := 4) hi.wideSuffix

end header

/-! ### Local -/

section local_
variable {i : LnkInfo} {h : InfoHeader} {v : Volume}

theorem volumeIdSize_of (hh : HasAt i.raw 0 h.encode) (hv : VolumeIn i.tp i.raw h.volumeIdOffset.toNat v) :
    i.volumeIdSize = pure v.size.toNat := by
  unfold volumeIdSize
  rw [volumeIdOffset_of hh, pure_bind]
  exact u32_in hv.here 0 (by unfold Volume.encode; slices)

theorem rDriveType_of (hh : HasAt i.raw 0 h.encode) (hv : VolumeIn i.tp i.raw h.volumeIdOffset.toNat v) :
    i.rDriveType = pure v.driveType.toNat := by
  unfold rDriveType
  rw [volumeIdOffset_of hh, pure_bind]
  exact u32_in hv.here 4 (by unfold Volume.encode; slices)

theorem driveSerialNumber_of (hh : HasAt i.raw 0 h.encode) (hv : VolumeIn i.tp i.raw h.volumeIdOffset.toNat v) :
    i.driveSerialNumber = pure (hex0x v.serial.toNat) := by
  unfold driveSerialNumber
  rw [volumeIdOffset_of hh, pure_bind,
    u32_in hv.here 8 (v := v.serial) (by unfold Volume.encode; slices), pure_bind, pyHex_eq]

theorem volumeLabelOffset_of (hh : HasAt i.raw 0 h.encode) (hv : VolumeIn i.tp i.raw h.volumeIdOffset.toNat v) :
    i.volumeLabelOffset = pure v.labelOffset.toNat := by
  unfold volumeLabelOffset
  rw [volumeIdOffset_of hh, pure_bind]
  exact u32_in hv.here 12 (by unfold Volume.encode; slices)

theorem DRIVE_TYPES_get (n : Nat) : DRIVE_TYPES[n]? = driveTypeName n := by
  rcases n with _ | _ | _ | _ | _ | _ | _ | n <;> rfl

theorem driveType_of (hh : HasAt i.raw 0 h.encode) (hv : VolumeIn i.tp i.raw h.volumeIdOffset.toNat v) :
    i.driveType = pure (driveTypeName v.driveType.toNat) := by
  unfold driveType
  rw [rDriveType_of hh hv, pure_bind, DRIVE_TYPES_get]

theorem hasVolumeLabelOffsetUnicode_of (hh : HasAt i.raw 0 h.encode)
    (hv : VolumeIn i.tp i.raw h.volumeIdOffset.toNat v) :
    i.hasVolumeLabelOffsetUnicode = pure v.wideLabelOffset.isSome := by
  unfold hasVolumeLabelOffsetUnicode
  rw [volumeLabelOffset_of hh hv, pure_bind, hv.wide]

theorem volumeLabel_of (hh : HasAt i.raw 0 h.encode) (hv : VolumeIn i.tp i.raw h.volumeIdOffset.toNat v) :
    i.volumeLabel = pure (if v.wideLabelOffset.isSome then none else some v.label.text) := by
  unfold volumeLabel
  rw [hasVolumeLabelOffsetUnicode_of hh hv, pure_bind, volumeLabelOffset_of hh hv, volumeIdOffset_of hh]
  have h1 := hv.valid
  have h2 := hv.label
  rcases hw : v.wideLabelOffset with _ | o
  · rw [hw] at h1 h2
    rw [Option.getD_none] at h2
    simp only [Option.isSome_none, Bool.false_eq_true, if_false, pure_bind]
    rw [readString_at h1 h2]
    rfl
  · rfl

theorem volumeLabelUnicodeOffset_of (hh : HasAt i.raw 0 h.encode)
    (hv : VolumeIn i.tp i.raw h.volumeIdOffset.toNat v) :
    i.volumeLabelUnicodeOffset = pure (v.wideLabelOffset.map (·.toNat)) := by
  unfold volumeLabelUnicodeOffset
  rw [hasVolumeLabelOffsetUnicode_of hh hv, pure_bind, volumeIdOffset_of hh]
  rcases hw : v.wideLabelOffset with _ | o
  · rfl
  · simp only [Option.isSome_some, if_true, pure_bind]
    rw [u32_in hv.here 16 (v := o) (by unfold Volume.encode; rw [hw]; slices)]
    rfl

theorem volumeLabelUnicode_of (hh : HasAt i.raw 0 h.encode)
    (hv : VolumeIn i.tp i.raw h.volumeIdOffset.toNat v) :
    i.volumeLabelUnicode = pure (v.wideLabelOffset.map fun _ => v.label.text) := by
  unfold volumeLabelUnicode
  rw [volumeLabelUnicodeOffset_of hh hv, pure_bind, volumeIdOffset_of hh]
  have h1 := hv.valid
  have h2 := hv.label
  have h3 := hv.ne
  rcases hw : v.wideLabelOffset with _ | o
  · rfl
  · rw [hw] at h1 h2 h3
    have h0 : o.toNat ≠ 0 := by
      intro h0
      exact h3 (congrArg some (UInt32.toNat_inj.mp h0))
    rw [Option.getD_some] at h2
    simp only [Option.map_some, pure_bind]
    rw [readUnicodeString_at h1 h2]
    rfl

theorem jsonLocal_of (hh : HasAt i.raw 0 h.encode) (hv : VolumeIn i.tp i.raw h.volumeIdOffset.toNat v) :
    LnkFile.jsonLocal i = pure v.report := by
  unfold LnkFile.jsonLocal
  simp only [volumeIdSize_of hh hv, rDriveType_of hh hv, volumeLabelOffset_of hh hv, driveSerialNumber_of hh hv,
    driveType_of hh hv, volumeLabel_of hh hv, volumeLabelUnicodeOffset_of hh hv, volumeLabelUnicode_of hh hv,
    pure_bind]
  have h3 := hv.ne
  unfold Volume.report
  rcases hw : v.wideLabelOffset with _ | o
  · rcases hd : driveTypeName v.driveType.toNat with _ | d <;> rfl
  · rw [hw] at h3
    have h0 : o.toNat ≠ 0 := by
      intro h0
      exact h3 (congrArg some (UInt32.toNat_inj.mp h0))
    have ht : LnkFile.truthyNat (some o.toNat) = true := by simp [LnkFile.truthyNat, h0]
    simp only [Option.map_some, ht, LnkFile.entryIf, if_true, pure_bind]
    rcases hd : driveTypeName v.driveType.toNat with _ | d <;> rfl

end local_

/-! ### Network -/

section network
variable {i : LnkInfo} {h : InfoHeader} {n : NetLink}

theorem cnrlSize_of (hh : HasAt i.raw 0 h.encode) (hn : NetLinkIn i.tp i.raw h.networkOffset.toNat n) :
    i.cnrlSize = pure n.size.toNat := by
  unfold cnrlSize
  rw [cnrlOffset_of hh, pure_bind]
  exact u32_in hn.here 0 (by unfold NetLink.encode; slices)

theorem cnrlFlags_of (hh : HasAt i.raw 0 h.encode) (hn : NetLinkIn i.tp i.raw h.networkOffset.toNat n) :
    i.cnrlFlags = pure n.flags.toNat := by
  unfold cnrlFlags
  rw [cnrlOffset_of hh, pure_bind]
  exact u32_in hn.here 4 (by unfold NetLink.encode; slices)

theorem netNameOffset_of (hh : HasAt i.raw 0 h.encode) (hn : NetLinkIn i.tp i.raw h.networkOffset.toNat n) :
    i.netNameOffset = pure n.netNameOffset.toNat := by
  unfold netNameOffset
  rw [cnrlOffset_of hh, pure_bind]
  exact u32_in hn.here 8 (by unfold NetLink.encode; slices)

theorem deviceNameOffset_of (hh : HasAt i.raw 0 h.encode) (hn : NetLinkIn i.tp i.raw h.networkOffset.toNat n) :
    i.deviceNameOffset = pure n.deviceNameOffset.toNat := by
  unfold deviceNameOffset
  rw [cnrlOffset_of hh, pure_bind]
  exact u32_in hn.here 12 (by unfold NetLink.encode; slices)

theorem rNetworkProviderType_of (hh : HasAt i.raw 0 h.encode) (hn : NetLinkIn i.tp i.raw h.networkOffset.toNat n) :
    i.rNetworkProviderType = pure (hex0x n.provider.toNat) := by
  unfold rNetworkProviderType
  rw [cnrlOffset_of hh, pure_bind,
    u32_in hn.here 16 (v := n.provider) (by unfold NetLink.encode; slices), pure_bind, pyHex_eq]

theorem networkProviderType_of (hh : HasAt i.raw 0 h.encode) (hn : NetLinkIn i.tp i.raw h.networkOffset.toNat n) :
    i.networkProviderType = pure n.providerName := by
  unfold networkProviderType NetLink.providerName
  rw [cnrlFlags_of hh hn, pure_bind, rNetworkProviderType_of hh hn, pure_bind, ← pyHex_eq, provider_lookup]
  have := and_two_pow_ne_zero n.flags.toNat 1
  rcases hb : n.flags.toNat.testBit 1 with _ | _
  · rw [hb] at this
    rw [if_pos (by simpa using this)]
    rfl
  · rw [hb] at this
    rw [if_neg (by simpa using this)]
    rfl

theorem netNameOffsetUnicode_of (hh : HasAt i.raw 0 h.encode) (hn : NetLinkIn i.tp i.raw h.networkOffset.toNat n) :
    i.netNameOffsetUnicode = pure (n.wide.map (·.1.toNat)) := by
  unfold netNameOffsetUnicode
  rw [netNameOffset_of hh hn, pure_bind, cnrlOffset_of hh, pure_bind]
  have hw := hn.wide
  rcases hc : n.wide with _ | ⟨a, b⟩
  · rw [hc] at hw
    rw [if_pos (by simpa using hw)]; rfl
  · rw [hc] at hw
    rw [if_neg (by simpa using hw), u32_in hn.here 20 (v := a) (by unfold NetLink.encode; rw [hc]; slices)]
    rfl

theorem deviceNameOffsetUnicode_of (hh : HasAt i.raw 0 h.encode)
    (hn : NetLinkIn i.tp i.raw h.networkOffset.toNat n) :
    i.deviceNameOffsetUnicode = pure (n.wide.map (·.2.toNat)) := by
  unfold deviceNameOffsetUnicode
  rw [netNameOffset_of hh hn, pure_bind, cnrlOffset_of hh, pure_bind]
  have hw := hn.wide
  rcases hc : n.wide with _ | ⟨a, b⟩
  · rw [hc] at hw
    rw [if_pos (by simpa using hw)]; rfl
  · rw [hc] at hw
    rw [if_neg (by simpa using hw), u32_in hn.here 24 (v := b) (by unfold NetLink.encode; rw [hc]; slices)]
    rfl

/-- The Unicode names, when their offsets are not 0. -/
theorem wideNames_of (hh : HasAt i.raw 0 h.encode) (hn : NetLinkIn i.tp i.raw h.networkOffset.toNat n)
    {w : UInt32 × UInt32} (hw : n.wide = some w) :
    (w.1.toNat ≠ 0 → i.netNameUnicode = pure (n.netName.map (·.text))) ∧
      (w.2.toNat ≠ 0 → i.deviceNameUnicode = pure (n.deviceName.map (·.text))) := by
  have hd := hn.wide
  have hnm := hn.names
  rw [hw] at hd hnm
  obtain ⟨h1, h2⟩ := hnm
  unfold WideNameAt at h1 h2
  have h20 : ¬ n.netNameOffset.toNat ≤ 20 := by simpa using hd
  constructor
  · intro h0
    rw [if_neg h0] at h1
    obtain ⟨x, hx, hv, hp⟩ := h1
    unfold netNameUnicode
    rw [netNameOffset_of hh hn, pure_bind, if_neg h20, cnrlOffset_of hh, pure_bind,
      netNameOffsetUnicode_of hh hn, pure_bind, hw]
    simp only [Option.map_some]
    rw [readUnicodeString_at hv hp, hx]
    rfl
  · intro h0
    rw [if_neg h0] at h2
    obtain ⟨x, hx, hv, hp⟩ := h2
    unfold deviceNameUnicode
    rw [netNameOffset_of hh hn, pure_bind, if_neg h20, cnrlOffset_of hh, pure_bind,
      deviceNameOffsetUnicode_of hh hn, pure_bind, hw]
    simp only [Option.map_some]
    rw [readUnicodeString_at hv hp, hx]
    rfl

/-- The code page names. -/
theorem names_of (hh : HasAt i.raw 0 h.encode) (hn : NetLinkIn i.tp i.raw h.networkOffset.toNat n) :
    i.netName = pure (if n.wide.isSome then none else n.netName.map (·.text)) ∧
      i.deviceName = pure (if n.wide.isSome then none else n.deviceName.map (·.text)) := by
  have hd := hn.wide
  have hnm := hn.names
  unfold netName deviceName
  rw [netNameOffset_of hh hn, pure_bind, pure_bind, cnrlOffset_of hh, deviceNameOffset_of hh hn]
  simp only [pure_bind]
  rcases hc : n.wide with _ | w
  · rw [hc] at hd hnm
    obtain ⟨⟨x, hx, hv, hp⟩, ⟨y, hy, hv', hp'⟩⟩ := hnm
    have h20 : ¬ n.netNameOffset.toNat > 20 := by simpa using hd
    rw [if_neg h20, if_neg h20, readString_at hv hp, readString_at hv' hp', hx, hy]
    exact ⟨rfl, rfl⟩
  · rw [hc] at hd
    have h20 : n.netNameOffset.toNat > 20 := by simpa using hd
    rw [if_pos h20, if_pos h20]
    exact ⟨rfl, rfl⟩

theorem entry_name (key : String) (t : Option Text) :
    (LnkFile.entryIf (LnkFile.truthyStr (t.map (·.text))) (pure [(key, PyVal.opt .str (t.map (·.text)))]) : Py Dict) =
      pure (nameEntry key t) := by
  rcases t with _ | t
  · rfl
  · by_cases ht : t.text = []
    · simp [LnkFile.entryIf, LnkFile.truthyStr, nameEntry, ht]
    · simp [LnkFile.entryIf, LnkFile.truthyStr, nameEntry, ht, PyVal.opt]

theorem jsonNetwork_of (hh : HasAt i.raw 0 h.encode) (hn : NetLinkIn i.tp i.raw h.networkOffset.toNat n) :
    LnkFile.jsonNetwork i = pure n.report := by
  unfold LnkFile.jsonNetwork
  simp only [cnrlSize_of hh hn, cnrlFlags_of hh hn, netNameOffset_of hh hn, deviceNameOffset_of hh hn,
    rNetworkProviderType_of hh hn, networkProviderType_of hh hn, netNameOffsetUnicode_of hh hn,
    deviceNameOffsetUnicode_of hh hn, (names_of hh hn).1, (names_of hh hn).2, pure_bind]
  have hp : (LnkFile.entryIf n.providerName.isSome
      (pure [("network_provider_type", PyVal.opt PyVal.lit n.providerName)]) : Py Dict) =
      pure (n.providerName.toList.map fun s => ("network_provider_type", .str s.toList)) := by
    rcases n.providerName with _ | p <;> rfl
  rw [hp]
  unfold NetLink.report
  have hnm := hn.names
  rcases hc : n.wide with _ | w
  · simp only [Option.map_none, Option.isSome_none, Bool.false_eq_true, if_false, entry_name, pure_bind]
    simp [LnkFile.entryIf, LnkFile.truthyNat, PyVal.nat]
  · rw [hc] at hnm
    obtain ⟨h1, h2⟩ := hnm
    have e1 : (LnkFile.entryIf (LnkFile.truthyNat (some w.1.toNat)) (do
        let s ← i.netNameUnicode
        pure [("net_name_offset_unicode", PyVal.opt .nat (some w.1.toNat)), ("net_name_unicode", PyVal.opt .str s)]) :
        Py Dict) = pure (wideEntry "net_name_offset_unicode" "net_name_unicode" w.1.toNat n.netName) := by
      unfold WideNameAt at h1
      by_cases h0 : w.1.toNat = 0
      · rw [if_pos h0] at h1
        rw [h1]; simp [LnkFile.entryIf, LnkFile.truthyNat, h0, wideEntry]
      · rw [if_neg h0] at h1
        obtain ⟨x, hx, _⟩ := h1
        rw [(wideNames_of hh hn hc).1 h0, hx]
        simp [LnkFile.entryIf, LnkFile.truthyNat, h0, wideEntry, PyVal.opt, PyVal.nat]
    have e2 : (LnkFile.entryIf (LnkFile.truthyNat (some w.2.toNat)) (do
        let s ← i.deviceNameUnicode
        pure [("device_name_offset_unicode", PyVal.opt .nat (some w.2.toNat)),
          ("device_name_unicode", PyVal.opt .str s)]) :
        Py Dict) = pure (wideEntry "device_name_offset_unicode" "device_name_unicode" w.2.toNat n.deviceName) := by
      unfold WideNameAt at h2
      by_cases h0 : w.2.toNat = 0
      · rw [if_pos h0] at h2
        rw [h2]; simp [LnkFile.entryIf, LnkFile.truthyNat, h0, wideEntry]
      · rw [if_neg h0] at h2
        obtain ⟨x, hx, _⟩ := h2
        rw [(wideNames_of hh hn hc).2 h0, hx]
        simp [LnkFile.entryIf, LnkFile.truthyNat, h0, wideEntry, PyVal.opt, PyVal.nat]
    simp only [Option.map_some, Option.isSome_some, if_true]
    rw [e1, e2]
    simp [LnkFile.entryIf, LnkFile.truthyStr, PyVal.nat]

end network

/-! ### the whole dictionary -/

theorem jsonInfo_of {f : LnkFile} {cls : InfoClass} {i : LnkInfo} {h : InfoHeader} {t : InfoTexts}
    (hf : f.info = some (cls, i)) (hi : InfoIn i.tp i.raw h t) {d : Dict}
    (hd : (match cls with
      | .local => LnkFile.jsonLocal i
      | .network => LnkFile.jsonNetwork i) = pure d) :
    f.jsonInfo = pure (infoReport h t (LnkFile.locationName cls) d) := by
  have hb := hi.base
  have hs := hi.suffix
  have hwb := hi.wideBase
  have hws := hi.wideSuffix
  unfold TextAt at hb hs hwb hws
  unfold LnkFile.jsonInfo
  rw [hf]
  simp only [size_of hi.header, headerSize_of hi.header, flags_of hi.header, volumeIdOffset_of hi.header,
    localBasePathOffset_of hi.header, cnrlOffset_of hi.header, commonPathSuffixOffset_of hi.header,
    localBasePathOffsetUnicode_of hi.header hi.valid, commonPathSuffixOffsetUnicode_of hi.header hi.valid,
    localBasePath_of hi, commonPathSuffix_of hi, localBasePathUnicode_of hi, commonPathSuffixUnicode_of hi,
    pure_bind]
  have e1 : (LnkFile.entryIf (h.localBasePathOffset.toNat != 0)
      (pure [("local_base_path", PyVal.opt .str (t.base.map (·.text)))]) : Py Dict) =
      pure (textEntry "local_base_path" t.base) := by
    by_cases h0 : h.localBasePathOffset.toNat = 0
    · rw [if_pos h0] at hb
      simp [LnkFile.entryIf, h0, hb, textEntry]
    · rw [if_neg h0] at hb
      obtain ⟨x, hx, _⟩ := hb
      simp [LnkFile.entryIf, h0, hx, textEntry, PyVal.opt]
  have e2 : (LnkFile.entryIf (h.suffixOffset.toNat != 0)
      (pure [("common_path_suffix", PyVal.opt .str (t.suffix.map (·.text)))]) : Py Dict) =
      pure (textEntry "common_path_suffix" t.suffix) := by
    by_cases h0 : h.suffixOffset.toNat = 0
    · rw [if_pos h0] at hs
      simp [LnkFile.entryIf, h0, hs, textEntry]
    · rw [if_neg h0] at hs
      obtain ⟨x, hx, _⟩ := hs
      simp [LnkFile.entryIf, h0, hx, textEntry, PyVal.opt]
  have e3 : ∀ (k1 k2 : String) (o : Option Nat) (t : Option Text),
      (o.getD 0 = 0 → t = none) → (o.getD 0 ≠ 0 → ∃ x, t = some x) →
      (LnkFile.entryIf (LnkFile.truthyNat o)
        (pure [(k1, PyVal.opt .nat o), (k2, PyVal.opt .str (t.map (·.text)))]) : Py Dict) =
      pure (wideEntry k1 k2 (o.getD 0) t) := by
    intro k1 k2 o t h1 h2
    by_cases h0 : o.getD 0 = 0
    · rw [h1 h0]
      have : LnkFile.truthyNat o = false := by
        rcases o with _ | o
        · rfl
        · simp only [Option.getD_some] at h0; simp [LnkFile.truthyNat, h0]
      simp [LnkFile.entryIf, this, wideEntry]
    · obtain ⟨x, hx⟩ := h2 h0
      rcases o with _ | o
      · exact absurd rfl h0
      · simp only [Option.getD_some] at h0
        simp [LnkFile.entryIf, LnkFile.truthyNat, h0, hx, wideEntry, PyVal.opt, PyVal.nat]
  rw [e1, e2, e3 _ _ _ _ (fun h0 => by rwa [if_pos h0] at hwb)
      (fun h0 => by rw [if_neg h0] at hwb; obtain ⟨x, hx, _⟩ := hwb; exact ⟨x, hx⟩),
    e3 _ _ _ _ (fun h0 => by rwa [if_pos h0] at hws)
      (fun h0 => by rw [if_neg h0] at hws; obtain ⟨x, hx, _⟩ := hws; exact ⟨x, hx⟩)]
  cases cls
  · simp only at hd
    simp only [hd, pure_bind]
    simp [infoReport, PyVal.nat, PyVal.lit]
  · simp only at hd
    simp only [hd, pure_bind]
    simp [infoReport, PyVal.nat, PyVal.lit]

end LnkInfo

end Verif
