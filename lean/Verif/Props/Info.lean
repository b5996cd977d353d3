import Verif.Lemmas.Info
import Verif.Lemmas.StringData
import Verif.Props.Text
import Verif.Props.Header

/-
C26-C29, C47, C51: link info.
-/

namespace Verif.Props

open Spec

/-! ### C26 -/

/-- C26: which kind of link info is reported, for every byte string: bit 0 of the flags decides for Local, then
bit 1 for Network; without the flags there is a warning.  No exception. -/
theorem info_kind (tp : TextProc) (raw : Bytes) :
    (LnkInfo.mk tp raw).infoClass = match uAt 4 raw 8 with
      | none => ⟨[.infoClass], .ok none⟩
      | some f => pure (if f.testBit 0 then some .local else if f.testBit 1 then some .network else none) := by
  unfold LnkInfo.infoClass LnkInfo.flags LnkInfo.u32
  simp only [unpackU_slice raw 4 8 (by omega)]
  rcases uAt 4 raw 8 with _ | f
  · rfl
  · have h0 := and_two_pow_ne_zero f 0
    have h1 := and_two_pow_ne_zero f 1
    simp only [pure_bind]
    rcases hb0 : f.testBit 0 with _ | _ <;> rcases hb1 : f.testBit 1 with _ | _ <;> rw [hb0] at h0 <;>
      rw [hb1] at h1 <;> simp at h0 h1 <;> simp [h0, h1]

/-- C26: the flags are there iff there are 12 bytes. -/
theorem info_kind_short (tp : TextProc) (raw : Bytes) :
    (LnkInfo.mk tp raw).infoClass = ⟨[.infoClass], .ok none⟩ ↔ raw.length < 12 := by
  rw [info_kind]
  unfold uAt
  by_cases h : 8 + 4 ≤ raw.length
  · rw [if_pos h]
    constructor
    · intro he
      have := congrArg Py.warns he
      simp [pure, Py.ret] at this
    · omega
  · rw [if_neg h]
    simp; omega

/-- C26: what the constructor does with it.  `a` and `b` are the header's HasLinkInfo and ForceNoLinkInfo.  A link
info of neither kind is omitted and, although it is present, not skipped: the index stays. -/
theorem info_processed (tp : TextProc) (data : Bytes) (h : LnkHeader) (index flags : Nat)
    (hf : uAt 4 h.raw 20 = some flags) :
    LnkFile.processInfo tp data h index =
      if flags.testBit 1 && !flags.testBit 8 then
        match uAt 4 (data.drop index) 8, uAt 4 (data.drop index) 0 with
        | some f, some n =>
          if f.testBit 0 then pure (some (.local, ⟨tp, data.drop index⟩), index + n)
          else if f.testBit 1 then pure (some (.network, ⟨tp, data.drop index⟩), index + n)
          else pure (none, index)
        | _, _ => ⟨[.infoClass], .ok (none, index)⟩
      else pure (none, index) := by
  have h1 := hasFlag_bit hf (i := 1) (name := "HasLinkInfo") rfl
  have h8 := hasFlag_bit hf (i := 8) (name := "ForceNoLinkInfo") rfl
  unfold LnkFile.processInfo
  rw [h1, h8, pure_bind]
  rcases flags.testBit 1 with _ | _
  · rfl
  rcases flags.testBit 8 with _ | _
  swap
  · rfl
  simp only [if_true, pure_bind, Bool.not_false, Bool.and_self, info_kind]
  have hs : (LnkInfo.mk tp (data.drop index)).size = match uAt 4 (data.drop index) 0 with
      | some v => pure v
      | none => Py.raise .structError := unpackU_slice (data.drop index) 4 0 (by omega)
  rcases h8 : uAt 4 (data.drop index) 8 with _ | f
  · rfl
  · have hl : 12 ≤ (data.drop index).length := by
      unfold uAt at h8
      by_contra hc
      rw [if_neg (by omega)] at h8
      exact absurd h8 (by simp)
    have h0 : ∃ n, uAt 4 (data.drop index) 0 = some n := by
      unfold uAt
      rw [if_pos (by omega)]
      exact ⟨_, rfl⟩
    obtain ⟨n, hn⟩ := h0
    rw [hn] at hs ⊢
    simp only [pure_bind]
    rcases f.testBit 0 with _ | _ <;> rcases f.testBit 1 with _ | _ <;> simp [hs]

/-- A link info whose flags say neither: its 28 bytes are not skipped. -/
example (tp : TextProc) (rest : Bytes) :
    LnkFile.processInfo tp (le 4 0x1C ++ le 4 0x1C ++ le 4 0 ++ List.replicate 16 0 ++ rest)
      ⟨List.replicate 20 0 ++ [2, 0, 0, 0]⟩ 0 = pure (none, 0) := by
  rw [info_processed tp _ _ 0 2 (by decide)]
  have h8 : uAt 4 ((le 4 0x1C ++ le 4 0x1C ++ le 4 0 ++ List.replicate 16 0 ++ rest).drop 0) 8 = some 0 := by
    simp [uAt, uAt.go, le]
  have h0 : uAt 4 ((le 4 0x1C ++ le 4 0x1C ++ le 4 0 ++ List.replicate 16 0 ++ rest).drop 0) 0 = some 0x1C := by
    simp [uAt, uAt.go, le]
  rw [h8, h0]
  rfl

/-! ### C27 -/

/-- C27: everything reported about a local link info is what is in it, wherever its parts stand in the bytes and
whatever else is there. -/
theorem local_info_report (f : LnkFile) (tp : TextProc) (raw : Bytes) (hf : f.info = some (.local, ⟨tp, raw⟩))
    (h : InfoHeader) (t : InfoTexts) (v : Volume) (hi : InfoIn tp raw h t)
    (hv : VolumeIn tp raw h.volumeIdOffset.toNat v) :
    f.jsonInfo = pure (infoReport h t "Local" (v.report)) :=
  LnkInfo.jsonInfo_of hf hi (LnkInfo.jsonLocal_of (i := ⟨tp, raw⟩) hi.header hv)

theorem encodeZ_length_pos (u : Bool) (t : Text) : 0 < (t.encodeZ u).length := by
  unfold Text.encodeZ
  cases u <;> simp

/-- The bytes of a local link info of the usual arrangement contain its parts. -/
theorem local_info_encode (tp : TextProc) (l : LocalInfo) (hl : l.Valid tp) (rest : Bytes) :
    InfoIn tp (l.encode ++ rest) l.header l.texts ∧
      VolumeIn tp (l.encode ++ rest) l.header.volumeIdOffset.toNat l.volume ∧ l.encode.length = l.total := by
  have hfit := hl.fits
  have hp := encodeZ_length_pos false
  have hb1 : (UInt32.ofNat l.baseAt).toNat = l.baseAt :=
    UInt32.toNat_ofNat_of_lt' (by unfold LocalInfo.total LocalInfo.suffixAt at hfit; simp [UInt32.size]; omega)
  have hb2 : (UInt32.ofNat l.suffixAt).toNat = l.suffixAt :=
    UInt32.toNat_ofNat_of_lt' (by unfold LocalInfo.total at hfit; simp [UInt32.size]; omega)
  have hlh : l.header.encode.length = 28 := by simp [LocalInfo.header, InfoHeader.encode]
  have hlv : l.volume.encode.length = 16 := by simp [LocalInfo.volume, Volume.encode]
  refine ⟨⟨?_, ?_, ?_, ?_, ?_, ?_⟩, ⟨?_, ?_, ?_, ?_, ?_⟩, ?_⟩
  · simp [LocalInfo.header, InfoHeader.Valid]
  · refine ⟨[], l.volume.encode ++ l.label.encodeZ false ++ l.base.encodeZ false ++ l.suffix.encodeZ false ++ rest,
      ?_, rfl⟩
    simp [LocalInfo.encode]
  · have : l.header.localBasePathOffset.toNat = l.baseAt := hb1
    rw [this]
    unfold TextAt
    rw [if_neg (by unfold LocalInfo.baseAt; omega)]
    refine ⟨l.base, rfl, hl.base, l.header.encode ++ l.volume.encode ++ l.label.encodeZ false,
      l.suffix.encodeZ false ++ rest, ?_, ?_⟩
    · simp [LocalInfo.encode]
    · simp [hlh, hlv, LocalInfo.baseAt]; omega
  · have : l.header.suffixOffset.toNat = l.suffixAt := hb2
    rw [this]
    unfold TextAt
    rw [if_neg (by unfold LocalInfo.suffixAt LocalInfo.baseAt; omega)]
    refine ⟨l.suffix, rfl, hl.suffix,
      l.header.encode ++ l.volume.encode ++ l.label.encodeZ false ++ l.base.encodeZ false, rest, ?_, ?_⟩
    · simp [LocalInfo.encode]
    · simp [hlh, hlv, LocalInfo.suffixAt, LocalInfo.baseAt]; omega
  · rfl
  · rfl
  · simp [LocalInfo.volume]
  · simp [LocalInfo.volume]
  · refine ⟨l.header.encode, l.label.encodeZ false ++ l.base.encodeZ false ++ l.suffix.encodeZ false ++ rest, ?_, ?_⟩
    · simp [LocalInfo.encode]
    · rw [hlh]; rfl
  · exact hl.label
  · refine ⟨l.header.encode ++ l.volume.encode, l.base.encodeZ false ++ l.suffix.encodeZ false ++ rest, ?_, ?_⟩
    · simp [LocalInfo.encode, LocalInfo.volume]
    · rw [List.length_append, hlh, hlv]; rfl
  · simp [LocalInfo.encode, hlh, hlv, LocalInfo.total, LocalInfo.suffixAt, LocalInfo.baseAt]; omega

/-- C27: round trip of a local link info of the usual arrangement with any contents, whatever follows it. -/
theorem local_info_roundtrip (f : LnkFile) (tp : TextProc) (l : LocalInfo) (hl : l.Valid tp) (rest : Bytes)
    (hf : f.info = some (.local, ⟨tp, l.encode ++ rest⟩)) :
    f.jsonInfo = pure (infoReport l.header l.texts "Local" l.volume.report) := by
  obtain ⟨h1, h2, _⟩ := local_info_encode tp l hl rest
  exact local_info_report f tp _ hf _ _ _ h1 h2

def exampleLocal : LocalInfo :=
  ⟨3, 0x90D9702A, asciiText "OS", asciiText "C:\\Windows\\notepad.exe", asciiText ""⟩

theorem exampleLocal_valid (env : Env) : exampleLocal.Valid (TextProc.mk' env none) :=
  ⟨asciiText_valid env _ (by decide), asciiText_valid env _ (by decide), asciiText_valid env _ (by decide),
    by decide +kernel⟩

/-- `exampleLocal` reported. -/
example (env : Env) (f : LnkFile) (rest : Bytes)
    (hf : f.info = some (.local, ⟨TextProc.mk' env none, exampleLocal.encode ++ rest⟩)) :
    f.jsonInfo = pure [("link_info_size", .int 71), ("link_info_header_size", .int 28), ("link_info_flags", .int 1),
      ("volume_id_offset", .int 28), ("local_base_path_offset", .int 47),
      ("common_network_relative_link_offset", .int 0), ("common_path_suffix_offset", .int 70),
      ("local_base_path", .str "C:\\Windows\\notepad.exe".toList), ("common_path_suffix", .str []),
      ("location_info", .dict [("volume_id_size", .int 19), ("r_drive_type", .int 3),
        ("volume_label_offset", .int 16), ("drive_serial_number", .str "0x90d9702a".toList),
        ("drive_type", .str "DRIVE_FIXED".toList), ("volume_label", .str "OS".toList)]),
      ("location", .str "Local".toList)] := by
  rw [local_info_roundtrip f _ _ (exampleLocal_valid env) rest hf]
  rfl

/-- A volume label in Unicode form. -/
example (tp : TextProc) : VolumeIn tp ((Volume.mk 28 3 1 0x14 (some 0x14) ⟨utf16 "Größe".toList, "Größe".toList⟩).encode ++
    utf16 "Größe".toList ++ [0, 0]) 0 ⟨28, 3, 1, 0x14, some 0x14, ⟨utf16 "Größe".toList, "Größe".toList⟩⟩ := by
  refine ⟨rfl, by decide, ⟨[], utf16 "Größe".toList ++ [0, 0], by simp, rfl⟩, ⟨rfl, by decide⟩, ?_⟩
  exact ⟨(Volume.mk 28 3 1 0x14 (some 0x14) ⟨utf16 "Größe".toList, "Größe".toList⟩).encode, [],
    by simp [Text.encodeZ], by decide⟩

/-! ### C28 -/

/-- C28: everything reported about a network link info is what is in it, wherever its parts stand in the bytes and
whatever else is there. -/
theorem network_info_report (f : LnkFile) (tp : TextProc) (raw : Bytes) (hf : f.info = some (.network, ⟨tp, raw⟩))
    (h : InfoHeader) (t : InfoTexts) (n : NetLink) (hi : InfoIn tp raw h t)
    (hn : NetLinkIn tp raw h.networkOffset.toNat n) :
    f.jsonInfo = pure (infoReport h t "Network" n.report) :=
  LnkInfo.jsonInfo_of hf hi (LnkInfo.jsonNetwork_of (i := ⟨tp, raw⟩) hi.header hn)

/-- The bytes of a network link info of the usual arrangement contain its parts. -/
theorem network_info_encode (tp : TextProc) (l : NetworkInfo) (hl : l.Valid tp) (rest : Bytes) :
    InfoIn tp (l.encode ++ rest) l.header l.texts ∧
      NetLinkIn tp (l.encode ++ rest) l.header.networkOffset.toNat l.link ∧ l.encode.length = l.total := by
  have hfit := hl.fits
  have hb1 : (UInt32.ofNat l.deviceAt).toNat = l.deviceAt :=
    UInt32.toNat_ofNat_of_lt' (by
      unfold NetworkInfo.total NetworkInfo.suffixAt NetworkInfo.linkSize at hfit; simp [UInt32.size]; omega)
  have hb2 : (UInt32.ofNat l.suffixAt).toNat = l.suffixAt :=
    UInt32.toNat_ofNat_of_lt' (by unfold NetworkInfo.total at hfit; simp [UInt32.size]; omega)
  have hlh : l.header.encode.length = 28 := by simp [NetworkInfo.header, InfoHeader.encode]
  have hlv : l.link.encode.length = 20 := by simp [NetworkInfo.link, NetLink.encode]
  refine ⟨⟨?_, ?_, ?_, ?_, ?_, ?_⟩, ⟨?_, ?_, ?_⟩, ?_⟩
  · simp [NetworkInfo.header, InfoHeader.Valid]
  · refine ⟨[], l.link.encode ++ l.netName.encodeZ false ++ l.deviceName.encodeZ false ++ l.suffix.encodeZ false ++
      rest, ?_, rfl⟩
    simp [NetworkInfo.encode]
  · rfl
  · have : l.header.suffixOffset.toNat = l.suffixAt := hb2
    rw [this]
    unfold TextAt
    rw [if_neg (by unfold NetworkInfo.suffixAt; omega)]
    refine ⟨l.suffix, rfl, hl.suffix,
      l.header.encode ++ l.link.encode ++ l.netName.encodeZ false ++ l.deviceName.encodeZ false, rest, ?_, ?_⟩
    · simp [NetworkInfo.encode]
    · simp [hlh, hlv, NetworkInfo.suffixAt, NetworkInfo.linkSize, NetworkInfo.deviceAt]; omega
  · rfl
  · rfl
  · simp [NetworkInfo.link]
  · refine ⟨l.header.encode,
      l.netName.encodeZ false ++ l.deviceName.encodeZ false ++ l.suffix.encodeZ false ++ rest, ?_, ?_⟩
    · simp [NetworkInfo.encode]
    · rw [hlh]; rfl
  · constructor
    · refine ⟨l.netName, rfl, hl.netName, l.header.encode ++ l.link.encode,
        l.deviceName.encodeZ false ++ l.suffix.encodeZ false ++ rest, ?_, ?_⟩
      · simp [NetworkInfo.encode]
      · rw [List.length_append, hlh, hlv]; rfl
    · refine ⟨l.deviceName, rfl, hl.deviceName, l.header.encode ++ l.link.encode ++ l.netName.encodeZ false,
        l.suffix.encodeZ false ++ rest, ?_, ?_⟩
      · simp [NetworkInfo.encode]
      · have : l.link.deviceNameOffset.toNat = l.deviceAt := hb1
        rw [this, List.length_append, List.length_append, hlh, hlv]
        simp only [NetworkInfo.header, NetworkInfo.deviceAt]
        have : (0x1C : UInt32).toNat = 28 := rfl
        omega
  · simp [NetworkInfo.encode, hlh, hlv, NetworkInfo.total, NetworkInfo.suffixAt, NetworkInfo.linkSize,
      NetworkInfo.deviceAt]
    omega

/-- C28: round trip of a network link info of the usual arrangement with any contents, whatever follows it. -/
theorem network_info_roundtrip (f : LnkFile) (tp : TextProc) (l : NetworkInfo) (hl : l.Valid tp) (rest : Bytes)
    (hf : f.info = some (.network, ⟨tp, l.encode ++ rest⟩)) :
    f.jsonInfo = pure (infoReport l.header l.texts "Network" l.link.report) := by
  obtain ⟨h1, h2, _⟩ := network_info_encode tp l hl rest
  exact network_info_report f tp _ hf _ _ _ h1 h2

def exampleNetwork : NetworkInfo :=
  ⟨3, 0x20000, asciiText "\\\\server\\share", asciiText "Z:", asciiText "a.txt"⟩

theorem exampleNetwork_valid (env : Env) : exampleNetwork.Valid (TextProc.mk' env none) :=
  ⟨asciiText_valid env _ (by decide), asciiText_valid env _ (by decide), asciiText_valid env _ (by decide),
    by decide +kernel⟩

/-- `exampleNetwork` reported. -/
example (env : Env) (f : LnkFile) (rest : Bytes)
    (hf : f.info = some (.network, ⟨TextProc.mk' env none, exampleNetwork.encode ++ rest⟩)) :
    f.jsonInfo = pure [("link_info_size", .int 72), ("link_info_header_size", .int 28), ("link_info_flags", .int 2),
      ("volume_id_offset", .int 0), ("local_base_path_offset", .int 0),
      ("common_network_relative_link_offset", .int 28), ("common_path_suffix_offset", .int 66),
      ("common_path_suffix", .str "a.txt".toList),
      ("location_info", .dict [("common_network_relative_link_size", .int 38),
        ("common_network_relative_link_flags", .int 3), ("net_name_offset", .int 20), ("device_name_offset", .int 35),
        ("r_network_provider_type", .str "0x20000".toList),
        ("network_provider_type", .str "WNNC_NET_DECORB".toList),
        ("net_name", .str "\\\\server\\share".toList), ("device_name", .str "Z:".toList)]),
      ("location", .str "Network".toList)] := by
  rw [network_info_roundtrip f _ _ (exampleNetwork_valid env) rest hf]
  have hp : exampleNetwork.link.providerName = some "WNNC_NET_DECORB" := by decide +kernel
  unfold NetLink.report
  rw [hp]
  rfl

/-- Names in Unicode form, the device name absent. -/
example (tp : TextProc) (n : NetLink)
    (hn : n = ⟨36, 2, 0x1C, 0, 0x20000, some (28, 0), some ⟨utf16 "é".toList, "é".toList⟩, none⟩) :
    NetLinkIn tp (n.encode ++ utf16 "é".toList ++ [0, 0]) 0 n := by
  subst hn
  refine ⟨rfl, ⟨[], utf16 "é".toList ++ [0, 0], by simp, rfl⟩, ?_, rfl⟩
  refine ⟨_, rfl, ⟨rfl, by decide⟩, ?_⟩
  exact ⟨NetLink.encode _, [], by simp only [Text.encodeZ, if_true, List.append_nil, List.append_assoc]; rfl, rfl⟩

/-! ### C29 -/

/-- C29: the provider name reported for a link with these flags and this provider code. -/
theorem provider_reported (tp : TextProc) (raw : Bytes) (h : InfoHeader) (n : NetLink)
    (hh : HasAt raw 0 h.encode) (hn : NetLinkIn tp raw h.networkOffset.toNat n) :
    (LnkInfo.mk tp raw).networkProviderType = pure n.providerName :=
  LnkInfo.networkProviderType_of (i := ⟨tp, raw⟩) hh hn

/-- C29, the violation: a code with a letter among its hexadecimal digits is never named. -/
theorem provider_letter (code : Nat) (h : (Nat.toDigits 16 code).any fun c => !c.isDigit) :
    reportedProvider code = none := by
  unfold reportedProvider
  rw [if_neg]
  intro ha
  rw [List.any_eq_true] at h
  obtain ⟨c, hc, hd⟩ := h
  rw [List.all_eq_true] at ha
  simp [ha c hc] at hd

/-- C29: every name reported is the right one. -/
theorem provider_sound (code : Nat) (s : String) (h : reportedProvider code = some s) :
    providerTable.lookup code = some s := by
  unfold reportedProvider at h
  split_ifs at h
  exact h

/-- C29: exactly 23 of the 41 providers can be reported. -/
theorem provider_reachable :
    (providerTable.filter fun kv => (reportedProvider kv.1).isSome).map (·.1) =
      [0x20000, 0x21000, 0x22000, 0x23000, 0x24000, 0x25000, 0x26000, 0x27000, 0x29000, 0x30000, 0x31000, 0x32000,
        0x33000, 0x34000, 0x35000, 0x36000, 0x37000, 0x38000, 0x39000, 0x40000, 0x41000, 0x42000, 0x43000] := by
  decide +kernel

/-- WNNC_NET_DAV is in the table and not reported. -/
example : providerTable.lookup 0x2E000 = some "WNNC_NET_DAV" ∧ reportedProvider 0x2E000 = none := by
  decide +kernel

example : reportedProvider 0x20000 = some "WNNC_NET_DECORB" := by decide +kernel

/-! ### C47 -/

/-- C47: the Unicode suffix reported is the text that starts four bytes after the place its offset names. -/
theorem suffix_unicode_shifted (tp : TextProc) (raw : Bytes) (h : InfoHeader) (w : UInt32 × UInt32)
    (hw : h.wide = some w) (hv : h.Valid) (hh : HasAt raw 0 h.encode) (h0 : w.2 ≠ 0) :
    (LnkInfo.mk tp raw).commonPathSuffixUnicode =
      some <$> TextProc.readUnicodeString (raw.drop (w.2.toNat + 4)) := by
  unfold LnkInfo.commonPathSuffixUnicode
  rw [LnkInfo.commonPathSuffixOffsetUnicode_of (i := ⟨tp, raw⟩) hh hv, pure_bind, hw]
  have h0' : w.2.toNat ≠ 0 := fun hz => h0 (UInt32.toNat_inj.mp hz)
  obtain ⟨k, hk⟩ := Nat.exists_eq_succ_of_ne_zero h0'
  simp only [Option.map_some, hk]
  rfl

/-- C47, the violation: of a suffix stored where its offset says, the first two characters are lost. -/
theorem suffix_unicode_loses_two (tp : TextProc) (raw : Bytes) (h : InfoHeader) (w : UInt32 × UInt32)
    (hw : h.wide = some w) (hv : h.Valid) (hh : HasAt raw 0 h.encode) (h0 : w.2 ≠ 0) (a b : Char) (s : List Char)
    (ha : a.val < 0x10000) (hb : b.val < 0x10000) (hs : '\x00' ∉ s)
    (hp : HasAt raw w.2.toNat (utf16 (a :: b :: s) ++ [0, 0])) :
    (LnkInfo.mk tp raw).commonPathSuffixUnicode = pure (some s) := by
  rw [suffix_unicode_shifted tp raw h w hw hv hh h0]
  have hlen : ∀ c : Char, c.val < 0x10000 → (utf16 [c]).length = 2 := by
    intro c hc
    have : c.toNat < 0x10000 := hc
    simp [utf16, utf16Char, this]
  have hv' : (Text.mk (utf16 s) s).Valid tp true := ⟨rfl, hs⟩
  have hp' : HasAt raw (w.2.toNat + 4) ((Text.mk (utf16 s) s).encodeZ true) := by
    have e : utf16 (a :: b :: s) ++ [0, 0] = (utf16 [a] ++ utf16 [b]) ++ (utf16 s ++ [0, 0]) := by simp [utf16]
    rw [e] at hp
    have := hp.right
    rwa [List.length_append, hlen a ha, hlen b hb] at this
  rw [LnkInfo.readUnicodeString_at (i := ⟨tp, raw⟩) hv' hp']
  rfl

/-- The suffix "abc" is stored at its offset and "c" is reported. -/
example (tp : TextProc) :
    (LnkInfo.mk tp ((InfoHeader.mk 44 0x24 1 0 0 0 0 (some (0, 36))).encode ++ utf16 "abc".toList ++ [0, 0])
      ).commonPathSuffixUnicode = pure (some "c".toList) := by
  refine suffix_unicode_loses_two tp _ ⟨44, 0x24, 1, 0, 0, 0, 0, some (0, 36)⟩ (0, 36) rfl rfl ?_ (by decide)
    'a' 'b' ['c'] (by decide) (by decide) (by decide) ?_
  · exact ⟨[], utf16 "abc".toList ++ [0, 0], by simp, rfl⟩
  · exact ⟨(InfoHeader.mk 44 0x24 1 0 0 0 0 (some (0, 36))).encode, [], by simp, by decide⟩

/-! ### C51 -/

/-- C51: a network link in code page form that has no device name (its offset is 0, as [MS-SHLLINK] requires when
ValidDevice is not set) is reported with one: the text that the first bytes of the link, its own size, make. -/
theorem device_name_from_size (tp : TextProc) (raw : Bytes) (h : InfoHeader) (n : NetLink)
    (hh : HasAt raw 0 h.encode) (hn : HasAt raw h.networkOffset.toNat n.encode) (h20 : n.netNameOffset.toNat ≤ 0x14)
    (h0 : n.deviceNameOffset = 0) (hs : n.size.toNat < 256) (t : List Char)
    (ht : CodePageText tp [UInt8.ofNat n.size.toNat] t) :
    (LnkInfo.mk tp raw).deviceName = pure (some t) := by
  have hno : (LnkInfo.mk tp raw).netNameOffset = pure n.netNameOffset.toNat := by
    unfold LnkInfo.netNameOffset
    rw [LnkInfo.cnrlOffset_of (i := ⟨tp, raw⟩) hh, pure_bind]
    exact LnkInfo.u32_in (i := ⟨tp, raw⟩) hn 8 (by unfold NetLink.encode; slices)
  have hdo : (LnkInfo.mk tp raw).deviceNameOffset = pure n.deviceNameOffset.toNat := by
    unfold LnkInfo.deviceNameOffset
    rw [LnkInfo.cnrlOffset_of (i := ⟨tp, raw⟩) hh, pure_bind]
    exact LnkInfo.u32_in (i := ⟨tp, raw⟩) hn 12 (by unfold NetLink.encode; slices)
  have hx : HasAt raw h.networkOffset.toNat ((Text.mk [UInt8.ofNat n.size.toNat] t).encodeZ false) := by
    have e : le 4 n.size.toNat = [UInt8.ofNat n.size.toNat, 0] ++ [0, 0] := by
      simp [le, Nat.mod_eq_of_lt hs, Nat.div_eq_of_lt hs]
    have h1 : HasAt raw h.networkOffset.toNat (le 4 n.size.toNat) := by
      unfold NetLink.encode at hn
      exact hn.left.left.left.left.left
    rw [e] at h1
    exact h1.left
  unfold LnkInfo.deviceName
  rw [hno, pure_bind, if_neg (by omega), LnkInfo.cnrlOffset_of (i := ⟨tp, raw⟩) hh, pure_bind, hdo, pure_bind, h0]
  have hv : (Text.mk [UInt8.ofNat n.size.toNat] t).Valid tp false := ht
  rw [show h.networkOffset.toNat + (0 : UInt32).toNat = h.networkOffset.toNat from rfl,
    LnkInfo.readString_at (i := ⟨tp, raw⟩) hv hx]
  rfl

/-- A common network relative link of 20 bytes without a device: the device name reported is the character 20. -/
example (env : Env) :
    let h : InfoHeader := ⟨60, 28, 2, 0, 0, 28, 48, none⟩
    let n : NetLink := ⟨20, 0, 20, 0, 0x20000, none, none, none⟩
    (LnkInfo.mk (TextProc.mk' env none) (h.encode ++ n.encode)).deviceName = pure (some [Char.ofNat 20]) := by
  intro h n
  refine device_name_from_size _ _ h n ⟨[], n.encode, rfl, rfl⟩ ⟨h.encode, [], by simp, by decide⟩ (by decide) rfl (by decide) _
    ⟨by decide, rfl⟩

end Verif.Props
