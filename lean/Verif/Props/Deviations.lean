import Verif.Props.Link

/-
C57: link info strings run on after the end of link info.  C58: a link info with both locations is reported with the
local one only.  C59: FILETIME values with the top bit set.  C60: the color table.
-/

namespace Verif.Props

open Spec

/-! ### C57 -/

/-- C57: `own` are the bytes LinkInfo declares.  If the local base path is not ended within them, the text reported goes
on with the bytes `after` that follow LinkInfo in the file, up to the next NUL there. -/
theorem base_path_runs_on (tp : TextProc) (own after rest : Bytes) (h : InfoHeader) (hh : HasAt own 0 h.encode)
    (hs : h.size.toNat = own.length) (h0 : h.localBasePathOffset ≠ 0) (ho : h.localBasePathOffset.toNat ≤ own.length)
    (t : List Char) (ht : CodePageText tp (own.drop h.localBasePathOffset.toNat ++ after) t) :
    (LnkInfo.mk tp (own ++ (after ++ 0 :: rest))).localBasePath = pure (some t) ∧
      (LnkInfo.mk tp (own ++ (after ++ 0 :: rest))).size = pure own.length := by
  have hh' : HasAt (own ++ (after ++ 0 :: rest)) 0 h.encode := hh.append _
  refine ⟨?_, by rw [LnkInfo.size_of (i := ⟨tp, _⟩) hh', hs]⟩
  unfold LnkInfo.localBasePath
  rw [LnkInfo.localBasePathOffset_of (i := ⟨tp, _⟩) hh', pure_bind, if_neg (by simpa [← UInt32.toNat_inj] using h0)]
  have hv : Text.Valid tp false ⟨own.drop h.localBasePathOffset.toNat ++ after, t⟩ := ht
  rw [LnkInfo.readString_at (i := ⟨tp, own ++ (after ++ 0 :: rest)⟩) hv
    ⟨own.take h.localBasePathOffset.toNat, rest, by
      simp only [Text.encodeZ, Bool.false_eq_true, if_false, List.append_assoc]
      rw [← List.append_assoc (own.take _), List.take_append_drop]
      rfl, by simp; omega⟩]
  rfl

/-- C57: the same for the common path suffix. -/
theorem suffix_runs_on (tp : TextProc) (own after rest : Bytes) (h : InfoHeader) (hh : HasAt own 0 h.encode)
    (hs : h.size.toNat = own.length) (h0 : h.suffixOffset ≠ 0) (ho : h.suffixOffset.toNat ≤ own.length)
    (t : List Char) (ht : CodePageText tp (own.drop h.suffixOffset.toNat ++ after) t) :
    (LnkInfo.mk tp (own ++ (after ++ 0 :: rest))).commonPathSuffix = pure (some t) ∧
      (LnkInfo.mk tp (own ++ (after ++ 0 :: rest))).size = pure own.length := by
  have hh' : HasAt (own ++ (after ++ 0 :: rest)) 0 h.encode := hh.append _
  refine ⟨?_, by rw [LnkInfo.size_of (i := ⟨tp, _⟩) hh', hs]⟩
  unfold LnkInfo.commonPathSuffix
  rw [LnkInfo.commonPathSuffixOffset_of (i := ⟨tp, _⟩) hh', pure_bind, if_neg (by simpa [← UInt32.toNat_inj] using h0)]
  have hv : Text.Valid tp false ⟨own.drop h.suffixOffset.toNat ++ after, t⟩ := ht
  rw [LnkInfo.readString_at (i := ⟨tp, own ++ (after ++ 0 :: rest)⟩) hv
    ⟨own.take h.suffixOffset.toNat, rest, by
      simp only [Text.encodeZ, Bool.false_eq_true, if_false, List.append_assoc]
      rw [← List.append_assoc (own.take _), List.take_append_drop]
      rfl, by simp; omega⟩]
  rfl

example (env : Env) :
    (LnkInfo.mk (TextProc.mk' env none) (((InfoHeader.mk 30 28 1 0 0 0 28 none).encode ++ (asciiText "ab").raw) ++
      ((asciiText "yz").raw ++ 0 :: [1, 2]))).commonPathSuffix = pure (some "abyz".toList) :=
  (suffix_runs_on (TextProc.mk' env none) _ (asciiText "yz").raw [1, 2] ⟨30, 28, 1, 0, 0, 0, 28, none⟩
    ⟨[], (asciiText "ab").raw, rfl, rfl⟩ (by decide) (by decide) (by decide) "abyz".toList
    (asciiText_valid env "abyz" (by decide))).1

/-- A LinkInfo of 32 bytes that ends with "C:\x", followed by the bytes "yz": "C:\xyz" is reported. -/
example (env : Env) :
    (LnkInfo.mk (TextProc.mk' env none) (((InfoHeader.mk 32 28 1 0 28 0 0 none).encode ++ (asciiText "C:\\x").raw) ++
      ((asciiText "yz").raw ++ 0 :: [1, 2]))).localBasePath = pure (some "C:\\xyz".toList) :=
  (base_path_runs_on (TextProc.mk' env none) _ (asciiText "yz").raw [1, 2] ⟨32, 28, 1, 0, 28, 0, 0, none⟩
    ⟨[], (asciiText "C:\\x").raw, rfl, rfl⟩ (by decide) (by decide) (by decide) "C:\\xyz".toList
    (asciiText_valid env "C:\\xyz" (by decide))).1

/-! ### C58 -/

/-- C58: a link info that has both a volume id and a network link, as [MS-SHLLINK] 2.3 allows, is taken for a local one:
what is reported is the same whatever the network link says, and no key of a network link is among it. -/
theorem both_locations (f : LnkFile) (tp : TextProc) (raw : Bytes) (h : InfoHeader) (t : InfoTexts) (v : Volume)
    (n : NetLink) (hi : InfoIn tp raw h t) (hv : VolumeIn tp raw h.volumeIdOffset.toNat v)
    (_hn : NetLinkIn tp raw h.networkOffset.toNat n) (b0 : h.flags.toNat.testBit 0 = true)
    (_b1 : h.flags.toNat.testBit 1 = true) (c : InfoClass)
    (hc : (LnkInfo.mk tp raw).infoClass.Returns (some c)) (hf : f.info = some (c, ⟨tp, raw⟩)) :
    f.jsonInfo = pure (infoReport h t "Local" v.report) ∧
      ∀ k ∈ Dict.keys n.report, Dict.get? v.report k = none ∧ Dict.get? (infoReport h t "Local" v.report) k = none := by
  have hc' : c = .local := by
    rw [info_kind] at hc
    have hu : uAt 4 raw 8 = some h.flags.toNat := by
      have h1 := LnkInfo.flags_of (i := ⟨tp, raw⟩) hi.header
      have h2 := unpackU_slice raw 4 8 (by omega)
      rw [show (LnkInfo.mk tp raw).flags = unpackU 4 (slice raw 8 (8 + 4)) from rfl, h2] at h1
      rcases hu : uAt 4 raw 8 with _ | x
      · rw [hu] at h1; simpa using congrArg Py.res h1
      · rw [hu] at h1; simpa using congrArg Py.res h1
    rw [hu] at hc
    simp only [b0, if_true] at hc
    simpa [Py.Returns] using hc.symm
  subst hc'
  refine ⟨local_info_report f tp raw hf h t v hi hv, fun k hk => ?_⟩
  have hkeys : k ∈ ["common_network_relative_link_size", "common_network_relative_link_flags", "net_name_offset",
      "device_name_offset", "r_network_provider_type", "network_provider_type", "net_name", "device_name",
      "net_name_offset_unicode", "net_name_unicode", "device_name_offset_unicode", "device_name_unicode"] := by
    unfold NetLink.report Dict.keys at hk
    rw [List.map_append, List.map_append, List.mem_append, List.mem_append] at hk
    rcases hk with (hk | hk) | hk
    · simp at hk ⊢; tauto
    · have : k = "network_provider_type" := by
        simp only [List.map_map, List.mem_map] at hk
        obtain ⟨_, -, rfl⟩ := hk
        rfl
      subst this
      simp
    · have e1 : ∀ key x, ∀ k ∈ (nameEntry key x).map Prod.fst, k = key := by
        intro key x k hk
        unfold nameEntry at hk
        rcases x with _ | x
        · simp at hk
        · simp only [Option.toList_some, List.flatMap_cons, List.flatMap_nil, List.append_nil] at hk
          split at hk <;> simp at hk
          exact hk
      have e2 : ∀ key key' o x, ∀ k ∈ (wideEntry key key' o x).map Prod.fst, k = key ∨ k = key' := by
        intro key key' o x k hk
        unfold wideEntry at hk
        rcases x with _ | x <;> simp at hk
        exact hk
      rcases hw : n.wide with _ | w
      · rw [hw] at hk
        simp only [List.map_append, List.mem_append] at hk
        rcases hk with hk | hk <;> have := e1 _ _ _ hk <;> subst this <;> simp
      · rw [hw] at hk
        simp only [List.map_append, List.mem_append] at hk
        rcases hk with hk | hk <;> rcases e2 _ _ _ _ _ hk with this | this <;> subst this <;> simp
  constructor
  · unfold Volume.report
    rcases v.wideLabelOffset with _ | o <;> simp only [List.mem_cons, List.not_mem_nil, or_false] at hkeys <;>
      rcases hkeys with h | h | h | h | h | h | h | h | h | h | h | h <;> subst h <;> simp [Dict.get?]
  · unfold infoReport textEntry wideEntry
    simp only [List.mem_cons, List.not_mem_nil, or_false] at hkeys
    rcases t with ⟨_ | a, _ | b, _ | c, _ | d⟩ <;>
      rcases hkeys with h | h | h | h | h | h | h | h | h | h | h | h <;> subst h <;> simp [Dict.get?]

/-- A link info with both: drive C: with label "OS", path "C:\d", share "\\s" mapped to "Z:". -/
def exampleBoth : Bytes :=
  (InfoHeader.mk 83 28 3 28 47 52 82 none).encode ++ (Volume.mk 19 3 0x1234 16 none (asciiText "OS")).encode ++
    (asciiText "OS").encodeZ false ++ (asciiText "C:\\d").encodeZ false ++
    (NetLink.mk 30 3 20 24 0x20000 none (some (asciiText "\\\\s")) (some (asciiText "Z:"))).encode ++
    (asciiText "\\\\s").encodeZ false ++ (asciiText "Z:").encodeZ false ++ [0, 0, 0] ++ (asciiText "").encodeZ false

/-- The hypotheses hold for it. -/
example (env : Env) :
    InfoIn (TextProc.mk' env none) exampleBoth (InfoHeader.mk 83 28 3 28 47 52 82 none)
      ⟨some (asciiText "C:\\d"), some (asciiText ""), none, none⟩ ∧
    VolumeIn (TextProc.mk' env none) exampleBoth 28 (Volume.mk 19 3 0x1234 16 none (asciiText "OS")) ∧
    NetLinkIn (TextProc.mk' env none) exampleBoth 52
      (NetLink.mk 30 3 20 24 0x20000 none (some (asciiText "\\\\s")) (some (asciiText "Z:"))) := by
  have here : ∀ (off : Nat) (part : Bytes), exampleBoth = exampleBoth.take off ++ part ++ exampleBoth.drop (off + part.length) →
      (exampleBoth.take off).length = off → HasAt exampleBoth off part := fun off part h1 h2 => ⟨_, _, h1, h2⟩
  refine ⟨⟨rfl, ?_, ?_, ?_, rfl, rfl⟩, ⟨rfl, by simp, ?_, asciiText_valid env _ (by decide), ?_⟩, ⟨rfl, ?_, ?_, ?_⟩⟩
  · exact here _ _ (by decide +kernel) (by decide +kernel)
  · exact ⟨_, rfl, asciiText_valid env _ (by decide), here _ _ (by decide +kernel) (by decide +kernel)⟩
  · exact ⟨_, rfl, asciiText_valid env _ (by decide), here _ _ (by decide +kernel) (by decide +kernel)⟩
  · exact here _ _ (by decide +kernel) (by decide +kernel)
  · exact here _ _ (by decide +kernel) (by decide +kernel)
  · exact here _ _ (by decide +kernel) (by decide +kernel)
  · exact ⟨_, rfl, asciiText_valid env _ (by decide), here _ _ (by decide +kernel) (by decide +kernel)⟩
  · exact ⟨_, rfl, asciiText_valid env _ (by decide), here _ _ (by decide +kernel) (by decide +kernel)⟩

/-! ### C59 -/

/-- C59: FILETIME is unsigned ([MS-DTYP] 2.3.3).  The values from 2^63 on, all after the year 30000, are read as negative:
the largest of them are reported, without a warning, as dates before 1601 (the instant `v - 2^64`, up to 16
microseconds); the others are rejected with a warning. -/
theorem filetime_top_bit (v : UInt64) (hv : 2 ^ 63 ≤ v.toNat) :
    filetime ⟨9999, 12, 31, 23, 59, 59, 999999⟩ < (v.toNat : Int) ∧
    ((2 ^ 64 : Int) + filetime ⟨1, 1, 1, 0, 0, 0, 0⟩ ≤ v.toNat →
      ∃ d, ValidDateTime d ∧ parseFiletime (le 8 v.toNat) = pure (some d) ∧
        instant d ≤ instant ⟨1601, 1, 1, 0, 0, 0, 0⟩ ∧ |filetime d - ((v.toNat : Int) - 2 ^ 64)| ≤ 160) ∧
    ((v.toNat : Int) < 2 ^ 64 + filetime ⟨1, 1, 1, 0, 0, 0, 0⟩ - 160 →
      parseFiletime (le 8 v.toNat) = ⟨[.invalidFiletime (le 8 v.toNat)], .ok none⟩) := by
  have hlt := v.toNat_lt
  have hi : (v.toInt64).toInt = (v.toNat : Int) - 2 ^ 64 := by
    have h1 : v.toInt64.toInt = v.toBitVec.toInt := rfl
    have h2 : v.toBitVec.toNat = v.toNat := rfl
    rw [h1, BitVec.toInt_eq_toNat_cond, h2, if_neg (by omega)]
    simp
  have hb : le 8 v.toNat = leI 8 (v.toInt64).toInt := by
    unfold leI
    congr 1
    rw [hi]
    omega
  have hneg : v.toInt64 < 0 := by
    rw [Int64.lt_iff_toInt_lt, hi]
    simp; omega
  rw [hb]
  refine ⟨?_, fun h => ?_, fun h => ?_⟩
  · have : filetime ⟨9999, 12, 31, 23, 59, 59, 999999⟩ = 2650467743999999990 := by decide +kernel
    rw [this]; omega
  · obtain ⟨d, h1, h2⟩ := filetime_reported v.toInt64 (by intro h0; rw [h0] at hneg; exact absurd hneg (by decide))
      (by rw [hi]; omega) (by
        rw [hi]
        have : filetime ⟨9999, 12, 31, 23, 59, 59, 0⟩ = 2650467743990000000 := by decide +kernel
        rw [this]; omega)
    have hr : (parseFiletime (leI 8 (v.toInt64).toInt)).Returns (some d) := by rw [h2]; rfl
    exact ⟨d, h1, h2, filetime_signed _ hneg d hr, by rw [← hi]; exact filetime_error _ d hr⟩
  · exact filetime_rejected v.toInt64 (.inr (by rw [hi]; omega))

/-- A value of the top second, and what is reported for it. -/
example : ∃ d, parseFiletime (le 8 (2 ^ 64 - 1)) = pure (some d) ∧ instant d ≤ instant ⟨1601, 1, 1, 0, 0, 0, 0⟩ := by
  obtain ⟨d, -, h1, h2, -⟩ := (filetime_top_bit (UInt64.ofNat (2 ^ 64 - 1)) (by decide)).2.1 (by decide +kernel)
  exact ⟨d, h1, h2⟩

/-! ### C60 -/

/-- C60: ConsoleDataBlock ends with a table of 16 colors, of which only the first is reported: blocks that differ in the
others give the same report. -/
theorem color_table_lost (tp : TextProc) (c : ConsoleBlock) (hv : c.faceName.Valid tp true 64)
    (colors colors' : List UInt32) (h15 : colors.length = 15) (h15' : colors'.length = 15) :
    let block (colors : List UInt32) := (Block.console c).encode (colors.flatMap fun x => le 4 x.toNat)
    (Extra.mk .console tp (block colors)).asDict = (Extra.mk .console tp (block colors')).asDict ∧
      ∃ d, (Extra.mk .console tp (block colors)).asDict = pure d ∧ Dict.get? d "color_table" = some (.int c.color0.toNat) := by
  have hl : ∀ cs : List UInt32, cs.length = 15 → (cs.flatMap fun x => le 4 x.toNat).length = 60 := by
    intro cs h
    rw [List.length_flatMap]
    simp [h]
  have hc : c.encode.length = 136 := by
    have h : (c.faceName.encode true).length = 64 := hv.2
    unfold ConsoleBlock.encode
    generalize c.faceName.encode true = x at h ⊢
    simp only [List.length_append, le_length, leI_length, h]
  have key : ∀ more : Bytes, more.length = 60 → (Extra.mk .console tp ((Block.console c).encode more)).asDict =
      pure (("size", .int (204 : Nat)) :: c.report) := by
    intro more h
    have := extra_block_report (Extra.mk .console tp ((Block.console c).encode more)) (.console c) more hv
      (by simp only [Block.payload, List.length_append, hc, h]; decide) rfl rfl
    rw [this]
    simp only [Block.warns, Block.report, Block.fields, Block.payload, List.length_append, hc, h]
    rfl
  simp only
  rw [key _ (hl colors h15), key _ (hl colors' h15')]
  exact ⟨rfl, _, rfl, by simp [Dict.get?, ConsoleBlock.report]⟩

/-- A face name field that can be used there. -/
example (tp : TextProc) (c : ConsoleBlock)
    (hc : c.faceName = ⟨⟨utf16 "Lucida".toList, "Lucida".toList⟩, List.replicate 50 0⟩) : c.faceName.Valid tp true 64 := by
  rw [hc]
  exact ⟨⟨by decide, by decide⟩, by decide +kernel⟩

end Verif.Props
