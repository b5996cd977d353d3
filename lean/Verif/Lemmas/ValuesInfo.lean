import Verif.Lemmas.Values
import Verif.Lemmas.Info

namespace Verif

open Spec Py

namespace Values

open LnkFile LnkInfo

theorem u32_iff {i : LnkInfo} {off k : Nat} : (i.u32 off).res = .ok k ↔ uAt 4 i.raw off = some k := uAt_iff_ok (by omega)

theorem u32_pure {i : LnkInfo} {off k : Nat} (h : uAt 4 i.raw off = some k) : i.u32 off = pure k := Target.leNat_slice (by omega) h

theorem u4_eq {b : Bytes} {off k : Nat} (h : uAt 4 b off = some k) : u4 b off = k := by unfold u4; rw [h]; rfl

theorem opt_lit (o : Option String) : PyVal.opt .lit o = optName o := by cases o <;> rfl

theorem local_values {i : LnkInfo} {d : Dict} (h : (jsonLocal i).res = .ok d) : Fits d (volumeEntries i.tp i.raw (u4 i.raw 12)) := by
  unfold jsonLocal at h
  obtain ⟨vs, h1, h⟩ := bind_ok_iff.1 h
  unfold volumeIdSize at h1
  obtain ⟨o, h0, h1⟩ := bind_ok_iff.1 h1
  have u0 := u32_iff.1 h0
  have u1 := u32_iff.1 h1
  have p0 : i.volumeIdOffset = pure o := u32_pure u0
  obtain ⟨rd, h2, h⟩ := bind_ok_iff.1 h
  unfold rDriveType at h2
  rw [p0, pure_bind] at h2
  have u2 := u32_iff.1 h2
  obtain ⟨lo, h3, h⟩ := bind_ok_iff.1 h
  unfold volumeLabelOffset at h3
  rw [p0, pure_bind] at h3
  have u3 := u32_iff.1 h3
  have p3 : i.volumeLabelOffset = pure lo := by unfold volumeLabelOffset; rw [p0, pure_bind, u32_pure u3]
  obtain ⟨sn, h4, h⟩ := bind_ok_iff.1 h
  unfold driveSerialNumber at h4
  rw [p0, pure_bind] at h4
  obtain ⟨n, h4, h4'⟩ := bind_ok_iff.1 h4
  have u4' := u32_iff.1 h4
  obtain ⟨dt, h5, h⟩ := bind_ok_iff.1 h
  unfold driveType rDriveType at h5
  rw [p0, pure_bind, u32_pure u2, pure_bind] at h5
  obtain ⟨vl, h6, h⟩ := bind_ok_iff.1 h
  have p6 : i.hasVolumeLabelOffsetUnicode = pure (decide (lo = 0x14)) := by unfold hasVolumeLabelOffsetUnicode; rw [p3, pure_bind]
  unfold volumeLabel at h6
  rw [p6, pure_bind, p0, p3] at h6
  obtain ⟨uo, h7, h⟩ := bind_ok_iff.1 h
  obtain ⟨ex, h8, h⟩ := bind_ok_iff.1 h
  rw [← Except.ok.inj h, u4_eq u0]
  refine fits_append ?_ ?_
  · refine ⟨rfl, ⟨_, u1, rfl⟩, rfl, ⟨_, u2, rfl⟩, rfl, ⟨_, u3, rfl⟩, rfl, ⟨n, u4', ?_⟩, rfl, ⟨rd, u2, ?_⟩, rfl, ⟨lo, u3, ?_⟩, trivial⟩
    · rw [← Except.ok.inj h4', pyHex_eq]
    · rw [← Except.ok.inj h5, opt_lit, DRIVE_TYPES_get]
    · by_cases hl : lo = 0x14
      · rw [if_pos hl]
        rw [if_pos (by simpa using hl)] at h6
        rw [← Except.ok.inj h6]; rfl
      · rw [if_neg hl]
        rw [if_neg (by simpa using hl), pure_bind, pure_bind] at h6
        obtain ⟨s, hs, h6⟩ := bind_ok_iff.1 h6
        rw [← Except.ok.inj h6]
        exact narrow hs
  · rw [u4_eq u3]
    unfold volumeLabelUnicodeOffset at h7
    rw [p6, pure_bind] at h7
    by_cases hl : lo = 0x14
    · rw [if_pos (by simpa using hl), p0, pure_bind] at h7
      obtain ⟨m, h7, h7'⟩ := bind_ok_iff.1 h7
      have u7 := u32_iff.1 h7
      have p7 : i.volumeLabelUnicodeOffset = pure (some m) := by
        unfold volumeLabelUnicodeOffset
        rw [p6, pure_bind, if_pos (by simpa using hl), p0, pure_bind, u32_pure u7, pure_bind]
      obtain rfl := Except.ok.inj h7'
      rw [u4_eq u7]
      by_cases hm : m = 0
      · rw [if_neg (fun hh => hh.2 hm)]
        simp only [truthyNat, hm, entryIf] at h8
        rw [← Except.ok.inj h8]; trivial
      · rw [if_pos ⟨hl, hm⟩]
        have ht : truthyNat (some m) = true := by simp [truthyNat, hm]
        rw [ht] at h8
        unfold entryIf volumeLabelUnicode at h8
        rw [if_pos rfl, p7, pure_bind, pure_bind] at h8
        cases m with
        | zero => exact absurd rfl hm
        | succ m =>
          obtain ⟨x, h9, h8⟩ := bind_ok_iff.1 h8
          change (do
            let a ← i.volumeIdOffset
            let text ← TextProc.readUnicodeString (i.raw.drop (a + (m + 1)))
            pure (some text) : Py (Option Str)).res = _ at h9
          rw [p0, pure_bind] at h9
          obtain ⟨s, hs, h9⟩ := bind_ok_iff.1 h9
          rw [← Except.ok.inj h8, ← Except.ok.inj h9]
          exact ⟨rfl, ⟨_, u7, rfl⟩, rfl, wide hs, trivial⟩
    · rw [if_neg (by simpa using hl)] at h7
      obtain rfl := Except.ok.inj h7
      rw [if_neg (fun hh => hl hh.1)]
      simp only [truthyNat, entryIf] at h8
      rw [← Except.ok.inj h8]; trivial

theorem network_values {i : LnkInfo} {d : Dict} (h : (jsonNetwork i).res = .ok d) : NetworkReport i.tp i.raw (u4 i.raw 20) d := by
  unfold jsonNetwork at h
  obtain ⟨cs, h1, h⟩ := bind_ok_iff.1 h
  unfold cnrlSize at h1
  obtain ⟨o, h0, h1⟩ := bind_ok_iff.1 h1
  have u0 := u32_iff.1 h0
  have u1 := u32_iff.1 h1
  have p0 : i.cnrlOffset = pure o := u32_pure u0
  obtain ⟨cf, h2, h⟩ := bind_ok_iff.1 h
  unfold cnrlFlags at h2
  rw [p0, pure_bind] at h2
  have u2 := u32_iff.1 h2
  have p2 : i.cnrlFlags = pure cf := by unfold cnrlFlags; rw [p0, pure_bind, u32_pure u2]
  obtain ⟨no, h3, h⟩ := bind_ok_iff.1 h
  unfold netNameOffset at h3
  rw [p0, pure_bind] at h3
  have u3 := u32_iff.1 h3
  have p3 : i.netNameOffset = pure no := by unfold netNameOffset; rw [p0, pure_bind, u32_pure u3]
  obtain ⟨dno, h4, h⟩ := bind_ok_iff.1 h
  unfold deviceNameOffset at h4
  rw [p0, pure_bind] at h4
  have u4' := u32_iff.1 h4
  have p4 : i.deviceNameOffset = pure dno := by unfold deviceNameOffset; rw [p0, pure_bind, u32_pure u4']
  obtain ⟨rp, h5, h⟩ := bind_ok_iff.1 h
  unfold rNetworkProviderType at h5
  rw [p0, pure_bind] at h5
  obtain ⟨pt, h5, h5'⟩ := bind_ok_iff.1 h5
  have u5 := u32_iff.1 h5
  have p5 : i.rNetworkProviderType = pure (pyHex pt) := by unfold rNetworkProviderType; rw [p0, pure_bind, u32_pure u5, pure_bind]
  have p6 : i.networkProviderType = pure (if cf.testBit 1 then reportedProvider pt else none) := by
    unfold networkProviderType
    rw [p2, pure_bind, p5, pure_bind, provider_lookup]
    have := and_two_pow_ne_zero cf 1
    by_cases hb : cf.testBit 1 = true
    · rw [if_pos hb, if_neg]
      rw [hb] at this
      simpa using this
    · rw [if_neg hb, if_pos]
      rw [Bool.eq_false_iff.2 hb] at this
      simpa using this
  obtain ⟨p, h6, h⟩ := bind_ok_iff.1 h
  rw [p6] at h6
  obtain rfl := Except.ok.inj h6
  obtain ⟨e1, h7, h⟩ := bind_ok_iff.1 h
  obtain ⟨nu, h8, h⟩ := bind_ok_iff.1 h
  obtain ⟨e2, h9, h⟩ := bind_ok_iff.1 h
  obtain ⟨du, h10, h⟩ := bind_ok_iff.1 h
  obtain ⟨e3, h11, h⟩ := bind_ok_iff.1 h
  obtain ⟨nn, h12, h⟩ := bind_ok_iff.1 h
  obtain ⟨e4, h13, h⟩ := bind_ok_iff.1 h
  obtain ⟨dn, h14, h⟩ := bind_ok_iff.1 h
  obtain ⟨e5, h15, h⟩ := bind_ok_iff.1 h
  rw [← Except.ok.inj h, u4_eq u0]
  clear h
  have hnum : Fits ([("common_network_relative_link_size", .nat cs), ("common_network_relative_link_flags", .nat cf),
      ("net_name_offset", .nat no), ("device_name_offset", .nat dno), ("r_network_provider_type", .str rp)] ++ e1)
      (networkNumbers i.raw o) := by
    unfold networkNumbers
    refine fits_append ?_ ?_
    · refine ⟨rfl, ⟨_, u1, rfl⟩, rfl, ⟨_, u2, rfl⟩, rfl, ⟨_, u3, rfl⟩, rfl, ⟨_, u4', rfl⟩, rfl, ⟨_, u5, ?_⟩, trivial⟩
      rw [← Except.ok.inj h5', pyHex_eq]
    · rw [u4_eq u2, u4_eq u5]
      rw [p6] at h7
      generalize (if cf.testBit 1 then reportedProvider pt else none) = q at h7 ⊢
      cases q with
      | none => rw [← Except.ok.inj h7]; trivial
      | some name =>
        simp only [entryIf, Option.isSome_some, if_true, pure_bind] at h7
        rw [← Except.ok.inj h7]
        exact ⟨rfl, rfl, trivial⟩
  unfold NetworkReport
  rw [u4_eq u3, u4_eq u4']
  by_cases hno : 0x14 < no
  · rw [if_pos hno]
    unfold netName at h12
    rw [p3, pure_bind, if_pos hno] at h12
    obtain rfl := Except.ok.inj h12
    obtain rfl := Except.ok.inj h13
    unfold deviceName at h14
    rw [p3, pure_bind, if_pos hno] at h14
    obtain rfl := Except.ok.inj h14
    obtain rfl := Except.ok.inj h15
    unfold netNameOffsetUnicode at h8
    rw [p3, pure_bind, if_neg (by omega), p0, pure_bind] at h8
    obtain ⟨m, h8, h8'⟩ := bind_ok_iff.1 h8
    have u8 := u32_iff.1 h8
    obtain rfl := Except.ok.inj h8'
    have p8 : i.netNameOffsetUnicode = pure (some m) := by
      unfold netNameOffsetUnicode
      rw [p3, pure_bind, if_neg (by omega), p0, pure_bind, u32_pure u8, pure_bind]
    unfold deviceNameOffsetUnicode at h10
    rw [p3, pure_bind, if_neg (by omega), p0, pure_bind] at h10
    obtain ⟨m', h10, h10'⟩ := bind_ok_iff.1 h10
    have u10 := u32_iff.1 h10
    obtain rfl := Except.ok.inj h10'
    have p10 : i.deviceNameOffsetUnicode = pure (some m') := by
      unfold deviceNameOffsetUnicode
      rw [p3, pure_bind, if_neg (by omega), p0, pure_bind, u32_pure u10, pure_bind]
    rw [u4_eq u8, u4_eq u10, List.append_nil, List.append_nil]
    refine fits_append (fits_append hnum ?_) ?_
    · by_cases hm : m = 0
      · rw [if_pos hm]
        simp only [truthyNat, hm, entryIf] at h9
        rw [← Except.ok.inj h9]; trivial
      · rw [if_neg hm]
        have ht : truthyNat (some m) = true := by simp [truthyNat, hm]
        rw [ht] at h9
        unfold entryIf netNameUnicode at h9
        rw [if_pos rfl, p8, pure_bind, p3, pure_bind, if_neg (by omega), p0, pure_bind, pure_bind] at h9
        obtain ⟨x, h16, h9⟩ := bind_ok_iff.1 h9
        obtain ⟨s, hs, h16⟩ := bind_ok_iff.1 h16
        rw [← Except.ok.inj h9, ← Except.ok.inj h16]
        exact ⟨rfl, ⟨_, u8, rfl⟩, rfl, wide hs, trivial⟩
    · by_cases hm : m' = 0
      · rw [if_pos hm]
        simp only [truthyNat, hm, entryIf] at h11
        rw [← Except.ok.inj h11]; trivial
      · rw [if_neg hm]
        have ht : truthyNat (some m') = true := by simp [truthyNat, hm]
        rw [ht] at h11
        unfold entryIf deviceNameUnicode at h11
        rw [if_pos rfl, p10, pure_bind, p3, pure_bind, if_neg (by omega), p0, pure_bind, pure_bind] at h11
        obtain ⟨x, h16, h11⟩ := bind_ok_iff.1 h11
        obtain ⟨s, hs, h16⟩ := bind_ok_iff.1 h16
        rw [← Except.ok.inj h11, ← Except.ok.inj h16]
        exact ⟨rfl, ⟨_, u10, rfl⟩, rfl, wide hs, trivial⟩
  · rw [if_neg hno]
    unfold netNameOffsetUnicode at h8
    rw [p3, pure_bind, if_pos (by omega)] at h8
    obtain rfl := Except.ok.inj h8
    obtain rfl := Except.ok.inj h9
    unfold deviceNameOffsetUnicode at h10
    rw [p3, pure_bind, if_pos (by omega)] at h10
    obtain rfl := Except.ok.inj h10
    obtain rfl := Except.ok.inj h11
    have h12' := h12
    unfold netName at h12'
    rw [p3, pure_bind, if_neg hno, p0, pure_bind] at h12'
    obtain ⟨name, hname, h12'⟩ := bind_ok_iff.1 h12'
    have h14' := h14
    unfold deviceName at h14'
    rw [p3, pure_bind, if_neg hno, p0, pure_bind, p4, pure_bind] at h14'
    obtain ⟨device, hdevice, h14'⟩ := bind_ok_iff.1 h14'
    obtain rfl := Except.ok.inj h12'
    obtain rfl := Except.ok.inj h14'
    refine ⟨name, device, narrowText hname, narrowText hdevice, ?_⟩
    rw [List.append_nil, List.append_nil]
    refine fits_append (fits_append hnum ?_) ?_
    · by_cases hn : name = []
      · rw [if_pos hn]
        simp only [truthyStr, hn, entryIf] at h13
        rw [← Except.ok.inj h13]; trivial
      · rw [if_neg hn]
        have ht : truthyStr (some name) = true := by simp [truthyStr, hn]
        rw [ht] at h13
        unfold entryIf at h13
        rw [if_pos rfl] at h13
        obtain ⟨x, h16, h13⟩ := bind_ok_iff.1 h13
        rw [h12] at h16
        rw [← Except.ok.inj h13, ← Except.ok.inj h16]
        exact ⟨rfl, rfl, trivial⟩
    · by_cases hn : device = []
      · rw [if_pos hn]
        simp only [truthyStr, hn, entryIf] at h15
        rw [← Except.ok.inj h15]; trivial
      · rw [if_neg hn]
        have ht : truthyStr (some device) = true := by simp [truthyStr, hn]
        rw [ht] at h15
        unfold entryIf at h15
        rw [if_pos rfl] at h15
        obtain ⟨x, h16, h15⟩ := bind_ok_iff.1 h15
        rw [h14] at h16
        rw [← Except.ok.inj h15, ← Except.ok.inj h16]
        exact ⟨rfl, rfl, trivial⟩

theorem info_values {f : LnkFile} {cls : InfoClass} {i : LnkInfo} {d : Dict} (hf : f.info = some (cls, i)) (h : f.jsonInfo.res = .ok d) :
    Fits d (infoEntries i.tp i.raw (locationName cls)) := by
  unfold jsonInfo at h
  rw [hf] at h
  dsimp only at h
  obtain ⟨s, h1, h⟩ := bind_ok_iff.1 h
  obtain ⟨hs, h2, h⟩ := bind_ok_iff.1 h
  obtain ⟨fl, h3, h⟩ := bind_ok_iff.1 h
  obtain ⟨vo, h4, h⟩ := bind_ok_iff.1 h
  obtain ⟨lo, h5, h⟩ := bind_ok_iff.1 h
  obtain ⟨co, h6, h⟩ := bind_ok_iff.1 h
  obtain ⟨po, h7, h⟩ := bind_ok_iff.1 h
  have u1 := u32_iff.1 h1
  have u2 := u32_iff.1 h2
  have u3 := u32_iff.1 h3
  have u4' := u32_iff.1 h4
  have u5 := u32_iff.1 h5
  have u6 := u32_iff.1 h6
  have u7 := u32_iff.1 h7
  have p5 : i.localBasePathOffset = pure lo := u32_pure u5
  have p7 : i.commonPathSuffixOffset = pure po := u32_pure u7
  have ph : i.hasOptFields = pure (decide (hs ≥ 0x24)) := by
    unfold hasOptFields LnkInfo.headerSize; rw [u32_pure u2, pure_bind]
  obtain ⟨e1, h8, h⟩ := bind_ok_iff.1 h
  obtain ⟨e2, h9, h⟩ := bind_ok_iff.1 h
  obtain ⟨lu, h10, h⟩ := bind_ok_iff.1 h
  obtain ⟨e3, h11, h⟩ := bind_ok_iff.1 h
  obtain ⟨cu, h12, h⟩ := bind_ok_iff.1 h
  obtain ⟨e4, h13, h⟩ := bind_ok_iff.1 h
  obtain ⟨li, h14, h⟩ : ∃ li, (match cls with
      | .local => jsonLocal i
      | .network => jsonNetwork i).res = .ok li ∧
    [("link_info_size", .nat s), ("link_info_header_size", .nat hs), ("link_info_flags", .nat fl),
      ("volume_id_offset", .nat vo), ("local_base_path_offset", .nat lo),
      ("common_network_relative_link_offset", .nat co), ("common_path_suffix_offset", .nat po)]
      ++ e1 ++ e2 ++ e3 ++ e4 ++ [("location_info", .dict li), ("location", .lit (locationName cls))] = d := by
    cases cls <;>
    · obtain ⟨li, a, b⟩ := bind_ok_iff.1 h
      exact ⟨li, a, Except.ok.inj b⟩
  rw [← h]
  clear h
  unfold infoEntries
  rw [u4_eq u5, u4_eq u7, u4_eq u2]
  refine fits_append (fits_append (fits_append (fits_append (fits_append ?_ ?_) ?_) ?_) ?_) ?_
  · exact ⟨rfl, ⟨_, u1, rfl⟩, rfl, ⟨_, u2, rfl⟩, rfl, ⟨_, u3, rfl⟩, rfl, ⟨_, u4', rfl⟩, rfl, ⟨_, u5, rfl⟩, rfl, ⟨_, u6, rfl⟩, rfl,
      ⟨_, u7, rfl⟩, trivial⟩
  · by_cases h0 : lo = 0
    · rw [if_pos h0]
      subst h0
      rw [← Except.ok.inj h8]; trivial
    · rw [if_neg h0]
      unfold entryIf localBasePath at h8
      rw [if_pos (by simpa using h0), p5, pure_bind, if_neg h0] at h8
      obtain ⟨x, h8, h8'⟩ := bind_ok_iff.1 h8
      obtain ⟨t, ht, h8⟩ := bind_ok_iff.1 h8
      rw [← Except.ok.inj h8', ← Except.ok.inj h8]
      exact ⟨rfl, narrow ht, trivial⟩
  · by_cases h0 : po = 0
    · rw [if_pos h0]
      subst h0
      rw [← Except.ok.inj h9]; trivial
    · rw [if_neg h0]
      unfold entryIf commonPathSuffix at h9
      rw [if_pos (by simpa using h0), p7, pure_bind, if_neg h0] at h9
      obtain ⟨x, h9, h9'⟩ := bind_ok_iff.1 h9
      obtain ⟨t, ht, h9⟩ := bind_ok_iff.1 h9
      rw [← Except.ok.inj h9', ← Except.ok.inj h9]
      exact ⟨rfl, narrow ht, trivial⟩
  · unfold localBasePathOffsetUnicode at h10
    rw [ph, pure_bind] at h10
    by_cases hl : hs < 0x24
    · rw [if_neg (by simpa using hl)] at h10
      obtain rfl := Except.ok.inj h10
      rw [if_pos (.inl hl), ← Except.ok.inj h11]; trivial
    · rw [if_pos (by simpa using hl)] at h10
      obtain ⟨m, h10, h10'⟩ := bind_ok_iff.1 h10
      have u10 := u32_iff.1 h10
      obtain rfl := Except.ok.inj h10'
      have p10 : i.localBasePathOffsetUnicode = pure (some m) := by
        unfold localBasePathOffsetUnicode
        rw [ph, pure_bind, if_pos (by simpa using hl), u32_pure u10, pure_bind]
      rw [u4_eq u10]
      cases m with
      | zero => rw [if_pos (.inr rfl), ← Except.ok.inj h11]; trivial
      | succ m =>
        rw [if_neg (by omega)]
        unfold entryIf localBasePathUnicode at h11
        rw [if_pos (by simp [truthyNat]), p10, pure_bind, pure_bind] at h11
        obtain ⟨x, h11, h11'⟩ := bind_ok_iff.1 h11
        obtain ⟨t, ht, h11⟩ := bind_ok_iff.1 h11
        rw [← Except.ok.inj h11', ← Except.ok.inj h11]
        exact ⟨rfl, ⟨_, u10, rfl⟩, rfl, wide ht, trivial⟩
  · unfold commonPathSuffixOffsetUnicode at h12
    rw [ph, pure_bind] at h12
    by_cases hl : hs < 0x24
    · rw [if_neg (by simpa using hl)] at h12
      obtain rfl := Except.ok.inj h12
      rw [if_pos (.inl hl), ← Except.ok.inj h13]; trivial
    · rw [if_pos (by simpa using hl)] at h12
      obtain ⟨m, h12, h12'⟩ := bind_ok_iff.1 h12
      have u12 := u32_iff.1 h12
      obtain rfl := Except.ok.inj h12'
      have p12 : i.commonPathSuffixOffsetUnicode = pure (some m) := by
        unfold commonPathSuffixOffsetUnicode
        rw [ph, pure_bind, if_pos (by simpa using hl), u32_pure u12, pure_bind]
      rw [u4_eq u12]
      cases m with
      | zero => rw [if_pos (.inr rfl), ← Except.ok.inj h13]; trivial
      | succ m =>
        rw [if_neg (by omega)]
        unfold entryIf commonPathSuffixUnicode at h13
        rw [if_pos (by simp [truthyNat]), p12, pure_bind, pure_bind] at h13
        obtain ⟨x, h13, h13'⟩ := bind_ok_iff.1 h13
        obtain ⟨t, ht, h13⟩ := bind_ok_iff.1 h13
        rw [← Except.ok.inj h13', ← Except.ok.inj h13]
        exact ⟨rfl, ⟨_, u12, rfl⟩, rfl, wide ht, trivial⟩
  · refine ⟨rfl, ⟨li, rfl, ?_⟩, rfl, rfl, trivial⟩
    cases cls with
    | «local» => rw [if_pos (by decide)]; exact local_values h14
    | network => rw [if_neg (by decide)]; exact network_values h14

end Values

end Verif
