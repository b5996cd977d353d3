import Verif.Props.Trailer
import Verif.Props.CutLink

/-
C89: well-formed links are complete files.
-/

namespace Verif.Trailer

open Spec

theorem u4_in {raw : Bytes} {off : Nat} {x : Bytes} (h : HasAt raw off x) (k : Nat) {v : UInt32}
    (hs : slice x k (k + 4) = le 4 v.toNat) : u4 raw (off + k) = v.toNat ∧ off + k + 4 ≤ raw.length := by
  obtain ⟨pre, post, rfl, rfl⟩ := h
  have hl := congrArg List.length hs
  simp only [slice_length, le_length] at hl
  have hx : x = x.take k ++ (le 4 v.toNat ++ x.drop (k + 4)) := by
    rw [← hs, slice, Nat.add_sub_cancel_left, ← List.drop_drop, List.take_append_drop, List.take_append_drop]
  have : uAt 4 (pre ++ x ++ post) (pre.length + k) = some v.toNat := by
    refine Props.CutLink.uAt_parts (Props.CutLink.toNat_lt _) (pre := pre ++ x.take k) (post := x.drop (k + 4) ++ post) ?_ (by simp; omega)
    conv_lhs => rw [hx]
    simp only [List.append_assoc]
  have hle := ExtraData.uAt_some_length this
  refine ⟨?_, hle⟩
  unfold u4
  rw [this]
  rfl

theorem narrow_at {raw : Bytes} {off : Nat} {x : Text} (h : HasAt raw off (x.encodeZ false)) : NarrowEnds raw off := by
  obtain ⟨post, h⟩ := h.drop_eq
  unfold NarrowEnds
  rw [h]
  simp [Text.encodeZ]

theorem wide_at {tp : TextProc} {raw : Bytes} {off : Nat} {x : Text} (hv : x.Valid tp true) (h : HasAt raw off (x.encodeZ true)) :
    WideEnds raw off := by
  obtain ⟨post, h⟩ := h.drop_eq
  obtain ⟨h1, h2⟩ : x.raw = utf16 x.text ∧ '\x00' ∉ x.text := hv
  obtain ⟨us, hus, -⟩ := utf16_units x.text h2
  refine ⟨us, post, ?_⟩
  rw [h, Text.encodeZ, h1, hus, List.append_assoc]
  rfl

theorem info_complete {tp : TextProc} {i : Info} (hv : i.Valid tp) (rest : Bytes) {kind : String}
    (hk : kind = match i.location with | .volume _ => "Local" | .network _ => "Network") : InfoComplete (i.raw ++ rest) kind := by
  have hh := hv.parts.header.append rest
  have u16 := u4_in hh 16 (v := i.header.localBasePathOffset) (by unfold InfoHeader.encode; slices)
  have u24 := u4_in hh 24 (v := i.header.suffixOffset) (by unfold InfoHeader.encode; slices)
  have u12 := u4_in hh 12 (v := i.header.volumeIdOffset) (by unfold InfoHeader.encode; slices)
  have u20 := u4_in hh 20 (v := i.header.networkOffset) (by unfold InfoHeader.encode; slices)
  have u4_ := u4_in hh 4 (v := i.header.headerSize) (by unfold InfoHeader.encode; slices)
  simp only [Nat.zero_add] at u16 u24 u12 u20 u4_
  refine ⟨by omega, fun h0 => ?_, fun h0 => ?_, fun h36 => ?_, ?_⟩
  · rw [u16.1] at h0 ⊢
    have := hv.parts.base
    unfold TextAt at this
    rw [if_neg h0] at this
    obtain ⟨x, -, -, hx⟩ := this
    exact narrow_at (hx.append rest)
  · rw [u24.1] at h0 ⊢
    have := hv.parts.suffix
    unfold TextAt at this
    rw [if_neg h0] at this
    obtain ⟨x, -, -, hx⟩ := this
    exact narrow_at (hx.append rest)
  · rw [u4_.1] at h36
    have hw := hv.parts.valid
    unfold InfoHeader.Valid at hw
    rw [decide_eq_true h36] at hw
    obtain ⟨⟨a, b⟩, hab⟩ := Option.isSome_iff_exists.1 hw
    have u28 := u4_in hh 28 (v := a) (by unfold InfoHeader.encode; rw [hab]; slices)
    have u32 := u4_in hh 32 (v := b) (by unfold InfoHeader.encode; rw [hab]; slices)
    simp only [Nat.zero_add] at u28 u32
    refine ⟨by omega, fun h0 => ?_, fun h0 => ?_⟩
    · rw [u28.1] at h0 ⊢
      have := hv.parts.wideBase
      unfold TextAt at this
      rw [hab] at this
      simp only [Option.map_some, Option.getD_some] at this
      rw [if_neg h0] at this
      obtain ⟨x, -, hx', hx⟩ := this
      exact wide_at hx' (hx.append rest)
    · rw [u32.1] at h0 ⊢
      have := hv.parts.wideSuffix
      unfold TextAt at this
      rw [hab] at this
      simp only [Option.map_some, Option.getD_some] at this
      rw [if_neg h0] at this
      obtain ⟨x, -, hx', hx⟩ := this
      exact wide_at hx' (hx.append rest)
  · have hloc := hv.location
    rcases hl : i.location with v | n
    · rw [hl] at hloc hk
      simp only at hk
      subst hk
      rw [if_pos rfl, u12.1]
      obtain ⟨-, hV⟩ := hloc
      have hhere := hV.here.append rest
      have v12 := u4_in hhere 12 (v := v.labelOffset) (by unfold Volume.encode; slices)
      refine ⟨by omega, ?_⟩
      rw [v12.1]
      have hwide := hV.wide
      have hlab := hV.label
      have hval := hV.valid
      by_cases h14 : v.labelOffset.toNat = 0x14
      · rw [if_pos h14]
        rw [decide_eq_true h14] at hwide
        obtain ⟨o, ho⟩ := Option.isSome_iff_exists.1 hwide
        have v16 := u4_in hhere 16 (v := o) (by unfold Volume.encode; rw [ho]; slices)
        refine ⟨by omega, fun _ => ?_⟩
        rw [v16.1]
        rw [ho] at hlab hval
        exact wide_at hval (hlab.append rest)
      · rw [if_neg h14]
        rw [decide_eq_false h14] at hwide
        have ho : v.wideLabelOffset = none := by simpa using hwide
        rw [ho] at hlab
        exact narrow_at (hlab.append rest)
    · rw [hl] at hloc hk
      simp only at hk
      subst hk
      rw [if_neg (by decide), u20.1]
      obtain ⟨-, -, hN⟩ := hloc
      have hhere := hN.here.append rest
      have n8 := u4_in hhere 8 (v := n.netNameOffset) (by unfold NetLink.encode; slices)
      have n12 := u4_in hhere 12 (v := n.deviceNameOffset) (by unfold NetLink.encode; slices)
      have n16 := u4_in hhere 16 (v := n.provider) (by unfold NetLink.encode; slices)
      refine ⟨by omega, ?_⟩
      rw [n8.1, n12.1]
      have hwide := hN.wide
      have hnames := hN.names
      by_cases h14 : 0x14 < n.netNameOffset.toNat
      · rw [if_pos h14]
        rw [decide_eq_true h14] at hwide
        obtain ⟨⟨a, b⟩, hab⟩ := Option.isSome_iff_exists.1 hwide
        have n20 := u4_in hhere 20 (v := a) (by unfold NetLink.encode; rw [hab]; slices)
        have n24 := u4_in hhere 24 (v := b) (by unfold NetLink.encode; rw [hab]; slices)
        rw [hab] at hnames
        refine ⟨by omega, fun h0 => ?_, fun h0 => ?_⟩
        · rw [n20.1] at h0 ⊢
          have := hnames.1
          unfold WideNameAt at this
          rw [if_neg h0] at this
          obtain ⟨x, -, hx', hx⟩ := this
          exact wide_at hx' (hx.append rest)
        · rw [n24.1] at h0 ⊢
          have := hnames.2
          unfold WideNameAt at this
          rw [if_neg h0] at this
          obtain ⟨x, -, hx', hx⟩ := this
          exact wide_at hx' (hx.append rest)
      · rw [if_neg h14]
        rw [decide_eq_false h14] at hwide
        have hn : n.wide = none := by simpa using hwide
        rw [hn] at hnames
        obtain ⟨⟨x, -, -, hx⟩, ⟨y, -, -, hy⟩⟩ := hnames
        exact ⟨narrow_at (hx.append rest), narrow_at (hy.append rest)⟩

end Verif.Trailer

namespace Verif.Props

open Spec Log Trailer

/-- C89: a well-formed link is a complete file and ends with its terminal block. -/
theorem link_complete (env : Env) (cp : Option String) (ht : Tame (TextProc.mk' env cp)) (s : ShellLink)
    (hv : s.Valid (TextProc.mk' env cp)) : ∃ L l, Complete s.encode L l (le 4 0) := by
  obtain ⟨f, hf, hB⟩ := process_link env cp false s hv []
  rw [List.append_nil] at hf
  obtain ⟨L, l, last, hL, hc, hP, -⟩ := LnkFile.parts_tame ht (b := s.encode) (f := f) (by rw [hf]; rfl)
  have hlen : s.encode.length = (head s).length + (s.strings.encode (s.flags.testBit 7)).length + s.encodeBlocks.length + 4 := by
    rw [ShellLink.encode, head]
    simp
    omega
  have hhead : (head s).length = 76 + s.encodeTarget.length + s.encodeInfo.length := by
    rw [head]
    simp
    omega
  have htgt : s.flags.testBit 0 = true → 2 ≤ s.encodeTarget.length := by
    intro hb
    have := hv.hasItems
    rw [hb] at this
    obtain ⟨items, hit⟩ := Option.isSome_iff_exists.1 this
    simp only [ShellLink.encodeTarget, hit, encodeIdList, List.length_append, le_length]
    omega
  obtain ⟨L', hL', h76, hfl, hat, hst, -⟩ := cut_layout hv (n := s.encode.length) (by omega) (fun hb => by have := htgt hb; omega)
  rw [List.take_length] at hL' hst
  rw [hL] at hL'
  cases hL'
  have hinfo : ∀ i, s.info = some i → infoAnnounced s.flags = true ∧
      infoLocation s.encode L.infoAt = some (match i.location with | .volume _ => "Local" | .network _ => "Network") ∧
      (uAt 4 s.encode L.infoAt).getD 0 = i.raw.length ∧ 28 ≤ i.raw.length := by
    intro i hi
    obtain ⟨h28, u0, -, u8⟩ := info_at hv hi
    rw [← hat] at u0 u8
    have hann := hv.hasInfo
    rw [hi] at hann
    refine ⟨hann.symm, ?_, by rw [u0]; rfl, h28⟩
    unfold infoLocation
    rw [u8]
    have := (hv.info i hi).location
    rcases hloc : i.location with v | w
    · rw [hloc] at this
      simp [this.1]
    · rw [hloc] at this
      simp [this.1, this.2.1]
  have hnone : s.info = none → infoAnnounced s.flags = false := by
    intro hi
    have := hv.hasInfo
    rw [hi] at this
    exact this.symm
  have hstr : L.stringsAt = (head s).length := by
    rw [hst, hhead, hat]
    rcases hi : s.info with _ | i
    · rw [hnone hi]
      simp [ShellLink.encodeInfo, hi]
    · obtain ⟨h1, h2, h3, -⟩ := hinfo i hi
      rw [← hat, h1, h2, h3]
      simp [ShellLink.encodeInfo, hi]
  have hdrop : s.encode.drop L.stringsAt = s.strings.encode (s.flags.testBit 7) ++ (s.encodeBlocks ++ le 4 0) := by
    rw [hstr, show s.encode = head s ++ (s.strings.encode (s.flags.testBit 7) ++ (s.encodeBlocks ++ le 4 0)) by
      rw [ShellLink.encode, head]; simp only [List.append_assoc], drop_append_exact rfl]
  have hsd := hP.strings
  rw [hdrop, string_data_roundtrip f.header _ s.flags (flags_of_header hB.header) s.strings ⟨hv.announced, hv.strings⟩] at hsd
  have hsize := congrArg StringData.size (Except.ok.inj hsd)
  have hex : L.extraAt = (head s).length + (s.strings.encode (s.flags.testBit 7)).length := by
    have := hP.stringsEnd
    rw [← hsize, hstr] at this
    exact this.symm
  have hE : s.encode.drop L.extraAt = s.encodeBlocks ++ le 4 0 := by
    rw [hex, ← hstr, ← List.drop_drop, hdrop, drop_append_exact rfl]
  have hfit : ∀ r ∈ rawBlocks s, r.Fits := by
    intro r hr
    obtain ⟨b, hb, rfl⟩ := List.mem_map.1 hr
    exact (hv.blocks b hb).2
  refine ⟨L, (rawBlocks s).map ExtraData.pieceOf ++ [], hL, ?_, Nat.le_refl 4, ?_, fun hann => ?_⟩
  · rw [hE, encodeBlocks_eq]
    exact ExtraData.cut_raw _ hfit (ExtraData.cut_stops (.inl ⟨[], rfl⟩))
  · intro p hp
    rw [List.append_nil] at hp
    obtain ⟨r, -, rfl⟩ := List.mem_map.1 hp
    rfl
  · rw [hfl] at hann
    rcases hi : s.info with _ | i
    · rw [hnone hi] at hann
      cases hann
    · obtain ⟨h1, h2, h3, h28⟩ := hinfo i hi
      have hil : s.encodeInfo = i.raw := by simp [ShellLink.encodeInfo, hi]
      refine ⟨by rw [hil] at hhead; omega, fun kind hk => ?_⟩
      rw [h2] at hk
      have : s.encode.drop L.infoAt = i.raw ++ (s.strings.encode (s.flags.testBit 7) ++ (s.encodeBlocks ++ le 4 0)) := by
        rw [hat, show s.encode = (s.header.encode ++ s.encodeTarget) ++ (i.raw ++ (s.strings.encode (s.flags.testBit 7) ++
          (s.encodeBlocks ++ le 4 0))) by rw [ShellLink.encode, hil]; simp only [List.append_assoc],
          drop_append_exact (by simp)]
      rw [this]
      exact info_complete (hv.info i hi) _ (Option.some.inj hk).symm

/-- The link of the other examples. -/
example (env : Env) : ∃ L l, Complete exampleLink.encode L l (le 4 0) :=
  link_complete env none (tame_usable (usable_default env)) exampleLink (exampleLink_valid env)

end Verif.Props
