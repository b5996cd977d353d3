import Verif.Lemmas.Hidden
import Verif.Spec.Gaps

/-
Bytes of a link info that are not looked at.
-/

namespace Verif

open Spec Py

namespace Gaps

variable {i i' : Bytes}

theorem slice_within {s e off n : Nat} (h : slice i s e = slice i' s e) (hs : s ≤ off) (he : off + n ≤ e) :
    slice i off (off + n) = slice i' off (off + n) := by
  have key : ∀ x : Bytes, slice x off (off + n) = ((slice x s e).drop (off - s)).take n := by
    intro x
    unfold slice
    rw [List.drop_take, List.drop_drop, List.take_take, Nat.add_sub_cancel_left, Nat.add_sub_cancel' hs, Nat.min_eq_left (by omega)]
  rw [key, key, h]

theorem u32_same (tp : TextProc) {s e off : Nat} (h : slice i s e = slice i' s e) (hs : s ≤ off) (he : off + 4 ≤ e) :
    LnkInfo.u32 ⟨tp, i'⟩ off = LnkInfo.u32 ⟨tp, i⟩ off := by
  unfold LnkInfo.u32
  rw [slice_within h hs he]

theorem u32_cases (tp : TextProc) (i : Bytes) (off : Nat) : LnkInfo.u32 ⟨tp, i⟩ off = pure (u4 i off) ∨
    LnkInfo.u32 ⟨tp, i⟩ off = Py.raise .structError := by
  by_cases h : off + 4 ≤ i.length
  · exact .inl (Trailer.u32_at tp [] h).1
  · right
    have hl : (slice i off (off + 4)).length ≠ 4 := by
      simp only [slice, List.length_take, List.length_drop]
      omega
    unfold LnkInfo.u32 unpackU
    rw [if_neg hl]

theorem narrow_same (tp : TextProc) {x y : Bytes} (hl : x.length = y.length) (h : x.take (narrowLength x) = y.take (narrowLength x)) :
    tp.readString y = tp.readString x := by
  unfold narrowLength at h
  rcases nul_cases x with h0 | ⟨a, rest, h0, rfl⟩
  · have hx : x.takeWhile (fun b => decide (b ≠ 0)) = x := Values.takeWhile_all h0
    rw [hx, List.take_of_length_le (by omega), List.take_of_length_le (by omega)] at h
    rw [h]
  · have hx : (a ++ 0 :: rest).takeWhile (fun b => decide (b ≠ 0)) = a := Values.takeWhile_zero h0 rest
    rw [hx, show a ++ 0 :: rest = (a ++ [0]) ++ rest by simp, List.take_left' (by simp)] at h
    have hy : y = a ++ 0 :: y.drop (a.length + 1) := by
      conv_lhs => rw [← List.take_append_drop (a.length + 1) y, ← h]
      simp
    rw [hy, readString_cons _ _ h0, readString_cons _ _ h0]

theorem pairs_same : ∀ {x y : Bytes}, x.length = y.length → x.take (wideLength x) = y.take (wideLength x) →
    (TextProc.twoBytesEach y).takeWhile (· ≠ [0, 0]) = (TextProc.twoBytesEach x).takeWhile (· ≠ [0, 0])
  | [], y, hl, _ => by
    have : y = [] := List.length_eq_zero_iff.1 hl.symm
    rw [this]
  | [a], y, hl, h => by
    have : y = [a] := by
      have e := h
      rw [show wideLength [a] = 1 from rfl, List.take_of_length_le (by simp), List.take_of_length_le (by rw [← hl]; simp)] at e
      exact e.symm
    rw [this]
  | a :: b :: x, [], hl, _ => by simp at hl
  | a :: b :: x, [c], hl, _ => by simp at hl
  | a :: b :: x, c :: d :: y, hl, h => by
    have hl' : x.length = y.length := by simpa using hl
    unfold TextProc.twoBytesEach
    rw [wideLength] at h
    split at h
    · rename_i h0
      obtain ⟨rfl, rfl⟩ := h0
      simp only [List.take_succ_cons, List.cons.injEq] at h
      obtain ⟨rfl, rfl, -⟩ := h
      simp
    · rename_i h0
      rw [Nat.add_comm] at h
      simp only [List.take_succ_cons, List.cons.injEq] at h
      obtain ⟨rfl, rfl, h⟩ := h
      rw [List.takeWhile_cons, List.takeWhile_cons, pairs_same hl' h]

theorem wide_same {x y : Bytes} (hl : x.length = y.length) (h : x.take (wideLength x) = y.take (wideLength x)) :
    TextProc.readUnicodeString y = TextProc.readUnicodeString x := by
  rw [readUnicodeString_eq, readUnicodeString_eq, pairs_same hl h]

theorem narrow_at (tp : TextProc) {off : Nat} (hl : i.length = i'.length)
    (h : slice i (narrowAt i off).1 (narrowAt i off).2 = slice i' (narrowAt i off).1 (narrowAt i off).2) :
    tp.readString (i'.drop off) = tp.readString (i.drop off) := by
  refine narrow_same tp (by simp [hl]) ?_
  unfold narrowAt slice at h
  simpa using h

theorem wide_at {off : Nat} (hl : i.length = i'.length)
    (h : slice i (wideAt i off).1 (wideAt i off).2 = slice i' (wideAt i off).1 (wideAt i off).2) :
    TextProc.readUnicodeString (i'.drop off) = TextProc.readUnicodeString (i.drop off) := by
  refine wide_same (by simp [hl]) ?_
  unfold wideAt slice at h
  simpa using h

theorem local_gap (tp : TextProc) (hl : i.length = i'.length) {o : Nat} (hv : LnkInfo.u32 ⟨tp, i⟩ 12 = pure o) (hv' : LnkInfo.u32 ⟨tp, i'⟩ 12 = pure o)
    (hu : ∀ r ∈ volumeUsed i o, slice i r.1 r.2 = slice i' r.1 r.2) : LnkFile.jsonLocal ⟨tp, i'⟩ = LnkFile.jsonLocal ⟨tp, i⟩ := by
  have h0 := hu (o, o + 16) (by simp [volumeUsed])
  have e1 := u32_same tp h0 (off := o) (by omega) (by omega)
  have e2 := u32_same tp h0 (off := o + 4) (by omega) (by omega)
  have e3 := u32_same tp h0 (off := o + 8) (by omega) (by omega)
  have e4 := u32_same tp h0 (off := o + 12) (by omega) (by omega)
  unfold LnkFile.jsonLocal LnkInfo.volumeIdSize LnkInfo.driveSerialNumber LnkInfo.driveType LnkInfo.rDriveType LnkInfo.volumeLabel
    LnkInfo.volumeLabelUnicode LnkInfo.volumeLabelUnicodeOffset LnkInfo.hasVolumeLabelOffsetUnicode LnkInfo.volumeLabelOffset
    LnkInfo.volumeIdOffset
  simp only [hv, hv', e1, e2, e3, e4, pure_bind]
  rcases u32_cases tp i (o + 12) with a | a
  swap
  · simp only [a, raise_bind]
  simp only [a, pure_bind]
  by_cases h14 : u4 i (o + 12) = 0x14
  · have h1 := hu (o + 16, o + 20) (by simp [volumeUsed, h14])
    have e5 := u32_same tp h1 (off := o + 16) (by omega) (by omega)
    simp only [h14, e5, decide_true, if_true, pure_bind]
    rcases u32_cases tp i (o + 16) with c | c
    swap
    · simp only [c, raise_bind]
    simp only [c, pure_bind]
    by_cases hz : u4 i (o + 16) = 0
    · simp only [hz, pure_bind]
    · have := wide_at hl (hu _ (by simp only [volumeUsed, h14, if_true, if_neg hz]; exact .tail _ (.tail _ (.head _))))
      obtain ⟨k, hk⟩ := Nat.exists_eq_succ_of_ne_zero hz
      rw [hk] at this ⊢
      simp only [this]
  · have := narrow_at tp hl (hu _ (by simp only [volumeUsed, if_neg h14]; exact .tail _ (.head _)))
    simp only [h14, decide_false, Bool.false_eq_true, if_false, pure_bind, this]

theorem network_gap (tp : TextProc) (hl : i.length = i'.length) {o : Nat} (hv : LnkInfo.u32 ⟨tp, i⟩ 20 = pure o) (hv' : LnkInfo.u32 ⟨tp, i'⟩ 20 = pure o)
    (hu : ∀ r ∈ networkUsed i o, slice i r.1 r.2 = slice i' r.1 r.2) : LnkFile.jsonNetwork ⟨tp, i'⟩ = LnkFile.jsonNetwork ⟨tp, i⟩ := by
  have h0 := hu (o, o + 20) (by simp [networkUsed])
  have e1 := u32_same tp h0 (off := o) (by omega) (by omega)
  have e2 := u32_same tp h0 (off := o + 4) (by omega) (by omega)
  have e3 := u32_same tp h0 (off := o + 8) (by omega) (by omega)
  have e4 := u32_same tp h0 (off := o + 12) (by omega) (by omega)
  have e5 := u32_same tp h0 (off := o + 16) (by omega) (by omega)
  unfold LnkFile.jsonNetwork LnkInfo.networkProviderType LnkInfo.netNameUnicode LnkInfo.deviceNameUnicode
    LnkInfo.netNameOffsetUnicode LnkInfo.deviceNameOffsetUnicode LnkInfo.netName LnkInfo.deviceName LnkInfo.rNetworkProviderType
    LnkInfo.cnrlSize LnkInfo.cnrlFlags LnkInfo.netNameOffset LnkInfo.deviceNameOffset LnkInfo.cnrlOffset
  simp only [hv, hv', e1, e2, e3, e4, e5, pure_bind]
  rcases u32_cases tp i (o + 8) with a | a
  swap
  · simp only [a, raise_bind]
  rcases u32_cases tp i (o + 12) with a' | a'
  swap
  · simp only [a, a', pure_bind, raise_bind]
  simp only [a, a', pure_bind]
  by_cases h14 : 0x14 < u4 i (o + 8)
  · have h1 := hu (o + 20, o + 28) (by simp [networkUsed, h14])
    have e6 := u32_same tp h1 (off := o + 20) (by omega) (by omega)
    have e7 := u32_same tp h1 (off := o + 24) (by omega) (by omega)
    simp only [if_neg (Nat.not_le.2 h14), if_pos h14, e6, e7, pure_bind]
    rcases u32_cases tp i (o + 20) with c | c
    swap
    · simp only [c, raise_bind]
    rcases u32_cases tp i (o + 24) with c' | c'
    swap
    · simp only [c, c', pure_bind, raise_bind]
      by_cases hz : u4 i (o + 20) = 0
      · simp [hz, LnkFile.truthyNat, LnkFile.entryIf]
      · have := wide_at hl (hu _ (by simp only [networkUsed, if_pos h14, if_neg hz]; exact .tail _ (.tail _ (.head _))))
        simp only [this]
    simp only [c, c', pure_bind]
    have w1 : u4 i (o + 20) ≠ 0 → TextProc.readUnicodeString (i'.drop (o + u4 i (o + 20))) =
        TextProc.readUnicodeString (i.drop (o + u4 i (o + 20))) := fun hz =>
      wide_at hl (hu _ (by simp only [networkUsed, if_pos h14, if_neg hz]; exact .tail _ (.tail _ (.head _))))
    have w2 : u4 i (o + 24) ≠ 0 → TextProc.readUnicodeString (i'.drop (o + u4 i (o + 24))) =
        TextProc.readUnicodeString (i.drop (o + u4 i (o + 24))) := fun hz =>
      wide_at hl (hu _ (by simp [networkUsed, h14, hz]))
    by_cases z1 : u4 i (o + 20) = 0 <;> by_cases z2 : u4 i (o + 24) = 0
    · simp [z1, z2, LnkFile.truthyNat, LnkFile.entryIf]
    · simp [z1, z2, LnkFile.truthyNat, LnkFile.entryIf, w2 z2]
    · simp [z1, z2, LnkFile.truthyNat, LnkFile.entryIf, w1 z1]
    · simp [z1, z2, LnkFile.truthyNat, LnkFile.entryIf, w1 z1, w2 z2]
  · have w1 := narrow_at tp hl (hu _ (by simp only [networkUsed, if_neg h14]; exact .tail _ (.head _)))
    have w2 := narrow_at tp hl (hu _ (by simp only [networkUsed, if_neg h14]; exact .tail _ (.tail _ (.head _))))
    simp only [if_pos (Nat.le_of_not_lt h14), if_neg h14, pure_bind, w1, w2]

theorem info_gap (tp : TextProc) (hl : i.length = i'.length) {kind : String}
    (hu : ∀ r ∈ infoUsed i kind, slice i r.1 r.2 = slice i' r.1 r.2) (f g : LnkFile)
    (hf : f.info = some (LnkFile.classOf kind, ⟨tp, i⟩)) (hg : g.info = some (LnkFile.classOf kind, ⟨tp, i'⟩)) :
    g.jsonInfo = f.jsonInfo := by
  have h0 := hu (0, 28) (by simp [infoUsed])
  by_cases h28 : 28 ≤ i.length
  swap
  · have : i = i' := by
      unfold slice at h0
      rwa [List.drop_zero, List.drop_zero, List.take_of_length_le (by omega), List.take_of_length_le (by omega)] at h0
    unfold LnkFile.jsonInfo
    rw [hf, hg, this]
  have key : ∀ off, off + 4 ≤ 28 → LnkInfo.u32 ⟨tp, i⟩ off = pure (u4 i off) ∧ LnkInfo.u32 ⟨tp, i'⟩ off = pure (u4 i off) := by
    intro off ho
    have := (Trailer.u32_at tp [] (b := i) (off := off) (by omega)).1
    exact ⟨this, (u32_same tp h0 (by omega) ho).trans this⟩
  obtain ⟨a0, b0⟩ := key 0 (by omega)
  obtain ⟨a1, b1⟩ := key 4 (by omega)
  obtain ⟨a2, b2⟩ := key 8 (by omega)
  obtain ⟨a3, b3⟩ := key 12 (by omega)
  obtain ⟨a4, b4⟩ := key 16 (by omega)
  obtain ⟨a5, b5⟩ := key 20 (by omega)
  obtain ⟨a6, b6⟩ := key 24 (by omega)
  have hloc : (LnkFile.classOf kind = .local → LnkFile.jsonLocal ⟨tp, i'⟩ = LnkFile.jsonLocal ⟨tp, i⟩) ∧
      (LnkFile.classOf kind = .network → LnkFile.jsonNetwork ⟨tp, i'⟩ = LnkFile.jsonNetwork ⟨tp, i⟩) := by
    unfold LnkFile.classOf
    by_cases hk : kind = "Local"
    · rw [if_pos hk]
      exact ⟨fun _ => local_gap tp hl a3 b3 fun r hr => hu r (by simp [infoUsed, hk, hr]), fun h => by cases h⟩
    · rw [if_neg hk]
      exact ⟨fun h => (by cases h), fun _ => network_gap tp hl a5 b5 fun r hr => hu r (by simp [infoUsed, hk, hr])⟩
  have n1 : u4 i 16 ≠ 0 → tp.readString (i'.drop (u4 i 16)) = tp.readString (i.drop (u4 i 16)) := fun h =>
    narrow_at tp hl (hu _ (by simp [infoUsed, h]))
  have n2 : u4 i 24 ≠ 0 → tp.readString (i'.drop (u4 i 24)) = tp.readString (i.drop (u4 i 24)) := fun h =>
    narrow_at tp hl (hu _ (by simp [infoUsed, h]))
  unfold LnkFile.jsonInfo
  rw [hf, hg]
  dsimp only
  have e1 : LnkFile.entryIf (u4 i 16 != 0) (do
      let x ← LnkInfo.localBasePath ⟨tp, i'⟩
      pure [("local_base_path", PyVal.opt .str x)]) = LnkFile.entryIf (u4 i 16 != 0) (do
      let x ← LnkInfo.localBasePath ⟨tp, i⟩
      pure [("local_base_path", PyVal.opt .str x)]) := by
    unfold LnkInfo.localBasePath LnkInfo.localBasePathOffset
    simp only [a4, b4, pure_bind]
    by_cases h0 : u4 i 16 = 0
    · simp [h0]
    · simp only [n1 h0]
  have e2 : LnkFile.entryIf (u4 i 24 != 0) (do
      let x ← LnkInfo.commonPathSuffix ⟨tp, i'⟩
      pure [("common_path_suffix", PyVal.opt .str x)]) = LnkFile.entryIf (u4 i 24 != 0) (do
      let x ← LnkInfo.commonPathSuffix ⟨tp, i⟩
      pure [("common_path_suffix", PyVal.opt .str x)]) := by
    unfold LnkInfo.commonPathSuffix LnkInfo.commonPathSuffixOffset
    simp only [a6, b6, pure_bind]
    by_cases h0 : u4 i 24 = 0
    · simp [h0]
    · simp only [n2 h0]
  have e3 : LnkInfo.localBasePathOffsetUnicode ⟨tp, i'⟩ = LnkInfo.localBasePathOffsetUnicode ⟨tp, i⟩ ∧
      LnkInfo.localBasePathUnicode ⟨tp, i'⟩ = LnkInfo.localBasePathUnicode ⟨tp, i⟩ := by
    unfold LnkInfo.localBasePathUnicode LnkInfo.localBasePathOffsetUnicode LnkInfo.hasOptFields LnkInfo.headerSize
    simp only [a1, b1, pure_bind]
    by_cases h24 : u4 i 4 < 0x24
    · simp [Nat.not_le.2 h24]
    · have h36 := hu (28, 36) (by simp [infoUsed, h24])
      rw [u32_same tp h36 (off := 28) (by omega) (by omega)]
      simp only [Nat.le_of_not_lt h24, decide_true, if_true, true_and]
      rcases u32_cases tp i 28 with c | c
      swap
      · simp only [c, raise_bind]
      simp only [c, pure_bind]
      by_cases h0 : u4 i 28 = 0
      · simp only [h0]
      · have := wide_at hl (hu (wideAt i (u4 i 28)) (by simp [infoUsed, h24, h0]))
        obtain ⟨k, hk⟩ := Nat.exists_eq_succ_of_ne_zero h0
        rw [hk] at this ⊢
        simp only [this]
  have e4 : LnkInfo.commonPathSuffixOffsetUnicode ⟨tp, i'⟩ = LnkInfo.commonPathSuffixOffsetUnicode ⟨tp, i⟩ ∧
      LnkInfo.commonPathSuffixUnicode ⟨tp, i'⟩ = LnkInfo.commonPathSuffixUnicode ⟨tp, i⟩ := by
    unfold LnkInfo.commonPathSuffixUnicode LnkInfo.commonPathSuffixOffsetUnicode LnkInfo.hasOptFields LnkInfo.headerSize
    simp only [a1, b1, pure_bind]
    by_cases h24 : u4 i 4 < 0x24
    · simp [Nat.not_le.2 h24]
    · have h36 := hu (28, 36) (by simp [infoUsed, h24])
      rw [u32_same tp h36 (off := 32) (by omega) (by omega)]
      simp only [Nat.le_of_not_lt h24, decide_true, if_true, true_and]
      rcases u32_cases tp i 32 with c | c
      swap
      · simp only [c, raise_bind]
      simp only [c, pure_bind]
      by_cases h0 : u4 i 32 = 0
      · simp only [h0]
      · have := wide_at hl (hu (wideAt i (u4 i 32 + 4)) (by simp [infoUsed, h24, h0]))
        obtain ⟨k, hk⟩ := Nat.exists_eq_succ_of_ne_zero h0
        rw [hk] at this ⊢
        simp only [this]
  rw [e3.1, e3.2, e4.1, e4.2]
  simp only [LnkInfo.size, LnkInfo.headerSize, LnkInfo.flags, LnkInfo.volumeIdOffset, LnkInfo.localBasePathOffset, LnkInfo.cnrlOffset,
    LnkInfo.commonPathSuffixOffset, a0, a1, a2, a3, a4, a5, a6, b0, b1, b2, b3, b4, b5, b6, pure_bind, e1, e2]
  cases hc : LnkFile.classOf kind
  · rw [hloc.1 hc]
  · rw [hloc.2 hc]

/-! ### blocks -/

theorem uint_same {s e x y : Nat} (c : ExtraClass) (tp : TextProc) (h : slice i s e = slice i' s e) (hs : s ≤ x) (he : y ≤ e) (hxy : x ≤ y) :
    Extra.uint ⟨c, tp, i'⟩ x y = Extra.uint ⟨c, tp, i⟩ x y := by
  obtain ⟨n, rfl⟩ := Nat.exists_eq_add_of_le hxy
  unfold Extra.uint
  rw [slice_within h hs he]

theorem slice_part {s e x y : Nat} (h : slice i s e = slice i' s e) (hs : s ≤ x) (he : y ≤ e) (hxy : x ≤ y) : slice i' x y = slice i x y := by
  obtain ⟨n, rfl⟩ := Nat.exists_eq_add_of_le hxy
  rw [slice_within h hs he]

theorem length_slice_same {s e : Nat} (hl : i.length = i'.length) : (slice i s e).length = (slice i' s e).length := by
  simp [slice, hl]

theorem narrow_in (tp : TextProc) {s e : Nat} (hl : i.length = i'.length)
    (h : slice i (narrowIn i s e).1 (narrowIn i s e).2 = slice i' (narrowIn i s e).1 (narrowIn i s e).2) :
    tp.readString (slice i' s e) = tp.readString (slice i s e) := by
  refine narrow_same tp (length_slice_same hl) ?_
  unfold narrowIn at h
  unfold slice at h ⊢
  dsimp only at h
  rw [List.take_take, List.take_take]
  rwa [show min e (s + narrowLength ((i.drop s).take (e - s))) - s = min (narrowLength ((i.drop s).take (e - s))) (e - s) by omega] at h

theorem wide_in {s e : Nat} (hl : i.length = i'.length)
    (h : slice i (wideIn i s e).1 (wideIn i s e).2 = slice i' (wideIn i s e).1 (wideIn i s e).2) :
    TextProc.readUnicodeString (slice i' s e) = TextProc.readUnicodeString (slice i s e) := by
  refine wide_same (length_slice_same hl) ?_
  unfold wideIn at h
  unfold slice at h ⊢
  dsimp only at h
  rw [List.take_take, List.take_take]
  rwa [show min e (s + wideLength ((i.drop s).take (e - s))) - s = min (wideLength ((i.drop s).take (e - s))) (e - s) by omega] at h

/-- A block, read from other bytes that are the same where it is looked at. -/
theorem block_gap (tp : TextProc) (s : Nat) (hl : i.length = i'.length) (hu : ∀ r ∈ blockUsed s i, slice i r.1 r.2 = slice i' r.1 r.2) :
    Extra.asDict ⟨extraKind s, tp, i'⟩ = Extra.asDict ⟨extraKind s, tp, i⟩ := by
  have k1 : extraKind 0xA0000001 = .environment := by decide +kernel
  have k2 : extraKind 0xA0000002 = .console := by decide +kernel
  have k3 : extraKind 0xA0000003 = .distributedTracker := by decide +kernel
  have k4 : extraKind 0xA0000004 = .codePage := by decide +kernel
  have k5 : extraKind 0xA0000005 = .specialFolder := by decide +kernel
  have k6 : extraKind 0xA0000006 = .darwin := by decide +kernel
  have k7 : extraKind 0xA0000007 = .icon := by decide +kernel
  have k8 : extraKind 0xA0000008 = .shimLayer := by decide +kernel
  have k11 : extraKind 0xA000000B = .knownFolder := by decide +kernel
  unfold blockUsed at hu
  split at hu
  · rename_i h
    have a := hu _ (.head _)
    have b := narrow_in tp hl (hu _ (.tail _ (.head _)))
    have c := wide_in hl (hu _ (.tail _ (.tail _ (.head _))))
    simp only at a
    rcases h with rfl | rfl | rfl <;>
    simp only [k1, k6, k7, Extra.asDict, Extra.size, Extra.fields, Extra.targetFields, Extra.darwinFields, Extra.darwinDataUnicode,
      Extra.productCodeId, Extra.featureName, Extra.componentId, uint_same _ tp a (x := 0) (y := 4) (by omega) (by omega) (by omega), b, c]
  split at hu
  · rename_i h
    subst h
    have a := hu _ (.head _)
    have b := hu _ (.tail _ (.head _))
    have c := wide_in hl (hu _ (.tail _ (.tail _ (.head _))))
    have d := hu _ (.tail _ (.tail _ (.tail _ (.head _))))
    simp only at a b d
    simp (disch := omega) only [k2, Extra.asDict, Extra.size, Extra.fields, Extra.consoleFields, Extra.uint, Extra.sint, slice_part a, slice_part b,
      slice_part d, c]
  split at hu
  · rename_i h
    subst h
    have a := hu _ (.head _)
    have b := narrow_in tp hl (hu _ (.tail _ (.head _)))
    have d := hu _ (.tail _ (.tail _ (.head _)))
    simp only at a d
    simp (disch := omega) only [k3, Extra.asDict, Extra.size, Extra.fields, Extra.trackerFields, Extra.uint, slice_part a, slice_part d, b]
  split at hu
  · rename_i h
    subst h
    have a := hu _ (.head _)
    simp only at a
    simp (disch := omega) only [k4, Extra.asDict, Extra.size, Extra.fields, Extra.codePageFields, Extra.uint, slice_part a]
  split at hu
  · rename_i h
    subst h
    have a := hu _ (.head _)
    simp only at a
    simp (disch := omega) only [k5, Extra.asDict, Extra.size, Extra.fields, Extra.specialFolderFields, Extra.uint, slice_part a]
  split at hu
  · rename_i h
    subst h
    have a := hu _ (.head _)
    have b := narrow_at tp hl (hu _ (.tail _ (.head _)))
    simp only at a
    simp (disch := omega) only [k8, Extra.asDict, Extra.size, Extra.fields, Extra.shimLayerFields, Extra.uint, slice_part a, b]
  split at hu
  · rename_i h
    subst h
    have a := hu _ (.head _)
    simp only at a
    simp (disch := omega) only [k11, Extra.asDict, Extra.size, Extra.fields, Extra.knownFolderFields, Extra.uint, slice_part a]
  · have a := hu _ (.head _)
    simp only at a
    have : i = i' := by
      unfold slice at a
      rwa [List.drop_zero, List.drop_zero, List.take_of_length_le (by omega), List.take_of_length_le (by omega)] at a
    rw [this]

/-! ### the header -/

open Hidden in
/-- The places, when the bytes differ behind the flags of the header. -/
theorem layout_header {b b' : Bytes} {lo hi : Nat} {L : Layout} (h : Elsewhere b b' lo hi) (hl : layout b = some L) (hlo : 24 ≤ lo)
    (hhi : hi ≤ L.headerSize) : layout b' = some L := by
  obtain ⟨o1, o2⟩ := layout_order hl
  unfold layout at hl
  rcases h0 : uAt 4 b 0 with _ | hs
  · rw [h0] at hl; cases hl
  rw [h0] at hl
  dsimp only at hl
  rcases h1 : uAt 4 (b.take hs) 20 with _ | flags
  · rw [h1] at hl; cases hl
  have h24 := ExtraData.uAt_some_length h1
  rw [List.length_take] at h24
  rw [h1] at hl
  dsimp only at hl
  rcases h2 : (if flags.testBit 0 then (uAt 2 b hs).map fun n => hs + 2 + n else some hs) with _ | infoAt
  · rw [h2] at hl; cases hl
  rw [h2] at hl
  dsimp only at hl
  have hh : hs ≤ infoAt := by
    split at h2
    · obtain ⟨n, -, rfl⟩ := Option.map_eq_some_iff.1 h2
      omega
    · cases h2
      exact Nat.le_refl _
  generalize hS : (if infoAnnounced flags && (infoLocation b infoAt).isSome then infoAt + (uAt 4 b infoAt).getD 0
    else infoAt) = stringsAt at hl
  have hle : infoAt ≤ stringsAt := by
    rw [← hS]
    split <;> omega
  cases hl
  dsimp only at hhi o1 o2
  have e1 : infoLocation b infoAt = infoLocation b' infoAt := by
    unfold infoLocation
    rw [h.uAt (.inr (by omega))]
  rw [ExtraData.uAt_take 4 b 20 hs (by omega) (by omega)] at h1
  rw [h.uAt (.inr hhi)] at h2
  rw [e1, h.uAt (.inr (by omega))] at hS
  unfold layout
  rw [← h.uAt (n := 4) (s := 0) (.inl (by omega)), h0]
  dsimp only
  rw [ExtraData.uAt_take 4 b' 20 hs (by omega) (by omega), ← h.uAt (n := 4) (s := 20) (.inl (by omega)), h1]
  dsimp only
  rw [h2]
  dsimp only
  rw [hS, h.stringsEnd _ _ (by omega)]

open Hidden in
theorem header_slices {b b' : Bytes} {lo hi n : Nat} (h : Elsewhere b b' lo hi) {s e : Nat} (he : e ≤ lo) :
    slice (b.take n) s e = slice (b'.take n) s e := by
  have key : ∀ x : Bytes, slice (x.take n) s e = ((x.take e).drop s).take (n - s) := by
    intro x
    unfold slice
    rw [List.drop_take, List.drop_take, List.take_take, List.take_take, Nat.min_comm]
  rw [key, key, h.take (by omega)]

theorem header_strings {h h' : LnkHeader} (hs : ∀ s e, e ≤ 24 → slice h.raw s e = slice h'.raw s e) (tp : TextProc) (x : Bytes) :
    StringData.init h' tp x = StringData.init h tp x := by
  have hf : h'.rLinkFlags = h.rLinkFlags := by
    unfold LnkHeader.rLinkFlags
    rw [hs _ _ (by omega)]
  have hg : ∀ s, h'.hasFlag s = h.hasFlag s := fun s => by
    unfold LnkHeader.hasFlag LnkHeader.linkFlags
    rw [hf]
  have key : ∀ fs d n x, StringData.loop h' tp x fs d n = StringData.loop h tp x fs d n := by
    intro fs
    induction fs with
    | nil => intros; rfl
    | cons f fs ih =>
      intro d n x
      unfold StringData.loop StringData.read
      simp only [hg, ih]
  exact key _ _ _ _

open Hidden in
theorem process_header (env : Env) (cp : Option String) (allow : Bool) {b b' : Bytes} {lo hi : Nat} {L : Layout} (h : Elsewhere b b' lo hi)
    (hl : layout b = some L) (hlo : 24 ≤ lo) (hhi : hi ≤ L.headerSize) :
    LnkFile.process env cp allow b' = (do
      let f ← LnkFile.process env cp allow b
      pure { f with indata := b', header := ⟨b'.take L.headerSize⟩ }) ∧
    ∀ f, (LnkFile.process env cp allow b).res = .ok f → f.header = ⟨b.take L.headerSize⟩ := by
  have hl' := layout_header h hl hlo hhi
  obtain ⟨o1, o2⟩ := layout_order hl
  obtain ⟨-, -, hfl, hex, hp⟩ := LnkFile.process_rest env cp allow b L hl
  obtain ⟨-, -, -, -, hp'⟩ := LnkFile.process_rest env cp allow b' L hl'
  rw [hp, hp', ← h.uAt (n := 4) (s := L.infoAt + 8) (.inr (by omega))]
  constructor
  · simp only [bind_assoc]
    congr 1; funext _
    congr 1; funext _
    congr 1; funext _
    have hloc : infoLocation b' L.infoAt = infoLocation b L.infoAt := by
      unfold infoLocation
      rw [h.uAt (.inr (by omega))]
    unfold LnkFile.rest
    simp only [bind_assoc, pure_bind]
    rw [← h.drop (n := L.stringsAt) (by omega), header_strings (h := ⟨b.take L.headerSize⟩) (fun s e he => header_slices h (by omega))]
    congr 1; funext sd
    rw [← h.drop (n := L.stringsAt + sd.size) (by omega)]
    congr 1; funext ex
    congr 1; funext n
    rw [← h.drop (n := L.stringsAt + sd.size + n) (by omega), ← h.drop (n := L.headerSize) (by omega), ← h.drop (n := L.infoAt) (by omega),
      ← h.slice (s := L.headerSize + 2) (.inr (by omega)), hloc]
  · intro f hf
    obtain ⟨_, -, hf⟩ := bind_ok_iff.1 hf
    obtain ⟨_, -, hf⟩ := bind_ok_iff.1 hf
    obtain ⟨_, -, hf⟩ := bind_ok_iff.1 hf
    unfold LnkFile.rest at hf
    obtain ⟨_, -, hf⟩ := bind_ok_iff.1 hf
    obtain ⟨_, -, hf⟩ := bind_ok_iff.1 hf
    obtain ⟨_, -, hf⟩ := bind_ok_iff.1 hf
    cases hf
    rfl

theorem header_same {f f' : LnkFile} (hs : ∀ s e, e ≤ 76 → slice f.header.raw s e = slice f'.header.raw s e) :
    f'.jsonHeader = f.jsonHeader ∧ f'.formatLinkFlags = f.formatLinkFlags ∧ f'.formatFileFlags = f.formatFileFlags ∧
      ∀ s, f'.header.hasFlag s = f.header.hasFlag s := by
  refine ⟨?_, ?_, ?_, fun s => ?_⟩ <;>
  simp (disch := omega) only [LnkFile.jsonHeader, LnkFile.formatLinkFlags, LnkFile.formatFileFlags, LnkHeader.hasFlag, LnkHeader.linkFlags,
    LnkHeader.fileFlags, LnkHeader.rLinkFlags, LnkHeader.rFileFlags, LnkHeader.size, LnkHeader.linkClsId, LnkHeader.creationTime,
    LnkHeader.accessTime, LnkHeader.writeTime, LnkHeader.fileSize, LnkHeader.iconIndex, LnkHeader.windowStyle, LnkHeader.hotKey,
    LnkHeader.rawHotKey, LnkHeader.reserved0, LnkHeader.reserved1, LnkHeader.reserved2, hs]

end Gaps

end Verif
