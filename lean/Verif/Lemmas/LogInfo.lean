import Verif.Lemmas.LogList
import Verif.Lemmas.ValuesInfo

/-
What the link info says and raises.
-/

namespace Verif.LnkFile

open Spec Spec.Log Py LnkInfo

theorem reads_u32 (i : LnkInfo) (off : Nat) : Reads (i.u32 off) (off + 4) i.raw (u4 i.raw off) := reads_unpackU (by omega) (by omega)

theorem truthy_ne {n : Nat} : truthyNat (some n) = true ↔ n ≠ 0 := by simp [truthyNat]

theorem logs_local {i : LnkInfo} (h : 28 ≤ i.raw.length) : Logs (jsonLocal i) (volume i.tp i.raw (u4 i.raw 12)) := by
  have p0 : i.volumeIdOffset = pure (u4 i.raw 12) := (reads_u32 i 12).ok (by omega)
  generalize u4 i.raw 12 = o at p0
  unfold jsonLocal volume volumeIdSize rDriveType driveSerialNumber
  simp only [p0, pure_bind]
  refine read_step (reads_u32 i _) (by omega) ?_
  refine read_step (reads_u32 i _) (by omega) ?_
  have p1 : i.volumeLabelOffset = i.u32 (o + 12) := by unfold volumeLabelOffset; rw [p0, pure_bind]
  rw [p1]
  refine read_last (reads_u32 i _) fun hl => ?_
  have p2 : i.volumeLabelOffset = pure (u4 i.raw (o + 12)) := by rw [p1]; exact (reads_u32 i _).ok (by omega)
  simp only [bind_assoc]
  refine read_known (reads_u32 i _) (by omega) ?_
  unfold driveType rDriveType
  simp only [p0, pure_bind, bind_assoc]
  refine read_known (reads_u32 i _) (by omega) ?_
  generalize u4 i.raw (o + 12) = lo at p2
  have p3 : i.hasVolumeLabelOffsetUnicode = pure (decide (lo = 0x14)) := by unfold hasVolumeLabelOffsetUnicode; rw [p2, pure_bind]
  unfold volumeLabel
  simp only [p3, p2, p0, pure_bind]
  by_cases hlo : lo = 0x14
  · rw [given_neg (by simpa using hlo), all_quiet, given_pos hlo, if_pos (by simpa using hlo), pure_bind]
    unfold volumeLabelUnicodeOffset
    simp only [p3, p0, pure_bind]
    rw [if_pos (by simpa using hlo), all_flat]
    simp only [bind_assoc]
    refine read_last (reads_u32 i _) fun hl2 => ?_
    have p4 : i.u32 (o + 16) = pure (u4 i.raw (o + 16)) := (reads_u32 i _).ok hl2
    rw [pure_bind]
    refine logs_single (logs_map _ ?_)
    by_cases hm : u4 i.raw (o + 16) = 0
    · rw [given_neg (by simpa using hm)]
      have : truthyNat (some (u4 i.raw (o + 16))) = false := by simp [truthyNat, hm]
      rw [this]
      exact logs_pure _
    · rw [given_pos hm, truthy_ne.2 hm]
      unfold entryIf volumeLabelUnicode volumeLabelUnicodeOffset
      rw [if_pos rfl]
      simp only [p3, p0, pure_bind]
      rw [if_pos (by simpa using hlo)]
      simp only [p4, pure_bind]
      simp only [bind_assoc, pure_bind]
      exact logs_map (g := fun a => _) (hx := logs_wide _)
  · rw [given_pos hlo, given_neg hlo, if_neg (by simpa using hlo)]
    simp only [bind_assoc, pure_bind]
    refine logs_cons (logs_narrow _ _) fun _ _ => ?_
    unfold volumeLabelUnicodeOffset
    simp only [p3, p0, pure_bind]
    rw [if_neg (by simpa using hlo), all_quiet]
    exact logs_pure _

theorem logs_network {i : LnkInfo} (h : 28 ≤ i.raw.length) : Logs (jsonNetwork i) (networkLink i.tp i.raw (u4 i.raw 20)) := by
  have p0 : i.cnrlOffset = pure (u4 i.raw 20) := (reads_u32 i 20).ok (by omega)
  generalize u4 i.raw 20 = o at p0
  unfold jsonNetwork networkLink
  have q1 : i.cnrlSize = i.u32 o := by unfold cnrlSize; rw [p0, pure_bind]
  have q2 : i.cnrlFlags = i.u32 (o + 4) := by unfold cnrlFlags; rw [p0, pure_bind]
  have q3 : i.netNameOffset = i.u32 (o + 8) := by unfold netNameOffset; rw [p0, pure_bind]
  have q4 : i.deviceNameOffset = i.u32 (o + 12) := by unfold deviceNameOffset; rw [p0, pure_bind]
  have q5 : i.rNetworkProviderType = i.u32 (o + 16) >>= fun n => pure (pyHex n) := by unfold rNetworkProviderType; rw [p0, pure_bind]
  rw [q1, q2, q3, q4, q5]
  refine read_step (reads_u32 i _) (by omega) ?_
  refine read_step (reads_u32 i _) (by omega) ?_
  refine read_step (reads_u32 i _) (by omega) ?_
  refine read_step (reads_u32 i _) (by omega) ?_
  refine read_last (reads_map _ (reads_u32 i _)) fun hl => ?_
  have p2 : i.cnrlFlags = pure (u4 i.raw (o + 4)) := by rw [q2]; exact (reads_u32 i _).ok (by omega)
  have p3 : i.netNameOffset = pure (u4 i.raw (o + 8)) := by rw [q3]; exact (reads_u32 i _).ok (by omega)
  have p4 : i.deviceNameOffset = pure (u4 i.raw (o + 12)) := by rw [q4]; exact (reads_u32 i _).ok (by omega)
  have p5 : i.rNetworkProviderType = pure (pyHex (u4 i.raw (o + 16))) := by
    rw [q5, (reads_u32 i _).ok (by omega)]; rfl
  obtain ⟨v, p6⟩ : ∃ v, i.networkProviderType = pure v := by
    unfold networkProviderType
    rw [p2, pure_bind]
    split
    · exact ⟨_, rfl⟩
    · rw [p5, pure_bind]; exact ⟨_, rfl⟩
  rw [← q3] at *
  rw [← q4] at *
  rw [p6, pure_bind]
  have e1 : ∃ d, (entryIf v.isSome do
      let p ← i.networkProviderType
      pure [("network_provider_type", PyVal.opt .lit p)]) = pure d := by
    unfold entryIf
    split
    · rw [p6, pure_bind]; exact ⟨_, rfl⟩
    · exact ⟨_, rfl⟩
  obtain ⟨d1, e1⟩ := e1
  simp only [p6, pure_bind] at e1 ⊢
  rw [e1, pure_bind]
  generalize u4 i.raw (o + 8) = no at p3
  generalize u4 i.raw (o + 12) = dno at p4
  unfold netNameOffsetUnicode deviceNameOffsetUnicode netName deviceName
  simp only [p3, p0, p4, pure_bind]
  by_cases hn : 0x14 < no
  · simp only [if_pos hn, if_neg (show ¬ no ≤ 20 by omega), bind_assoc, pure_bind, gt_iff_lt]
    refine logs_single ?_
    refine read_last (reads_u32 i _) fun hl2 => ?_
    have r1 : i.u32 (o + 20) = pure (u4 i.raw (o + 20)) := (reads_u32 i _).ok hl2
    have n1 : i.netNameOffsetUnicode = pure (some (u4 i.raw (o + 20))) := by
      unfold netNameOffsetUnicode
      rw [p3, pure_bind, if_neg (by omega), p0, pure_bind, r1, pure_bind]
    refine logs_cons (l := given (u4 i.raw (o + 20) ≠ 0) (wide (i.raw.drop (o + u4 i.raw (o + 20))))) ?_ fun _ _ => ?_
    · by_cases hm : u4 i.raw (o + 20) = 0
      · rw [given_neg (by simpa using hm)]
        have : truthyNat (some (u4 i.raw (o + 20))) = false := by simp [truthyNat, hm]
        rw [this]
        exact logs_pure _
      · rw [given_pos hm, truthy_ne.2 hm]
        unfold entryIf netNameUnicode
        rw [if_pos rfl]
        simp only [r1, p3, p0, n1, pure_bind]
        rw [if_neg (by omega)]
        simp only [bind_assoc, pure_bind]
        exact logs_map (g := fun a => _) (hx := logs_wide _)
    · refine read_last (reads_u32 i _) fun hl3 => ?_
      have r2 : i.u32 (o + 24) = pure (u4 i.raw (o + 24)) := (reads_u32 i _).ok hl3
      have n2 : i.deviceNameOffsetUnicode = pure (some (u4 i.raw (o + 24))) := by
        unfold deviceNameOffsetUnicode
        rw [p3, pure_bind, if_neg (by omega), p0, pure_bind, r2, pure_bind]
      refine logs_single ?_
      simp only [truthyStr, entryIf, Bool.false_eq_true, if_false, pure_bind]
      refine logs_map (g := fun a => _) ?_
      by_cases hm : u4 i.raw (o + 24) = 0
      · rw [given_neg (by simpa using hm)]
        have : truthyNat (some (u4 i.raw (o + 24))) = false := by simp [truthyNat, hm]
        rw [this]
        exact logs_pure _
      · rw [given_pos hm, truthy_ne.2 hm]
        unfold deviceNameUnicode
        rw [if_pos rfl]
        simp only [r2, p3, p0, n2, pure_bind]
        rw [if_neg (by omega)]
        simp only [bind_assoc, pure_bind]
        exact logs_map (g := fun a => _) (hx := logs_wide _)
  · simp only [if_neg hn, if_pos (show no ≤ 20 by omega), bind_assoc, pure_bind, gt_iff_lt]
    simp only [truthyNat, entryIf, Bool.false_eq_true, if_false, pure_bind]
    refine logs_single ?_
    have twice : ∀ {β : Type} (b : Bytes) (key : String) (k : Dict → Py β) (l : Log), (∀ d, Logs (k d) l) →
        Logs (do
          let text ← i.tp.readString b
          let e ← (if truthyStr (some text) = true then do
            let text ← i.tp.readString b
            pure [(key, PyVal.opt .str (some text))] else pure [])
          k e) (Log.andThen (again i.tp b) l) := by
      intro β b key k l hk
      unfold again
      rw [all_cons, all_one, andThen_assoc]
      refine logs_bind (logs_narrow _ _) fun s hs => ?_
      have hs' := Values.narrowText hs
      refine logs_bind ?_ fun d _ => hk d
      by_cases h0 : s = []
      · subst h0
        rw [given_neg (by simpa using hs')]
        exact logs_pure _
      · rw [given_pos (fun hc => h0 (Values.narrowText_unique hs' hc)), if_pos (by cases s <;> simp_all [truthyStr])]
        exact logs_map (g := fun a => _) (hx := logs_narrow _ _)
    rw [all_cons, all_one]
    refine twice _ _ _ _ fun d => ?_
    rw [← andThen_quiet (again i.tp (i.raw.drop (o + dno)))]
    exact twice _ _ _ _ fun d => logs_pure _

theorem logs_info {f : LnkFile} {cls : InfoClass} {i : LnkInfo} (hf : f.info = some (cls, i)) :
    Logs f.jsonInfo (Log.info i.tp i.raw (locationName cls)) := by
  unfold jsonInfo Log.info
  rw [hf]
  simp only
  refine read_step (reads_u32 i _) (by omega) ?_
  refine read_step (reads_u32 i _) (by omega) ?_
  refine read_step (reads_u32 i _) (by omega) ?_
  refine read_step (reads_u32 i _) (by omega) ?_
  refine read_step (reads_u32 i _) (by omega) ?_
  refine read_step (reads_u32 i _) (by omega) ?_
  refine read_last (reads_u32 i _) fun hl => ?_
  have p1 : i.headerSize = pure (u4 i.raw 4) := (reads_u32 i 4).ok (by omega)
  have p2 : i.localBasePathOffset = pure (u4 i.raw 16) := (reads_u32 i 16).ok (by omega)
  have p3 : i.commonPathSuffixOffset = pure (u4 i.raw 24) := (reads_u32 i 24).ok (by omega)
  have p4 : i.hasOptFields = pure (decide (u4 i.raw 4 ≥ 0x24)) := by unfold hasOptFields; rw [p1, pure_bind]
  have hr : 28 ≤ i.raw.length := by omega
  refine logs_cons (l := given (u4 i.raw 16 ≠ 0) (narrow i.tp (i.raw.drop (u4 i.raw 16)))) ?_ fun _ _ => ?_
  · by_cases h0 : u4 i.raw 16 = 0
    · rw [given_neg (by simpa using h0)]
      simp only [h0, entryIf, bne_self_eq_false, Bool.false_eq_true, if_false]
      exact logs_pure _
    · rw [given_pos h0]
      unfold entryIf localBasePath
      rw [if_pos (by simpa using h0), p2, pure_bind, if_neg h0]
      simp only [bind_assoc, pure_bind]
      exact logs_map (g := fun a => _) (hx := logs_narrow _ _)
  refine logs_cons (l := given (u4 i.raw 24 ≠ 0) (narrow i.tp (i.raw.drop (u4 i.raw 24)))) ?_ fun _ _ => ?_
  · by_cases h0 : u4 i.raw 24 = 0
    · rw [given_neg (by simpa using h0)]
      simp only [h0, entryIf, bne_self_eq_false, Bool.false_eq_true, if_false]
      exact logs_pure _
    · rw [given_pos h0]
      unfold entryIf commonPathSuffix
      rw [if_pos (by simpa using h0), p3, pure_bind, if_neg h0]
      simp only [bind_assoc, pure_bind]
      exact logs_map (g := fun a => _) (hx := logs_narrow _ _)
  have last : ∀ e : Dict → Dict, Logs (do
      let li ← match cls with
        | .local => jsonLocal i
        | .network => jsonNetwork i
      pure (e li)) (if locationName cls = "Local" then volume i.tp i.raw (u4 i.raw 12) else networkLink i.tp i.raw (u4 i.raw 20)) := by
    intro e
    cases cls with
    | «local» => exact logs_map _ (logs_local hr)
    | network =>
      rw [if_neg (by decide)]
      exact logs_map _ (logs_network hr)
  unfold localBasePathOffsetUnicode commonPathSuffixOffsetUnicode
  simp only [p4, pure_bind, ge_iff_le]
  by_cases ho : 0x24 ≤ u4 i.raw 4
  · rw [if_pos (by simpa using ho), given_pos ho, given_pos ho, all_flat]
    simp only [bind_assoc, pure_bind, List.cons_append, List.nil_append]
    refine read_last (reads_u32 i _) fun hl1 => ?_
    have r1 : i.u32 28 = pure (u4 i.raw 28) := (reads_u32 i _).ok hl1
    refine logs_cons (l := given (u4 i.raw 28 ≠ 0) (wide (i.raw.drop (u4 i.raw 28)))) ?_ fun _ _ => ?_
    · by_cases h0 : u4 i.raw 28 = 0
      · rw [given_neg (by simpa using h0)]
        have : truthyNat (some (u4 i.raw 28)) = false := by simp [truthyNat, h0]
        rw [this]
        exact logs_pure _
      · rw [given_pos h0, truthy_ne.2 h0]
        unfold entryIf localBasePathUnicode localBasePathOffsetUnicode
        simp only [if_true, p4, pure_bind, ge_iff_le, ho, decide_true, r1]
        simp only [bind_assoc, pure_bind]
        exact logs_map (g := fun a => _) (hx := logs_wide _)
    rw [if_pos (by simpa using ho), all_flat]
    simp only [bind_assoc, pure_bind, List.cons_append, List.nil_append]
    refine read_last (reads_u32 i _) fun hl2 => ?_
    have r2 : i.u32 32 = pure (u4 i.raw 32) := (reads_u32 i _).ok hl2
    refine logs_cons (l := given (u4 i.raw 32 ≠ 0) (wide (i.raw.drop (u4 i.raw 32 + 4)))) ?_ fun _ _ => ?_
    · by_cases h0 : u4 i.raw 32 = 0
      · rw [given_neg (by simpa using h0)]
        have : truthyNat (some (u4 i.raw 32)) = false := by simp [truthyNat, h0]
        rw [this]
        exact logs_pure _
      · rw [given_pos h0, truthy_ne.2 h0]
        unfold entryIf commonPathSuffixUnicode commonPathSuffixOffsetUnicode
        simp only [if_true, p4, pure_bind, ge_iff_le, ho, decide_true, r2]
        simp only [bind_assoc, pure_bind]
        exact logs_map (g := fun a => _) (hx := logs_wide _)
    · exact logs_single (last _)
  · rw [if_neg (by simpa using ho), given_neg ho, given_neg ho, all_quiet, all_quiet]
    simp only [pure_bind, truthyNat, entryIf, Bool.false_eq_true, if_false]
    rw [if_neg (by simpa using ho)]
    simp only [pure_bind, Bool.false_eq_true, if_false]
    exact logs_single (last _)

end Verif.LnkFile
