import Verif.Lemmas.Fault

/-
When the link info can be reported.
-/

namespace Verif

open Spec Py

theorem Py.when_seq {x : Py α} {f : α → Py β} {c : Prop} (hx : When True x) (hf : ∀ a, x.res = .ok a → When c (f a)) :
    When c (x >>= f) := (when_bind hx hf).congr (by simp)

/-- The first step has the condition of all. -/
theorem Py.when_lead {x : Py α} {f : α → Py β} {c d : Prop} (hx : When d x) (hcd : c → d)
    (hf : ∀ a, x.res = .ok a → When c (f a)) : When c (x >>= f) :=
  (when_bind hx hf).congr ⟨fun h => h.2, fun h => ⟨hcd h, h⟩⟩

theorem LnkFile.when_entryIf {c : Prop} {b : Bool} {x : Py Dict} (h : b = true → When c x) (hb : b = false → c) :
    When c (LnkFile.entryIf b x) := by
  unfold LnkFile.entryIf
  cases b
  · exact (when_pure _).congr (by simp [hb rfl])
  · exact h rfl

theorem LnkFile.when_entryIf_true {b : Bool} {x : Py Dict} (h : b = true → When True x) : When True (LnkFile.entryIf b x) :=
  LnkFile.when_entryIf h fun _ => trivial

namespace LnkInfo

theorem when_u32 (i : LnkInfo) (off : Nat) : When (off + 4 ≤ i.raw.length) (i.u32 off) := by
  refine (when_unpackU 4 _).congr ?_
  simp
  omega

theorem u32_pure {i : LnkInfo} {off n : Nat} (h : uAt 4 i.raw off = some n) : i.u32 off = pure n :=
  Target.leNat_slice (by omega) h

theorem uAt_exists {raw : Bytes} {off : Nat} (h : off + 4 ≤ raw.length) : ∃ n, uAt 4 raw off = some n := by
  rcases hu : uAt 4 raw off with _ | n
  · exact absurd (uAt_eq_none_iff.1 hu) (by omega)
  · exact ⟨n, rfl⟩

variable (i : LnkInfo) (hcp : UsableCodePage i.tp)

include hcp in
theorem when_jsonLocal {v : Nat} (hv : uAt 4 i.raw 12 = some v) :
    When (v + 16 ≤ i.raw.length ∧ (uAt 4 i.raw (v + 12) = some 0x14 → v + 20 ≤ i.raw.length)) (LnkFile.jsonLocal i) := by
  have hvo : i.volumeIdOffset = pure v := u32_pure hv
  have r0 : i.volumeIdSize = i.u32 v := by unfold volumeIdSize; rw [hvo, pure_bind]
  have r1 : i.rDriveType = i.u32 (v + 4) := by unfold rDriveType; rw [hvo, pure_bind]
  have r2 : i.volumeLabelOffset = i.u32 (v + 12) := by unfold volumeLabelOffset; rw [hvo, pure_bind]
  unfold LnkFile.jsonLocal
  rw [r0, r1]
  refine when_lead (when_u32 i v) (fun h => by omega) fun _ _ => when_lead (when_u32 i (v + 4)) (fun h => by omega) fun _ _ => ?_
  refine when_lead (d := v + 16 ≤ i.raw.length) ((r2 ▸ when_u32 i (v + 12)).congr (by omega)) (fun h => h.1) fun n hn => ?_
  have h16 : v + 16 ≤ i.raw.length := by
    by_contra hc
    rw [r2, (when_u32 i (v + 12)).err (by omega)] at hn
    cases hn
  obtain ⟨m, hm⟩ := uAt_exists (raw := i.raw) (off := v + 12) (by omega)
  have hlo : i.volumeLabelOffset = pure m := by rw [r2, u32_pure hm]
  have hmn : m = n := by rw [hlo] at hn; cases hn; rfl
  subst hmn
  have hsn : When True i.driveSerialNumber := by
    unfold driveSerialNumber
    rw [hvo, pure_bind]
    exact when_seq ((when_u32 i (v + 8)).congr (by simp; omega)) fun _ _ => when_pure _
  have hdt : When True i.driveType := by
    unfold driveType
    rw [r1]
    exact when_seq ((when_u32 i (v + 4)).congr (by simp; omega)) fun _ _ => when_pure _
  have hh : i.hasVolumeLabelOffsetUnicode = pure (decide (m = 0x14)) := by
    unfold hasVolumeLabelOffsetUnicode
    rw [hlo, pure_bind]
  have hvl : When True i.volumeLabel := by
    unfold volumeLabel
    rw [hh, pure_bind]
    split
    · exact when_pure _
    · rw [hvo, pure_bind, hlo, pure_bind]
      exact when_seq (when_readString hcp _) fun _ _ => when_pure _
  have huo : When (v + 16 ≤ i.raw.length ∧ (uAt 4 i.raw (v + 12) = some 0x14 → v + 20 ≤ i.raw.length))
      i.volumeLabelUnicodeOffset := by
    unfold volumeLabelUnicodeOffset
    rw [hh, pure_bind, hm]
    by_cases h14 : m = 0x14
    · simp only [h14, decide_true, if_true]
      rw [hvo, pure_bind]
      exact (when_bind (when_u32 i (v + 16)) fun _ _ => when_pure _).congr (by simp; omega)
    · simp only [h14, decide_false]
      exact (when_pure _).congr (by simp [h14, h16])
  refine when_seq hsn fun _ _ => when_seq hdt fun _ _ => when_seq hvl fun _ _ => when_lead huo id fun o ho => ?_
  have hc : v + 16 ≤ i.raw.length ∧ (uAt 4 i.raw (v + 12) = some 0x14 → v + 20 ≤ i.raw.length) := by
    by_contra hc
    rw [huo.err hc] at ho
    cases ho
  have huo' : When True i.volumeLabelUnicodeOffset := huo.congr ⟨fun _ => trivial, fun _ => hc⟩
  refine When.congr (c := True) ?_ ⟨fun _ => hc, fun _ => trivial⟩
  refine when_seq (LnkFile.when_entryIf_true fun _ => when_seq huo' fun _ _ => when_seq ?_ fun _ _ => when_pure _) fun _ _ => when_pure _
  unfold volumeLabelUnicode
  refine when_seq huo' fun o _ => ?_
  rcases o with _ | _ | o
  · exact when_pure _
  · exact when_pure _
  · refine when_seq (x := i.volumeIdOffset) (by rw [hvo]; exact when_pure _) fun _ _ => ?_
    exact when_seq (when_readUnicodeString _) fun _ _ => when_pure _

include hcp in
theorem when_jsonNetwork {c : Nat} (hc : uAt 4 i.raw 20 = some c) :
    When (c + 20 ≤ i.raw.length ∧ ∀ n, uAt 4 i.raw (c + 8) = some n → 0x14 < n → c + 28 ≤ i.raw.length)
      (LnkFile.jsonNetwork i) := by
  have hco : i.cnrlOffset = pure c := u32_pure hc
  have r0 : i.cnrlSize = i.u32 c := by unfold cnrlSize; rw [hco, pure_bind]
  have r1 : i.cnrlFlags = i.u32 (c + 4) := by unfold cnrlFlags; rw [hco, pure_bind]
  have r2 : i.netNameOffset = i.u32 (c + 8) := by unfold netNameOffset; rw [hco, pure_bind]
  have r3 : i.deviceNameOffset = i.u32 (c + 12) := by unfold deviceNameOffset; rw [hco, pure_bind]
  have r4 : When (c + 20 ≤ i.raw.length) i.rNetworkProviderType := by
    unfold rNetworkProviderType
    rw [hco, pure_bind]
    exact (when_bind (when_u32 i (c + 16)) fun _ _ => when_pure _).congr (by simp)
  unfold LnkFile.jsonNetwork
  rw [r0, r1, r2, r3]
  refine when_lead (when_u32 i c) (fun h => by omega) fun _ _ => when_lead (when_u32 i (c + 4)) (fun h => by omega) fun _ _ =>
    when_lead (when_u32 i (c + 8)) (fun h => by omega) fun _ _ => when_lead (when_u32 i (c + 12)) (fun h => by omega) fun _ _ =>
    when_lead r4 (fun h => h.1) fun x hx => ?_
  have h20 : c + 20 ≤ i.raw.length := by
    by_contra hc
    rw [r4.err hc] at hx
    cases hx
  have r4' : When True i.rNetworkProviderType := r4.congr (by simp [h20])
  obtain ⟨n, hn⟩ := uAt_exists (raw := i.raw) (off := c + 8) (by omega)
  obtain ⟨fl, hfl⟩ := uAt_exists (raw := i.raw) (off := c + 4) (by omega)
  obtain ⟨dn, hdn⟩ := uAt_exists (raw := i.raw) (off := c + 12) (by omega)
  have hno : i.netNameOffset = pure n := by rw [r2, u32_pure hn]
  have hdo : i.deviceNameOffset = pure dn := by rw [r3, u32_pure hdn]
  have hpt : When True i.networkProviderType := by
    unfold networkProviderType
    rw [r1, u32_pure hfl, pure_bind]
    split
    · exact when_pure _
    · exact when_seq r4' fun _ _ => when_pure _
  have hnn : When True i.netName := by
    unfold netName
    rw [hno, pure_bind]
    split
    · exact when_pure _
    · rw [hco, pure_bind]
      exact when_seq (when_readString hcp _) fun _ _ => when_pure _
  have hdn : When True i.deviceName := by
    unfold deviceName
    rw [hno, pure_bind]
    split
    · exact when_pure _
    · rw [hco, pure_bind, hdo, pure_bind]
      exact when_seq (when_readString hcp _) fun _ _ => when_pure _
  rw [hn]
  refine When.congr (c := (0x14 < n → c + 28 ≤ i.raw.length)) ?_
    ⟨fun h => ⟨h20, fun m hm => by cases hm; exact h⟩, fun h => h.2 n rfl⟩
  refine when_seq hpt fun _ _ => when_seq (LnkFile.when_entryIf_true fun _ => when_seq hpt fun _ _ => when_pure _) fun _ _ => ?_
  have hnu : When (0x14 < n → c + 24 ≤ i.raw.length) i.netNameOffsetUnicode := by
    unfold netNameOffsetUnicode
    rw [hno, pure_bind]
    by_cases h : n ≤ 20
    · rw [if_pos h]
      exact (when_pure _).congr (by simp; omega)
    · rw [if_neg h, hco, pure_bind]
      exact (when_bind (when_u32 i (c + 20)) fun _ _ => when_pure _).congr (by simp; omega)
  have hdu : When (0x14 < n → c + 28 ≤ i.raw.length) i.deviceNameOffsetUnicode := by
    unfold deviceNameOffsetUnicode
    rw [hno, pure_bind]
    by_cases h : n ≤ 20
    · rw [if_pos h]
      exact (when_pure _).congr (by simp; omega)
    · rw [if_neg h, hco, pure_bind]
      exact (when_bind (when_u32 i (c + 24)) fun _ _ => when_pure _).congr (by simp; omega)
  refine when_lead hnu (fun h h' => by have := h h'; omega) fun o ho => ?_
  have g1 : 0x14 < n → c + 24 ≤ i.raw.length := by
    by_contra hc
    rw [hnu.err hc] at ho
    cases ho
  have hnu' : When True i.netNameOffsetUnicode := hnu.congr (by simpa using g1)
  have hnw : When True i.netNameUnicode := by
    unfold netNameUnicode
    rw [hno, pure_bind]
    split
    · exact when_pure _
    · rename_i h
      rw [hco, pure_bind]
      refine when_seq hnu' fun o ho => ?_
      rcases o with _ | o
      · exfalso
        unfold netNameOffsetUnicode at ho
        rw [hno, pure_bind, if_neg h, hco, pure_bind] at ho
        obtain ⟨m, -, hm⟩ := bind_ok_iff.1 ho
        cases hm
      · exact when_seq (when_readUnicodeString _) fun _ _ => when_pure _
  refine when_seq (LnkFile.when_entryIf_true fun _ => when_seq hnu' fun _ _ => when_seq hnw fun _ _ => when_pure _) fun _ _ => ?_
  refine when_lead hdu id fun o ho => ?_
  have g2 : 0x14 < n → c + 28 ≤ i.raw.length := by
    by_contra hc
    rw [hdu.err hc] at ho
    cases ho
  have hdu' : When True i.deviceNameOffsetUnicode := hdu.congr (by simpa using g2)
  have hdw : When True i.deviceNameUnicode := by
    unfold deviceNameUnicode
    rw [hno, pure_bind]
    split
    · exact when_pure _
    · rename_i h
      rw [hco, pure_bind]
      refine when_seq hdu' fun o ho => ?_
      rcases o with _ | o
      · exfalso
        unfold deviceNameOffsetUnicode at ho
        rw [hno, pure_bind, if_neg h, hco, pure_bind] at ho
        obtain ⟨m, -, hm⟩ := bind_ok_iff.1 ho
        cases hm
      · exact when_seq (when_readUnicodeString _) fun _ _ => when_pure _
  refine When.congr (c := True) ?_ (by simpa using g2)
  exact when_seq (LnkFile.when_entryIf_true fun _ => when_seq hdu' fun _ _ => when_seq hdw fun _ _ => when_pure _) fun _ _ =>
    when_seq hnn fun _ _ => when_seq (LnkFile.when_entryIf_true fun _ => when_seq hnn fun _ _ => when_pure _) fun _ _ =>
    when_seq hdn fun _ _ => when_seq (LnkFile.when_entryIf_true fun _ => when_seq hdn fun _ _ => when_pure _) fun _ _ => when_pure _

end LnkInfo

namespace LnkFile

theorem when_jsonInfo {f : LnkFile} {cls : InfoClass} {i : LnkInfo} (hf : f.info = some (cls, i)) (hcp : UsableCodePage i.tp) :
    When (InfoReadable (locationName cls) i.raw) f.jsonInfo := by
  unfold jsonInfo
  rw [hf]
  dsimp only
  unfold InfoReadable
  have lead : ∀ {β : Type} (k : Nat) (g : Nat → Py β) (c : Prop), k + 4 ≤ 28 → (∀ a, uAt 4 i.raw k = some a → When (28 ≤ i.raw.length ∧ c) (g a)) →
      When (28 ≤ i.raw.length ∧ c) (i.u32 k >>= g) := by
    intro β k g c hk hg
    refine when_lead (i.when_u32 k) (fun h => by omega) fun a ha => hg a ?_
    have : k + 4 ≤ i.raw.length := by
      by_contra hc
      rw [(i.when_u32 k).err hc] at ha
      cases ha
    obtain ⟨m, hm⟩ := LnkInfo.uAt_exists this
    rw [LnkInfo.u32_pure hm] at ha
    cases ha
    exact hm
  refine lead 0 _ _ (by omega) fun s hs => lead 4 _ _ (by omega) fun hsz hhs => lead 8 _ _ (by omega) fun fl hfl =>
    lead 12 _ _ (by omega) fun vo hvo => lead 16 _ _ (by omega) fun lo hlo => lead 20 _ _ (by omega) fun co hco =>
    lead 24 _ _ (by omega) fun po hpo => ?_
  have h28 : 28 ≤ i.raw.length := ExtraData.uAt_some_length hpo
  have o1 : i.localBasePathOffset = pure lo := LnkInfo.u32_pure hlo
  have o2 : i.commonPathSuffixOffset = pure po := LnkInfo.u32_pure hpo
  have o3 : i.hasOptFields = pure (decide (hsz ≥ 0x24)) := by
    unfold LnkInfo.hasOptFields LnkInfo.headerSize
    rw [LnkInfo.u32_pure hhs, pure_bind]
  have w1 : When True i.localBasePath := by
    unfold LnkInfo.localBasePath
    rw [o1, pure_bind]
    split
    · exact when_pure _
    · exact when_seq (when_readString hcp _) fun _ _ => when_pure _
  have w2 : When True i.commonPathSuffix := by
    unfold LnkInfo.commonPathSuffix
    rw [o2, pure_bind]
    split
    · exact when_pure _
    · exact when_seq (when_readString hcp _) fun _ _ => when_pure _
  refine when_seq (when_entryIf_true fun _ => when_seq w1 fun _ _ => when_pure _) fun _ _ =>
    when_seq (when_entryIf_true fun _ => when_seq w2 fun _ _ => when_pure _) fun _ _ => ?_
  have w3 : When (0x24 ≤ hsz → 32 ≤ i.raw.length) i.localBasePathOffsetUnicode := by
    unfold LnkInfo.localBasePathOffsetUnicode
    rw [o3, pure_bind]
    by_cases h : 0x24 ≤ hsz
    · simp only [ge_iff_le, h, decide_true, if_true]
      exact (when_bind (i.when_u32 28) fun _ _ => when_pure _).congr (by simp)
    · simp only [ge_iff_le, h, decide_false]
      exact (when_pure _).congr (by simp)
  have w4 : When (0x24 ≤ hsz → 36 ≤ i.raw.length) i.commonPathSuffixOffsetUnicode := by
    unfold LnkInfo.commonPathSuffixOffsetUnicode
    rw [o3, pure_bind]
    by_cases h : 0x24 ≤ hsz
    · simp only [ge_iff_le, h, decide_true, if_true]
      exact (when_bind (i.when_u32 32) fun _ _ => when_pure _).congr (by simp)
    · simp only [ge_iff_le, h, decide_false]
      exact (when_pure _).congr (by simp)
  refine when_lead w3 (fun h h' => by have := h.2.1 hsz hhs h'; omega) fun o ho => ?_
  have g3 : 0x24 ≤ hsz → 32 ≤ i.raw.length := by
    by_contra hc
    rw [w3.err hc] at ho
    cases ho
  have w3' : When True i.localBasePathOffsetUnicode := w3.congr (by simpa using g3)
  have w5 : When True i.localBasePathUnicode := by
    unfold LnkInfo.localBasePathUnicode
    refine when_seq w3' fun o _ => ?_
    rcases o with _ | _ | o
    · exact when_pure _
    · exact when_pure _
    · exact when_seq (when_readUnicodeString _) fun _ _ => when_pure _
  refine when_seq (when_entryIf_true fun _ => when_seq w3' fun _ _ => when_seq w5 fun _ _ => when_pure _) fun _ _ => ?_
  refine when_lead w4 (fun h h' => by have := h.2.1 hsz hhs h'; omega) fun o ho => ?_
  have g4 : 0x24 ≤ hsz → 36 ≤ i.raw.length := by
    by_contra hc
    rw [w4.err hc] at ho
    cases ho
  have w4' : When True i.commonPathSuffixOffsetUnicode := w4.congr (by simpa using g4)
  have w6 : When True i.commonPathSuffixUnicode := by
    unfold LnkInfo.commonPathSuffixUnicode
    refine when_seq w4' fun o _ => ?_
    rcases o with _ | _ | o
    · exact when_pure _
    · exact when_pure _
    · exact when_seq (when_readUnicodeString _) fun _ _ => when_pure _
  refine when_seq (when_entryIf_true fun _ => when_seq w4' fun _ _ => when_seq w6 fun _ _ => when_pure _) fun _ _ => ?_
  have hopt : ∀ n, uAt 4 i.raw 4 = some n → 0x24 ≤ n → 36 ≤ i.raw.length := by
    intro n hn
    rw [hhs] at hn
    cases hn
    exact g4
  rw [hvo, hco]
  cases cls
  · refine (when_bind (i.when_jsonLocal hcp hvo) fun _ _ => when_pure _).congr ?_
    simp only [h28, true_and, locationName, if_true, and_true]
    exact ⟨fun h => ⟨hopt, fun v hv => by cases hv; exact h⟩, fun h => h.2 vo rfl⟩
  · refine (when_bind (i.when_jsonNetwork hcp hco) fun _ _ => when_pure _).congr ?_
    have hne : ¬ ("Network" = "Local") := by decide
    simp only [h28, true_and, locationName, hne, if_false, and_true]
    exact ⟨fun h => ⟨hopt, fun v hv => by cases hv; exact h⟩, fun h => h.2 co rfl⟩

end LnkFile

end Verif
