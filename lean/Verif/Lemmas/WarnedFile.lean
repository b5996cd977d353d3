import Verif.Lemmas.Warned
import Verif.Lemmas.ReportedExtra
import Verif.Props.Link

/-
Which warnings a report is accompanied by.
-/

namespace Verif

open Spec Py

variable {P : Warn → Prop}

/-- Pushes `Warned` through a computation without unfolding. -/
macro "warned_step1" : tactic => `(tactic| first
  | intro _
  | with_reducible assumption
  | with_reducible exact warned_pure _
  | with_reducible exact warned_raise _
  | with_reducible exact warned_unpackU _ _
  | with_reducible exact warned_unpackI _ _
  | with_reducible apply warned_bind
  | with_reducible apply warned_ite
  | split
  | dsimp only)

macro "warned_quick" : tactic => `(tactic| repeat' warned_step1)

/-! ### header -/

theorem between_take (b : Bytes) (i j m : Nat) (h : j ≤ m) : between (b.take m) i j = between b i j := by
  unfold between
  rw [List.drop_take, List.take_take]
  congr 1
  omega

theorem warned_parseFiletime {b : Bytes} (h : ∀ v : Int64, b = leI 8 v.toInt → v ≠ 0 →
    OutOfCalendar v.toInt → P (.invalidFiletime b)) :
    Warned P (parseFiletime b) := by
  by_cases hb : b.length = 8
  · obtain ⟨v, rfl⟩ := leI8_surj hb
    obtain ⟨r, w, h1, h2⟩ := Props.time_read v
    rw [h1]
    by_cases h0 : v = 0
    · rw [(h2.zero h0).2]; exact warned_silent rfl
    rcases r with _ | d
    · obtain ⟨h3, h4⟩ := h2.missing h0 rfl
      rw [h3]
      refine ⟨fun w hw => ?_⟩
      simp only [List.mem_singleton] at hw
      subst hw
      exact h v rfl h0 h4
    · rw [(h2.near d rfl).2.2]; exact warned_silent rfl
  · rw [Props.filetime_wrong_length b hb]
    exact warned_raise _

namespace LnkHeader

variable {b : Bytes} {m : Nat} (h : ∀ w, HeaderWarn b w → P w)

include h in
theorem warned_time (off : Nat) (ho : off = 28 ∨ off = 36 ∨ off = 44) :
    Warned P (parseFiletime (slice (b.take m) off (off + 8))) := by
  refine warned_parseFiletime fun v hv h0 hr => ?_
  rw [hv]
  refine h _ (.time ho ?_ h0 hr)
  have hl : (slice (b.take m) off (off + 8)).length = 8 := by rw [hv]; simp
  simp only [slice_length, List.length_take] at hl
  rw [← between_take b off (off + 8) m (by omega)]
  exact hv

theorem uAt_of_take {n off v : Nat} (hn : 0 < n) (hv : (unpackU n (slice (b.take m) off (off + n))).res = .ok v) :
    uAt n b off = some v := by
  have h1 := (uAt_iff_ok hn).1 hv
  have h2 := ExtraData.uAt_some_length h1
  rw [List.length_take] at h2
  rwa [ExtraData.uAt_take _ _ _ _ hn (by omega)] at h1

include h in
theorem warned_size : Warned P (LnkHeader.size ⟨b.take m⟩) := by
  refine warned_mustBe (warned_unpackU _ _) fun n hn hne => h _ (.size (uAt_of_take (n := 4) (off := 0) (by omega) hn) ?_)
  rintro rfl
  exact hne rfl

include h in
theorem warned_jsonHeader {f : LnkFile} (hf : f.header = ⟨b.take m⟩) : Warned P f.jsonHeader := by
  unfold LnkFile.jsonHeader
  rw [hf]
  have h1 : Warned P (LnkHeader.linkClsId ⟨b.take m⟩) := by
    refine warned_mustBe (warned_parseUuid _) fun s hs hne => ?_
    have hl : 16 ≤ (slice (b.take m) 4 20).length := by
      by_contra hc
      have := (when_parseUuid (slice (b.take m) 4 20)).err hc
      dsimp only at hs
      rw [this] at hs
      cases hs
    obtain ⟨g, hg⟩ := Props.guid_every_16_bytes (slice (b.take m) 4 20) (by
      simp only [slice_length] at hl ⊢
      omega)
    dsimp only at hs
    rw [← hg, parseUuid_encode] at hs
    obtain rfl : g.text = s := Except.ok.inj hs
    have ht : shellLinkCLSID.text = "00021401-0000-0000-C000-000000000046".toList := by decide +kernel
    rw [← ht]
    refine h _ (.classId ?_ ?_)
    · rw [hg]
      simp only [slice_length, List.length_take] at hl
      exact (between_take b 4 20 m (by omega)).symm
    · rintro rfl
      exact hne (by rw [ht])
  have h2 : Warned P (LnkHeader.rLinkFlags ⟨b.take m⟩) := warned_unpackU _ _
  have h3 : Warned P (LnkHeader.rFileFlags ⟨b.take m⟩) := warned_unpackU _ _
  have h4 : Warned P (LnkHeader.creationTime ⟨b.take m⟩) := warned_time h 28 (by omega)
  have h5 : Warned P (LnkHeader.accessTime ⟨b.take m⟩) := warned_time h 36 (by omega)
  have h6 : Warned P (LnkHeader.writeTime ⟨b.take m⟩) := warned_time h 44 (by omega)
  have h7 : Warned P (LnkHeader.fileSize ⟨b.take m⟩) := warned_unpackU _ _
  have h8 : Warned P (LnkHeader.iconIndex ⟨b.take m⟩) := warned_unpackI _ _
  have h9 : Warned P (LnkHeader.windowStyle ⟨b.take m⟩) := warned_bind (warned_unpackI _ _) fun _ => warned_pure _
  have h10 : Warned P (LnkHeader.hotKey ⟨b.take m⟩) := by
    unfold LnkHeader.hotKey
    dsimp only
    split
    · split <;> exact warned_pure _
    · exact warned_raise _
  have h11 : Warned P (LnkHeader.rawHotKey ⟨b.take m⟩) := warned_unpackU _ _
  have h12 : Warned P (LnkHeader.linkFlags ⟨b.take m⟩) := warned_bind h2 fun _ => warned_pure _
  have h13 : Warned P (LnkHeader.fileFlags ⟨b.take m⟩) := warned_bind h3 fun _ => warned_pure _
  have h14 : Warned P (LnkHeader.size ⟨b.take m⟩) := warned_size h
  have h15 : Warned P (LnkHeader.reserved0 ⟨b.take m⟩) :=
    warned_mustBe (warned_unpackU _ _) fun n hn hne =>
      h _ (.reserved0 (uAt_of_take (n := 2) (off := 66) (by omega) hn) (by rintro rfl; exact hne rfl))
  have h16 : Warned P (LnkHeader.reserved1 ⟨b.take m⟩) :=
    warned_mustBe (warned_unpackU _ _) fun n hn hne =>
      h _ (.reserved1 (uAt_of_take (n := 4) (off := 68) (by omega) hn) (by rintro rfl; exact hne rfl))
  have h17 : Warned P (LnkHeader.reserved2 ⟨b.take m⟩) :=
    warned_mustBe (warned_unpackU _ _) fun n hn hne =>
      h _ (.reserved2 (uAt_of_take (n := 4) (off := 72) (by omega) hn) (by rintro rfl; exact hne rfl))
  warned_quick

end LnkHeader

/-! ### link info -/

namespace LnkFile

theorem warned_jsonInfo (hd : ∀ s, P (.decode s)) (f : LnkFile) : Warned P f.jsonInfo := by
  unfold jsonInfo
  split
  · exact warned_pure _
  · rename_i c i hi
    have hl : Warned P (jsonLocal i) := by
      unfold jsonLocal LnkInfo.volumeIdSize LnkInfo.rDriveType LnkInfo.volumeLabelOffset LnkInfo.driveSerialNumber LnkInfo.driveType
        LnkInfo.volumeLabel LnkInfo.volumeLabelUnicodeOffset LnkInfo.volumeLabelUnicode LnkInfo.hasVolumeLabelOffsetUnicode
        LnkInfo.volumeLabelUnicodeOffset LnkInfo.rDriveType LnkInfo.volumeLabelOffset LnkInfo.hasVolumeLabelOffsetUnicode
        LnkInfo.volumeLabelOffset LnkInfo.volumeIdOffset entryIf LnkInfo.u32
      repeat' first | with_reducible exact warned_readString hd _ _ | with_reducible exact warned_readUnicodeString hd _ | warned_step1
    have hn : Warned P (jsonNetwork i) := by
      have k0 : ∀ n, Warned P (i.u32 n) := fun n => warned_unpackU _ _
      have k1 : Warned P i.cnrlOffset := k0 _
      have k2 : ∀ n, Warned P (do let s ← i.cnrlOffset; i.u32 (s + n)) := fun n => warned_bind k1 fun _ => k0 _
      have k3 : Warned P i.cnrlSize := warned_bind k1 fun _ => k0 _
      have k4 : Warned P i.cnrlFlags := k2 4
      have k5 : Warned P i.netNameOffset := k2 8
      have k6 : Warned P i.deviceNameOffset := k2 12
      have k7 : Warned P i.rNetworkProviderType := warned_bind k1 fun _ => warned_bind (k0 _) fun _ => warned_pure _
      have k8 : Warned P i.networkProviderType := by
        unfold LnkInfo.networkProviderType; warned_quick
      have k9 : Warned P i.netNameOffsetUnicode := by
        unfold LnkInfo.netNameOffsetUnicode
        repeat' first | with_reducible exact k0 _ | warned_step1
      have k10 : Warned P i.deviceNameOffsetUnicode := by
        unfold LnkInfo.deviceNameOffsetUnicode
        repeat' first | with_reducible exact k0 _ | warned_step1
      have k11 : Warned P i.netNameUnicode := by
        unfold LnkInfo.netNameUnicode
        repeat' first | with_reducible exact warned_readUnicodeString hd _ | warned_step1
      have k12 : Warned P i.deviceNameUnicode := by
        unfold LnkInfo.deviceNameUnicode
        repeat' first | with_reducible exact warned_readUnicodeString hd _ | warned_step1
      have k13 : Warned P i.netName := by
        unfold LnkInfo.netName
        repeat' first | with_reducible exact warned_readString hd _ _ | warned_step1
      have k14 : Warned P i.deviceName := by
        unfold LnkInfo.deviceName
        repeat' first | with_reducible exact warned_readString hd _ _ | warned_step1
      unfold jsonNetwork entryIf
      warned_quick
    have k0 : ∀ n, Warned P (i.u32 n) := fun n => warned_unpackU _ _
    have k1 : Warned P i.localBasePath := by
      unfold LnkInfo.localBasePath LnkInfo.localBasePathOffset
      repeat' first | with_reducible exact warned_readString hd _ _ | with_reducible exact k0 _ | warned_step1
    have k2 : Warned P i.commonPathSuffix := by
      unfold LnkInfo.commonPathSuffix LnkInfo.commonPathSuffixOffset
      repeat' first | with_reducible exact warned_readString hd _ _ | with_reducible exact k0 _ | warned_step1
    have k3 : Warned P i.localBasePathOffsetUnicode := by
      unfold LnkInfo.localBasePathOffsetUnicode LnkInfo.hasOptFields LnkInfo.headerSize
      repeat' first | with_reducible exact k0 _ | warned_step1
    have k4 : Warned P i.commonPathSuffixOffsetUnicode := by
      unfold LnkInfo.commonPathSuffixOffsetUnicode LnkInfo.hasOptFields LnkInfo.headerSize
      repeat' first | with_reducible exact k0 _ | warned_step1
    have k5 : Warned P i.localBasePathUnicode := by
      unfold LnkInfo.localBasePathUnicode
      repeat' first | with_reducible exact warned_readUnicodeString hd _ | warned_step1
    have k6 : Warned P i.commonPathSuffixUnicode := by
      unfold LnkInfo.commonPathSuffixUnicode
      repeat' first | with_reducible exact warned_readUnicodeString hd _ | warned_step1
    have m1 : Warned P i.size := k0 _
    have m2 : Warned P i.headerSize := k0 _
    have m3 : Warned P i.flags := k0 _
    have m4 : Warned P i.volumeIdOffset := k0 _
    have m5 : Warned P i.localBasePathOffset := k0 _
    have m6 : Warned P i.cnrlOffset := k0 _
    have m7 : Warned P i.commonPathSuffixOffset := k0 _
    unfold entryIf
    warned_quick

theorem warned_jsonTarget (h : ∀ w, ItemWarn w → P w) {f : LnkFile} {t : LnkTargets} (ht : f.targets = some t)
    (hcp : UsableCodePage t.tp) : Warned P f.jsonTarget := by
  unfold jsonTarget
  rw [ht]
  exact warned_bind (warned_unpackU _ _) fun _ => warned_bind (LnkTargets.warned_items h hcp _) fun _ => warned_pure _

end LnkFile

/-! ### extra data -/

namespace Metadata

theorem warned_sizeChain (b : Bytes) : Warned P (sizeChain b) := by
  induction hb : b.length using Nat.strong_induction_on generalizing b with
  | _ k ih =>
  subst hb
  rw [sizeChain_eq]
  refine warned_bind (warned_unpackU _ _) fun n => warned_ite (fun _ => warned_pure _) fun _ => warned_ite (fun h => ?_) fun _ =>
    warned_raise _
  exact warned_bind (ih _ h _ rfl) fun _ => warned_pure _

theorem warned_collect {f : Bytes → Py Dict} (hf : ∀ b, Warned P (f b)) (l : List Bytes) : Warned P (collect f l) := by
  induction l with
  | nil => exact warned_pure _
  | cons x l ih => exact warned_bind (hf x) fun _ => warned_bind ih fun _ => warned_pure _

theorem warned_propertyStore (hd : ∀ s, P (.decode s)) (b : Bytes) : Warned P (propertyStore b) := by
  have hv : ∀ b, Warned P (typedValue b) := by
    intro b
    unfold typedValue valuePadding valueType
    repeat' first | exact warned_readUnicodeString hd _ | warned_step
  have hn : ∀ n, Warned P (propertyTypeName n) := by
    intro n
    rw [propertyTypeName_eq]
    warned
  have hi : ∀ b, Warned P (integerNameAsDict b) := by
    intro b
    unfold integerNameAsDict valueType
    repeat' first | exact hv _ | exact hn _ | warned_step
  have hs : ∀ b, Warned P (stringNameAsDict b) := by
    intro b
    unfold stringNameAsDict valueType
    repeat' first | exact hv _ | exact hn _ | exact warned_readUnicodeString hd _ | warned_step
  refine warned_bind (warned_sizeChain _) fun l => warned_collect (fun s => ?_) l
  unfold storageAsDict formatId
  refine warned_bind (warned_unpackU _ _) fun _ => warned_bind (warned_unpackU _ _) fun _ => warned_bind (warned_parseUuid _) fun _ =>
    warned_bind (warned_parseUuid _) fun _ => warned_bind (warned_sizeChain _) fun _ => warned_bind (warned_collect (fun v => ?_) _) fun _ =>
    warned_pure _
  split
  · exact hs v
  · exact hi v

end Metadata

namespace Extra

theorem warned_asDict {tp : TextProc} (hcp : UsableCodePage tp) (p : Piece) {s : Nat} (hsig : p.signature = some s)
    (h : ∀ w, FieldWarn p w → P w) : Warned P (Extra.asDict ⟨extraKind s, tp, p.bytes⟩) := by
  have hd : ∀ t, P (.decode t) := fun t => h _ (.text t)
  have hu : ∀ (x : Extra) a b, Warned P (x.uint a b) := fun x a b => warned_unpackU _ _
  have hi : ∀ (x : Extra) a b, Warned P (x.sint a b) := fun x a b => warned_unpackI _ _
  unfold asDict
  refine warned_bind ?_ fun _ => warned_bind ?_ fun _ => warned_pure _
  · unfold size
    split
    · exact warned_pure _
    · exact hu _ _ _
  unfold fields
  dsimp only
  split
  · exact warned_bind (warned_readString hd _ _) fun _ => warned_bind (warned_readUnicodeString hd _) fun _ => warned_pure _
  · unfold consoleFields
    repeat' first | exact hu _ _ _ | exact hi _ _ _ | exact warned_readUnicodeString hd _ | warned_step
  · rename_i hk
    have hs : s = 0xA0000003 := by
      unfold extraKind extraKinds at hk
      simp only [List.lookup] at hk
      repeat' split at hk
      all_goals simp_all
    subst hs
    unfold trackerFields
    refine warned_bind (warned_mustBe (hu _ _ _) fun n hn hne => h _ (.length hsig ?_ ?_)) fun _ =>
      warned_bind (warned_mustBe (hu _ _ _) fun n hn hne => h _ (.version hsig ?_ ?_)) fun _ =>
      warned_bind (warned_readString hd _ _) fun _ => warned_bind (warned_parseUuid _) fun _ => warned_bind (warned_parseUuid _) fun _ =>
      warned_bind (warned_parseUuid _) fun _ => warned_bind (warned_parseUuid _) fun _ => warned_pure _
    · exact (uAt_iff_ok (n := 4) (off := 8) (by omega)).1 hn
    · rintro rfl; exact hne rfl
    · exact (uAt_iff_ok (n := 4) (off := 12) (by omega)).1 hn
    · rintro rfl; exact hne rfl
  · exact warned_bind (hu _ _ _) fun _ => warned_pure _
  · exact warned_bind (hu _ _ _) fun _ => warned_bind (hu _ _ _) fun _ => warned_pure _
  · unfold darwinFields productCodeId featureName componentId darwinDataUnicode
    repeat' first
      | exact warned_readString hd _ _
      | exact warned_readUnicodeString hd _
      | exact warned_parsePackedUuid _
      | warned_step
  · exact warned_bind (warned_readString hd _ _) fun _ => warned_bind (warned_readUnicodeString hd _) fun _ => warned_pure _
  · exact warned_bind (warned_readString hd _ _) fun _ => warned_pure _
  · exact warned_bind (Metadata.warned_propertyStore hd _) fun _ => warned_pure _
  · exact warned_bind (warned_parseUuid _) fun _ => warned_bind (hu _ _ _) fun _ => warned_pure _
  · rename_i hk
    have hs : s = 0xA000000C := extraKind_shellItem.1 hk
    subst hs
    unfold shellItemFields
    refine warned_bind ?_ fun _ => warned_pure _
    have hw : ∀ w, ItemWarn w → P w := fun w hw => h w (.item hsig hw)
    unfold shellItemIter
    dsimp only
    split
    · refine LnkTargets.warned_asListLoop hw ?_
      intro x hx
      simp only [List.mem_singleton] at hx
      subst hx
      exact ⟨⟨(hu _ _ _).out⟩, by simp⟩
    · exact LnkTargets.warned_items hw hcp _
  · exact warned_pure _
  · exact absurd ‹_› (extraKind_ne_terminal s)

theorem block_exception {tp : TextProc} (hcp : UsableCodePage tp) {s : Nat} {b : Bytes} {e : PyErr}
    (he : (Extra.asDict ⟨extraKind s, tp, b⟩).res = .error e) (hc : ExtraData.caught e = true) :
    e = .structError ∨ (s = 0xA0000009 ∧ e = .valueError) := by
  rcases Props.extra_block_exceptions ⟨extraKind s, tp, b⟩ hcp e he with h | ⟨-, rfl⟩ | ⟨h, rfl⟩ | ⟨-, rfl⟩
  · exact .inl h
  · cases hc
  · refine .inr ⟨?_, rfl⟩
    dsimp only at h
    unfold extraKind extraKinds at h
    simp only [List.lookup] at h
    repeat' split at h
    all_goals simp_all [ExtraClass.name]
  · cases hc

end Extra

namespace ExtraData

theorem warned_terminal (tp : TextProc) (b : Bytes) : Warned P (Extra.asDict ⟨.terminal, tp, b⟩) := warned_silent rfl

/-- The warnings of the extra data. -/
theorem warned_asDict {tp : TextProc} (hcp : UsableCodePage tp) {b : Bytes} {l : List Piece} {last : Bytes} (hc : Cut b l last)
    (h4 : ∀ p ∈ signed l, 4 ≤ p.declared) (T : List Extra) (hT : ∀ x ∈ T, x.cls = .terminal)
    (h : ∀ p ∈ l, ∀ w, PieceWarn p w → P w) : Warned P (asDict ⟨objects tp l ++ T⟩) := by
  have hloop : ∀ (xs : List Extra), (∀ x ∈ xs, Warned P x.asDict ∧
      ∀ e, x.asDict.res = .error e → caught e = true → P (.extraBlock x.cls.name e)) → ∀ d, Warned P (asDictLoop xs d) := by
    intro xs
    induction xs with
    | nil => intro _ d; exact warned_pure _
    | cons x xs ih =>
      intro hx d
      have ih := ih fun y hy => hx y (List.mem_cons_of_mem _ hy)
      obtain ⟨h1, h2⟩ := hx x List.mem_cons_self
      unfold asDictLoop
      refine warned_bind' (warned_attempt h1) fun r hr => ?_
      rcases r with e | d'
      · refine warned_bind (warned_warn ?_) fun _ => ih _
        unfold Py.attempt at hr
        rcases hres : x.asDict.res with e' | a
        · rw [hres] at hr
          dsimp only at hr
          split at hr
          · rename_i hce
            cases hr
            exact h2 e hres hce
          · cases hr
        · rw [hres] at hr
          cases hr
      · dsimp only
        split <;> exact ih _
  refine hloop _ (fun x hx => ?_) []
  rcases List.mem_append.1 hx with hx | hx
  · unfold objects at hx
    obtain ⟨p, hp, hpx⟩ := List.mem_filterMap.1 hx
    rcases hs : p.signature with _ | s
    · simp [hs] at hpx
    rw [hs] at hpx
    simp only [Option.map_some, Option.some.injEq] at hpx
    subst hpx
    refine ⟨Extra.warned_asDict hcp p hs fun w hw => h p hp w (.field hw), fun e he hce => ?_⟩
    have hd := cut_declared hc p hp
    rw [if_pos (h4 p (List.mem_filter.2 ⟨hp, by simp [hs]⟩))] at hd
    have hr := Extra.asDict_okIff hcp (s := s) hd.2.1 hd.2.2.1
    dsimp only
    rw [extraKind_name]
    refine h p hp _ (.unreadable hs (fun hb => ?_) (Extra.block_exception hcp he hce))
    obtain ⟨a, ha⟩ := hr.2 hb
    rw [ha] at he
    cases he
  · obtain ⟨c, tp', raw⟩ := x
    obtain rfl : c = .terminal := hT _ hx
    exact ⟨warned_terminal _ _, fun e he => by cases he⟩

end ExtraData

end Verif
