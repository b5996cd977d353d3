import Verif.Lemmas.WarnedFile
import Verif.Lemmas.Fault
import Verif.Spec.Notices

/-
Which warnings a computation issues if it returns.
-/

namespace Verif

open Spec

/-- If `x` returns, its warnings other than about texts and blocks are `W`. -/
structure Py.Says (x : Py α) (W : List Warn) : Prop where
  out : ∀ a, x.res = .ok a → x.warns.filter told = W

/-- Nothing but texts and blocks is complained about. -/
abbrev Py.Quiet (x : Py α) : Prop := Py.Warned (fun w => told w = false) x

namespace Py

theorem Quiet.filter {x : Py α} (h : Quiet x) : x.warns.filter told = [] := by
  rw [List.filter_eq_nil_iff]
  intro w hw
  simp [h.out w hw]

theorem says_quiet {x : Py α} (h : Quiet x) : Says x [] := ⟨fun _ _ => h.filter⟩

theorem says_bind {x : Py α} {f : α → Py β} {W V : List Warn} (hx : Says x W) (hf : ∀ a, x.res = .ok a → Says (f a) V) :
    Says (x >>= f) (W ++ V) := by
  constructor
  intro b hb
  obtain ⟨a, h1, h2⟩ := bind_ok_iff.1 hb
  rw [bind_warns, h1]
  simp only [List.filter_append]
  rw [hx.out a h1, (hf a h1).out b h2]

theorem says_skip {x : Py α} {f : α → Py β} {V : List Warn} (hx : Quiet x) (hf : ∀ a, x.res = .ok a → Says (f a) V) :
    Says (x >>= f) V := by
  simpa using says_bind (says_quiet hx) hf

theorem says_last {x : Py α} {f : α → Py β} {W : List Warn} (hx : Says x W) (hf : ∀ a, x.res = .ok a → Quiet (f a)) :
    Says (x >>= f) W := by
  simpa using says_bind hx fun a ha => says_quiet (hf a ha)

theorem says_mustBe {f : String} {v : MustVal} {w : α → MustVal} {x : Py α} {W : List Warn} (hx : Quiet x)
    (h : ∀ a, x.res = .ok a → W = unlessEqual f v (w a)) : Says (mustBe f v w x) W := by
  unfold mustBe
  refine says_skip hx fun a ha => ?_
  rw [h a ha]
  unfold unlessEqual
  by_cases hv : w a = v
  · simp only [hv, ne_eq, not_true_eq_false, if_false, if_true]
    exact says_quiet (warned_pure _)
  · simp only [hv, ne_eq, not_false_eq_true, if_true, if_false]
    exact ⟨fun _ _ => rfl⟩

end Py

open Py

namespace Target

theorem quiet_readString (tp : TextProc) (b : Bytes) : Quiet (tp.readString b) := warned_readString (fun _ => rfl) tp b
theorem quiet_readUnicodeString (b : Bytes) : Quiet (TextProc.readUnicodeString b) := warned_readUnicodeString (fun _ => rfl) b

theorem first_byte {w : Bytes} {c : Nat} (h : (unpackU 1 (slice w 0 1)).res = .ok c) :
    ∃ x rest, w = x :: rest ∧ c = x.toNat := by
  cases w with
  | nil => simp [unpackU, slice, Py.raise] at h
  | cons x rest =>
    refine ⟨x, rest, rfl, ?_⟩
    have : slice (x :: rest) 0 1 = [x] := by simp [slice]
    rw [this, unpackU_byte] at h
    exact (Except.ok.inj h).symm

theorem says_kind {w : Bytes} {c : Nat} (h : (unpackU 1 (slice w 0 1)).res = .ok c) :
    Says (getItemShellFsFolder (c &&& 15)) (kindNotices w) := by
  obtain ⟨x, rest, rfl, rfl⟩ := first_byte h
  rw [getItemShellFsFolder_eq]
  refine ⟨fun _ _ => ?_⟩
  unfold fsKindWarns kindNotices
  dsimp only
  split <;> rfl

theorem says_dostime (w : Bytes) : Says (parseDostime (slice w 6 10)) (timeNotices w) := by
  by_cases hb : (slice w 6 10).length = 4
  · obtain ⟨date, time, h1, h2, h3⟩ := Props.dostime_total _ hb
    have hw : 10 ≤ w.length := by simp at hb; omega
    have e1 : uAt 2 w 6 = some date := by
      rw [← h1]
      unfold slice
      rw [ExtraData.uAt_take 2 _ _ _ (by omega) (by omega), uAt_drop _ _ _ _ (by omega)]
    have e2 : uAt 2 w 8 = some time := by
      rw [← h2]
      unfold slice
      rw [ExtraData.uAt_take 2 _ _ _ (by omega) (by omega), uAt_drop _ _ _ _ (by omega)]
    refine ⟨fun _ _ => ?_⟩
    rw [h3]
    unfold timeNotices
    rw [e1, e2]
    simp only
    by_cases h0 : date = 0 ∧ time = 0
    · rw [if_pos h0, if_pos (.inl h0)]; rfl
    · rw [if_neg h0]
      have hd : (⟨1980 + date / 512, date / 32 % 16, date % 32, time / 2048, time / 32 % 64, time % 32 * 2, 0⟩ : DateTime) =
        dosDateTime date time := rfl
      rw [hd]
      by_cases hv : ValidDateTime (dosDateTime date time)
      · rw [if_pos hv, if_pos (.inr hv)]; rfl
      · rw [if_neg hv, if_neg (by rintro (h | h) <;> contradiction)]; rfl
  · rw [Props.dostime_wrong_length _ hb]
    exact ⟨fun _ h => by simp [Py.raise] at h⟩

theorem says_fsAsItem (t : Target) : Says t.fsAsItem (kindNotices t.rawTarget ++ timeNotices t.rawTarget) := by
  unfold fsAsItem
  refine says_bind ?_ fun _ _ => says_skip (warned_unpackU _ _) fun _ _ => says_last (says_dostime _) fun _ _ => ?_
  · unfold fsFlags classTypeIndicator
    exact says_skip (warned_unpackU _ _) fun c hc => says_kind hc
  · refine warned_bind (warned_unpackU _ _) fun _ => warned_bind ?_ fun _ => warned_pure _
    unfold fsPrimaryName hasUnicodeStrings classTypeIndicator
    dsimp only
    refine warned_bind (warned_bind (warned_unpackU _ _) fun _ => warned_pure _) fun _ => warned_ite (fun _ => ?_) fun _ => ?_
    · exact quiet_readUnicodeString _
    · exact quiet_readString _ _

theorem quiet_init (cls : TargetClass) (tp : TextProc) (b : Bytes) : Quiet (init cls tp b) :=
  warned_init (fun _ => rfl) cls tp b

theorem says_asItem (t : Target) : Says t.asItem (itemNotices t.cls.name t.rawTarget) := by
  have hq : ∀ b, Quiet (t.tp.readString b) := quiet_readString t.tp
  have hu : ∀ b, Quiet (TextProc.readUnicodeString b) := quiet_readUnicodeString
  unfold asItem
  rcases hc : t.cls
  all_goals dsimp only
  case controlPanelCPL =>
    show Says _ []
    refine says_quiet ?_
    unfold cplSignature cplFilePath cplNameString cplComments cplNameOffset cplCommentsOffset
    repeat' first | exact hq _ | exact hu _ | warned_step
  case controlPanelCategory =>
    unfold category categoryId
    refine says_skip (warned_unpackU _ _) fun c hc => says_last ?_ fun _ _ => warned_pure _
    refine says_skip (warned_unpackU _ _) fun c hc => ?_
    have h := (uAt_iff_ok (off := 6) (n := 4) (by omega)).1 hc
    rw [category_lookup]
    show Says _ (match uAt 4 t.rawTarget 6 with
    | some c => if categoryName c = none then [.category c] else []
    | none => [])
    rw [h]
    dsimp only
    rcases categoryName c with _ | s
    · exact ⟨fun _ _ => rfl⟩
    · exact ⟨fun _ _ => by rw [if_neg (by simp)]; rfl⟩
  case rootFolder =>
    unfold sortIndex sortIndexValue rootGuid
    refine says_last ?_ fun _ _ => ?_
    · refine says_skip (warned_unpackU _ _) fun c hc => ?_
      have h := (uAt_iff_ok (off := 1) (n := 1) (by omega)).1 hc
      have hlt : c < 256 := unpackU_small hc
      have hl := sortIndex_lookup (UInt8.ofNat c)
      rw [byte_toNat hlt] at hl
      rw [hl]
      show Says _ (match uAt 1 t.rawTarget 1 with
      | some v => if sortIndexName v = none then [.sortIndex v] else []
      | none => [])
      rw [h]
      dsimp only
      rcases sortIndexName c with _ | s
      · exact ⟨fun _ _ => rfl⟩
      · exact ⟨fun _ _ => by rw [if_neg (by simp)]; rfl⟩
    · repeat' first | exact warned_parseUuid _ | warned_step
  case myComputer =>
    show Says _ []
    refine says_quiet ?_
    unfold volumeName volumeIdentifier volumeHasName volumeFlags classTypeIndicator
    repeat' first | exact hq _ | exact warned_parseUuid _ | warned_step
  case shellFSFolder => exact says_fsAsItem t
  case networkLocation =>
    unfold networkFlags contentFlags
    show Says _ (kindNotices _)
    refine says_last (says_skip (warned_unpackU _ _) fun c hc => says_kind hc) fun _ _ => ?_
    warned
  case controlPanel =>
    show Says _ []
    refine says_quiet ?_
    unfold controlPanelItemIdentifier
    repeat' first | exact warned_parseUuid _ | warned_step
  case usersFilesFolder =>
    unfold fileEntry initBase sizeOf
    show Says _ (match uAt 2 t.rawTarget 8 with
    | some m => kindNotices (between t.rawTarget 10 (10 + m)) ++ timeNotices (between t.rawTarget 10 (10 + m))
    | none => [])
    rw [bind_assoc]
    refine says_skip (warned_unpackU _ _) fun m hm => ?_
    have h := (uAt_iff_ok (off := 0) (n := 2) (by omega)).1 hm
    rw [uAt_drop _ _ _ _ (by omega)] at h
    rw [h, pure_bind]
    dsimp only
    have hs : slice (t.rawTarget.drop 8) 2 (2 + m) = between t.rawTarget 10 (10 + m) := by
      unfold slice between
      rw [List.drop_drop]
      congr 1
      omega
    refine says_last (hs ▸ says_fsAsItem _) fun _ _ => ?_
    unfold delegateClassId delegateFolderId innerDataSize
    repeat' first | exact warned_parseUuid _ | warned_step
  case unknown =>
    show Says _ []
    refine says_quiet ?_
    unfold sizeOf
    warned
  all_goals exact says_quiet (warned_pure _)

end Target

namespace LnkTargets

theorem says_itemOf (t : Target) {item : Option PyVal} (ho : Only (fun e => e = .structError) t.asItem)
    (h : (itemOf t).res = .ok item) : (itemOf t).warns.filter told = itemNotices t.cls.name t.rawTarget := by
  have hs := t.says_asItem
  unfold itemOf at h ⊢
  rcases hr : t.asItem with ⟨w, e | d⟩
  · have := ho.out e (by rw [hr])
    subst this
    rw [hr] at h
    cases h
  · have := hs.out d (by rw [hr])
    rw [hr] at this
    rw [← this]
    show List.filter told (w ++ []) = _
    rw [List.append_nil]

theorem init_parts {tp : TextProc} (hcp : UsableCodePage tp) {c : TargetClass} {b : Bytes} {n : Nat} (hu : uAt 2 b 0 = some n)
    {tg : Target} (h : (Target.init c tp b).res = .ok tg) : tg.cls = c ∧ tg.rawTarget = (b.drop 2).take n := by
  by_cases hnet : c = .networkLocation
  · subst hnet
    have hin := Target.initNetwork_fails hcp b n hu
    have hinit : Target.init .networkLocation tp b = Target.initNetwork tp b := rfl
    rw [← hinit] at hin
    rcases hf : itemFault "Network location" ((b.drop 2).take n) with _ | e
    · rw [hf] at hin
      obtain ⟨tg', htg, k1, k2, k3, k4⟩ := hin
      rw [h] at htg
      cases htg
      exact ⟨k1, k4⟩
    · rw [hf, h] at hin
      split at hin <;> cases hin
      contradiction
  · have hinit : Target.init c tp b =
        pure { cls := c, tp := tp, raw := b, rawTarget := (b.drop 2).take n } := by
      have : Target.init c tp b = Target.initBase c tp b := by
        cases c <;> first | rfl | exact absurd rfl hnet
      rw [this]
      unfold Target.initBase Target.sizeOf
      have := Target.leNat_slice (n := 2) (off := 0) (by omega) hu
      rw [this, pure_bind]
      simp [slice]
    rw [hinit] at h
    cases h
    exact ⟨rfl, rfl⟩

theorem says_idLists {tp : TextProc} (hcp : UsableCodePage tp) (b : Bytes) :
    Says (asListLoop (idLists tp b)) (listNotices b) := by
  induction hb : b.length using Nat.strong_induction_on generalizing b with
  | _ k ih =>
  subst hb
  constructor
  intro items h
  rw [idLists.eq_def] at h ⊢
  rw [listNotices.eq_def]
  by_cases hne : b = []
  · rw [if_pos hne, if_pos hne]
    rfl
  rw [if_neg hne] at h ⊢
  rw [if_neg hne]
  have hpos : 0 < b.length := List.length_pos_iff.2 hne
  obtain ⟨d0, d1, d2⟩ := Props.item_dispatch_end b
  dsimp only at h ⊢
  rcases hg : genBody (step tp b) with ⟨w, e | _ | ⟨tg, rest⟩⟩
  · rw [hg] at h
    cases h
  · have hs := (genBody_ok (x := step tp b) (a := none)).1 (by rw [hg])
    rcases hu : uAt 2 b 0 with _ | _ | n
    · rfl
    · rfl
    rcases ht : b[2]? with _ | t
    · rfl
    exfalso
    obtain ⟨c, wc, hc, -, -⟩ := Props.item_dispatch b (n + 1) t hu (by omega) ht
    unfold step at hs
    rw [hc] at hs
    obtain ⟨o, h1, h2⟩ := bind_ok_iff.1 hs
    cases h1
    obtain ⟨_, -, h2⟩ := bind_ok_iff.1 h2
    obtain ⟨_, -, h2⟩ := bind_ok_iff.1 h2
    cases h2
  · have hs := (genBody_ok (x := step tp b) (a := some (tg, rest))).1 (by rw [hg])
    obtain ⟨n, cls, hsz, hn0, rfl, hcls, hi⟩ := step_some hs
    have hu : uAt 2 b 0 = some n := (uAt_iff_ok (off := 0) (n := 2) (by omega)).1 hsz
    obtain ⟨n, rfl⟩ : ∃ m, n = m + 1 := ⟨n - 1, by omega⟩
    have hlt : (b.drop (n + 1)).length < b.length := by simp; omega
    rw [hg] at h
    simp only [if_pos hlt] at h ⊢
    rw [hu]
    rcases ht : b[2]? with _ | t
    · exfalso
      have h2 := ExtraData.uAt_some_length hu
      have h3 := List.getElem?_eq_none_iff.1 ht
      rw [d2 _ hu (by omega) (by omega)] at hcls
      cases hcls
    obtain ⟨c, wc, hc, hname, hwc⟩ := Props.item_dispatch b (n + 1) t hu (by omega) ht
    rw [hc] at hcls
    cases hcls
    obtain ⟨p1, p2⟩ := init_parts hcp hu hi
    have hw : w.filter told = typeNotices t.toNat := by
      have e1 : (genBody (step tp b)).warns = (step tp b).warns := by
        unfold genBody Py.tryExcept
        rcases hst : step tp b with ⟨w', e | r⟩
        · rw [hst] at hs; cases hs
        · rfl
      rw [hg] at e1
      dsimp only at e1
      rw [e1]
      have hS : Says (step tp b) (typeNotices t.toNat) := by
        unfold step
        rw [hc]
        refine says_last ⟨fun _ _ => ?_⟩ fun o ho => ?_
        · dsimp only
          rw [hwc]
          unfold typeNotices
          split <;> rfl
        · cases ho
          exact warned_bind (Target.quiet_init _ _ _) fun _ => warned_bind (warned_unpackU _ _) fun _ => warned_pure _
      exact hS.out _ hs
    unfold asListLoop at h ⊢
    obtain ⟨tg', h1, h⟩ := bind_ok_iff.1 h
    cases h1
    obtain ⟨item, hitem, h⟩ := bind_ok_iff.1 h
    obtain ⟨its, hits, -⟩ := bind_ok_iff.1 h
    have hI := says_itemOf tg (Target.only_asItem (P := fun e => e = .structError) tg rfl fun b => only_ansiToStr
      (by rw [Target.init_tp hi]; exact hcp) b) hitem
    have hR := (ih _ hlt _ rfl).out its hits
    rw [bind_warns]
    simp only [List.filter_append, bind_warns, hitem, hits, pure_warns, List.append_nil]
    rw [hw, hI, hR, p1, p2, hname, List.append_assoc]

end LnkTargets

end Verif
