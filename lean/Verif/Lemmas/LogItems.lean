import Verif.Lemmas.LogHeader

/-
What the items of a list say and raise.
-/

namespace Verif

open Spec Spec.Log Py

namespace Py

theorem logs_room {b : Bytes} {m : Nat} {x : Py α} {ls : List Log} (h : m ≤ b.length) (hx : Logs x (all ls)) :
    Logs x (all (room m b :: ls)) := by rw [room_pos h, all_quiet]; exact hx

theorem logs_single {x : Py α} {l : Log} (h : Logs x l) : Logs x (all [l]) := by rw [all_one]; exact h

theorem reads_uuid {s e : Nat} {b : Bytes} (h : e = s + 16) : ∃ v, Reads (parseUuid (slice b s e)) e b v := ⟨_, reads_parseUuid h⟩

/-- A read with nothing after it. -/
theorem logs_read {x : Py α} {m : Nat} {b : Bytes} {v : α} (h : Reads x m b v) : Logs x (room m b) := by
  by_cases hl : m ≤ b.length
  · rw [h.ok hl, room_pos hl]; exact logs_pure _
  · rw [h.err (by omega), room_neg hl]; exact logs_raise _

end Py

namespace Target

theorem byteOf (w : Bytes) (off : Nat) : (uAt 1 w off).getD 0 = (w.getD off 0).toNat := by
  unfold uAt
  split
  · simp [uAt.go]
  · rw [List.getD_eq_getElem?_getD, List.getElem?_eq_none (by omega)]
    rfl

theorem byteAt (w : Bytes) : (uAt 1 w 0).getD 0 = (w.headD 0).toNat := by
  rw [byteOf]
  cases w <;> rfl

theorem logs_kind {w : Bytes} (h : 1 ≤ w.length) : Logs (getItemShellFsFolder ((uAt 1 w 0).getD 0 &&& 15)) (say (kindNotices w)) := by
  obtain ⟨x, rest, rfl⟩ := List.exists_cons_of_length_pos h
  rw [byteAt, List.headD_cons, getItemShellFsFolder_eq]
  unfold fsKindWarns kindNotices
  exact logs_ok

theorem logs_dostime (w : Bytes) : Logs (parseDostime (slice w 6 10)) (all [room 10 w, say (timeNotices w)]) := by
  by_cases hw : 10 ≤ w.length
  · rw [room_pos hw, all_quiet, all_one]
    have hl : (slice w 6 10).length = 4 := by simp; omega
    have hs := (says_dostime w)
    obtain ⟨date, time, h1, h2, h3⟩ := Props.dostime_total _ hl
    have h4 : ∃ a, (parseDostime (slice w 6 10)).res = .ok a := by
      rw [h3]
      split
      · exact ⟨_, rfl⟩
      · simp only
        split <;> exact ⟨_, rfl⟩
    have h5 : (parseDostime (slice w 6 10)).warns.filter told = (parseDostime (slice w 6 10)).warns := by
      rw [h3]
      split
      · rfl
      · simp only
        split <;> rfl
    obtain ⟨a, ha⟩ := h4
    exact ⟨by rw [← hs.out a ha, h5], err_ok ha⟩
  · rw [room_neg hw, all_fail, Props.dostime_wrong_length _ (by simp; omega)]
    exact logs_raise _

theorem bit2 (n : Nat) : (n &&& 0x04 != 0) = n.testBit 2 := and_two_pow_ne_zero n 2

theorem bit0 (n : Nat) : ((n &&& 0x0F) &&& 0x01 != 0) = n.testBit 0 := by
  have h1 : (n &&& 0x0F) &&& 0x01 = n &&& 1 := by rw [Nat.and_assoc]; rfl
  rw [h1]
  exact and_two_pow_ne_zero n 0

theorem logs_either (tp : TextProc) (u : Bool) (b : Bytes) :
    Logs (if u then TextProc.readUnicodeString b else tp.readString b) (either tp u b) := by
  unfold Log.either
  cases u
  · exact logs_narrow tp b
  · exact logs_wide b

theorem logs_file (t : Target) : Logs t.fsAsItem (file t.tp t.rawTarget) := by
  unfold fsAsItem Log.file
  have h1 : Logs t.fsFlags (all [room 1 t.rawTarget, say (kindNotices t.rawTarget)]) := by
    unfold fsFlags
    refine read_last (reads_unpackU (by omega) (by omega)) fun hl => ?_
    exact logs_single (logs_kind hl)
  refine logs_app h1 fun _ _ => ?_
  refine read_step (reads_unpackU (by omega) (by omega)) (by omega) ?_
  refine logs_app (logs_dostime _) fun _ _ => ?_
  refine read_last (reads_unpackU (by omega) (by omega)) fun hl => ?_
  refine logs_single (logs_map _ ?_)
  unfold fsPrimaryName hasUnicodeStrings
  simp only [bind_assoc]
  refine read_known (reads_unpackU (b := t.rawTarget) (by omega) (by omega)) (by omega) ?_
  rw [pure_bind, bit2, byteAt]
  exact logs_either _ _ _

theorem logs_cpl {t : Target} (hc : t.cls = .controlPanelCPL) : Logs t.asItem (cpl t.tp t.rawTarget) := by
  unfold asItem Log.cpl
  rw [hc]
  refine read_last (reads_unpackU (by omega) (by omega)) fun hl => ?_
  have hu : t.cplIsUnicode = Spec.cplWide t.rawTarget := Values.cplWide_eq t
  unfold cplFilePath cplNameString cplComments cplNameOffset cplCommentsOffset cplStringsStart
  simp only [hu]
  by_cases hw : Spec.cplWide t.rawTarget = true
  · rw [hw]
    simp only [if_true]
    have h22 : 22 ≤ t.rawTarget.length := by
      unfold Spec.cplWide at hw
      simp only [Bool.and_eq_true, decide_eq_true_eq] at hw
      exact hw.1
    refine logs_single ?_
    refine logs_cons (logs_wide _) fun _ _ => ?_
    simp only [bind_assoc]
    refine read_known (reads_unpackU (b := t.rawTarget) (by omega) (by omega)) (by omega) ?_
    refine logs_cons (logs_wide _) fun _ _ => ?_
    refine read_known (reads_unpackU (b := t.rawTarget) (by omega) (by omega)) (by omega) ?_
    refine logs_single (logs_map _ ?_)
    by_cases h0 : (uAt 2 t.rawTarget 20).getD 0 = 0
    · rw [if_pos h0, given_neg (by unfold u2; simpa using h0)]
      exact logs_pure _
    · rw [if_neg h0, given_pos (by unfold u2; simpa using h0)]
      exact logs_wide _
  · rw [Bool.eq_false_iff.2 hw]
    simp only [Bool.false_eq_true, if_false]
    refine logs_single ?_
    refine logs_cons (logs_narrow _ _) fun _ _ => ?_
    simp only [bind_assoc]
    refine read_last (reads_unpackU (b := t.rawTarget) (by omega) (by omega)) fun _ => ?_
    refine logs_cons (logs_narrow _ _) fun _ _ => ?_
    refine read_last (reads_unpackU (b := t.rawTarget) (by omega) (by omega)) fun _ => ?_
    refine logs_single (logs_map _ ?_)
    by_cases h0 : (uAt 2 t.rawTarget 8).getD 0 = 0
    · rw [if_pos h0, given_neg (by unfold u2; simpa using h0)]
      exact logs_pure _
    · rw [if_neg h0, given_pos (by unfold u2; simpa using h0)]
      exact logs_narrow _ _

theorem uAt_there {n off : Nat} {b : Bytes} (h : off + n ≤ b.length) : uAt n b off = some ((uAt n b off).getD 0) := by
  rcases hu : uAt n b off with _ | k
  · rw [uAt_eq_none_iff] at hu; omega
  · rfl

theorem logs_category {t : Target} (hc : t.cls = .controlPanelCategory) :
    Logs t.asItem (all [room 10 t.rawTarget, say (itemNotices "Control panel category" t.rawTarget)]) := by
  unfold asItem
  rw [hc]
  refine read_last (reads_unpackU (by omega) (by omega)) fun hl => ?_
  unfold category
  simp only [bind_assoc]
  refine read_known (reads_unpackU (b := t.rawTarget) (by omega) (by omega)) (by omega) ?_
  refine logs_single ?_
  have hu := uAt_there (n := 4) (off := 6) (b := t.rawTarget) (by omega)
  unfold itemNotices
  rw [if_pos rfl, hu]
  simp only [Option.getD_some, category_lookup]
  rcases categoryName ((uAt 4 t.rawTarget 6).getD 0) with _ | c
  · exact ⟨rfl, rfl⟩
  · exact ⟨rfl, rfl⟩

theorem logs_root {t : Target} (hc : t.cls = .rootFolder) :
    Logs t.asItem (all [room 2 t.rawTarget, say (itemNotices "Root Folder" t.rawTarget), room 18 t.rawTarget]) := by
  unfold asItem
  rw [hc]
  unfold sortIndex
  simp only [bind_assoc]
  refine read_last (reads_unpackU (by omega) (by omega)) fun hl => ?_
  have hu := uAt_there (n := 1) (off := 1) (b := t.rawTarget) (by omega)
  have hn : itemNotices "Root Folder" t.rawTarget =
      if sortIndexName ((uAt 1 t.rawTarget 1).getD 0) = none then [.sortIndex ((uAt 1 t.rawTarget 1).getD 0)] else [] := by
    unfold itemNotices
    rw [if_neg (by decide), if_pos rfl]
    conv => lhs; rw [hu]
  rw [hn]
  obtain ⟨v, hv⟩ : ∃ v : UInt8, (uAt 1 t.rawTarget 1).getD 0 = v.toNat := ⟨_, byteOf _ _⟩
  rw [hv, sortIndex_lookup]
  have tail : ∀ s : String, Logs (do
      let v ← t.sortIndexValue
      let g ← t.rootGuid
      pure [("class", PyVal.lit TargetClass.rootFolder.name), ("sort_index", .lit s), ("sort_index_value", .nat v), ("guid", .str g)]) (all [room 18 t.rawTarget]) := by
    intro s
    refine read_step (reads_unpackU (by omega) (by omega)) (by omega) ?_
    exact logs_single (logs_map _ (logs_read (reads_parseUuid rfl)))
  rcases sortIndexName v.toNat with _ | s
  · simp only [if_true, bind_assoc]
    refine logs_cons (l := say _) (x := warn _) ⟨rfl, rfl⟩ fun _ _ => ?_
    rw [pure_bind]
    exact tail "Unknown"
  · simp only [reduceCtorEq, if_false, say_nil]
    rw [all_quiet, pure_bind]
    exact tail s

theorem logs_volume {t : Target} (hc : t.cls = .myComputer) :
    Logs t.asItem (all [room 1 t.rawTarget,
      if (t.rawTarget.headD 0).toNat.testBit 0 then narrow t.tp (between t.rawTarget 1 21) else room 18 t.rawTarget]) := by
  unfold asItem
  rw [hc]
  unfold volumeName volumeIdentifier volumeHasName volumeFlags classTypeIndicator
  simp only [bind_assoc]
  refine read_last (reads_unpackU (by omega) (by omega)) fun hl => ?_
  have hk := (reads_unpackU (b := t.rawTarget) (n := 1) (s := 0) (e := 1) (by omega) (by omega)).ok hl
  simp only [hk, pure_bind, bit0, byteAt]
  refine logs_single ?_
  by_cases h : (t.rawTarget.headD 0).toNat.testBit 0 = true
  · simp only [h, if_true, bind_assoc, pure_bind]
    exact logs_map _ (logs_narrow _ _)
  · simp only [h, Bool.false_eq_true, if_false]
    exact logs_map _ (logs_read (reads_parseUuid rfl))

theorem logs_network {t : Target} (hc : t.cls = .networkLocation) (hw : 3 ≤ t.rawTarget.length) :
    Logs t.asItem (say (kindNotices t.rawTarget)) := by
  unfold asItem
  rw [hc]
  unfold networkFlags
  simp only [bind_assoc]
  refine read_known (reads_unpackU (b := t.rawTarget) (by omega) (by omega)) (by omega) ?_
  have h := logs_kind (w := t.rawTarget) (by omega)
  have := logs_bind (f := fun f => do
    let cf ← t.contentFlags
    pure [("class", PyVal.lit t.cls.name), ("flags", .lit f), ("content_flags", .nat cf), ("location", .str t.location),
      ("description", PyVal.opt .str t.description), ("comments", PyVal.opt .str t.comments)]) (m := quiet) h
    fun _ _ => read_known (reads_unpackU (b := t.rawTarget) (by omega) (by omega)) (by omega) (logs_pure _)
  rw [andThen_quiet, hc] at this
  exact this

theorem logs_controlPanel {t : Target} (hc : t.cls = .controlPanel) : Logs t.asItem (room 30 t.rawTarget) := by
  unfold asItem
  rw [hc]
  exact logs_map _ (logs_read (reads_parseUuid rfl))

theorem logs_users {t : Target} (hc : t.cls = .usersFilesFolder) :
    Logs t.asItem (all [room 10 t.rawTarget, file t.tp (between t.rawTarget 10 (10 + u2 t.rawTarget 8)),
      room (u2 t.rawTarget 2 + 36) t.rawTarget]) := by
  unfold asItem
  rw [hc]
  unfold fileEntry initBase sizeOf
  have e : slice (t.rawTarget.drop 8) 0 2 = slice t.rawTarget 8 10 := by
    simp [slice, List.drop_drop]
  rw [e]
  simp only [bind_assoc]
  refine read_last (reads_unpackU (by omega) (by omega)) fun hl => ?_
  rw [pure_bind]
  have e2 : slice (t.rawTarget.drop 8) 2 (2 + (uAt 2 t.rawTarget 8).getD 0) = between t.rawTarget 10 (10 + u2 t.rawTarget 8) := by
    unfold slice between u2
    rw [List.drop_drop]
    congr 1
    omega
  refine logs_cons (l := file t.tp (between t.rawTarget 10 (10 + u2 t.rawTarget 8))) ?_ fun _ _ => ?_
  · have := logs_file ⟨.shellFSFolder, t.tp, t.rawTarget.drop 8, slice (t.rawTarget.drop 8) 2 (2 + (uAt 2 t.rawTarget 8).getD 0), [], none, none⟩
    rw [e2] at this
    rw [e2]
    exact this
  · unfold delegateClassId delegateFolderId innerDataSize
    simp only [bind_assoc]
    refine read_known (reads_unpackU (b := t.rawTarget) (by omega) (by omega)) (by omega) ?_
    refine read_step (reads_parseUuid rfl) (by unfold u2; omega) ?_
    refine read_known (reads_unpackU (b := t.rawTarget) (by omega) (by omega)) (by omega) ?_
    refine logs_single ?_
    have e3 : u2 t.rawTarget 2 + 36 = 4 + (uAt 2 t.rawTarget 2).getD 0 + 16 + 16 := by unfold u2; omega
    rw [e3]
    exact logs_map _ (logs_read (reads_parseUuid rfl))

theorem logs_asItem {t : Target} (hr : 2 ≤ t.raw.length) (hn : t.cls = .networkLocation → 3 ≤ t.rawTarget.length) :
    Logs t.asItem (if t.cls = .networkLocation then say (kindNotices t.rawTarget) else item t.tp t.cls.name t.rawTarget) := by
  have quietly : ∀ {cls : TargetClass}, t.cls = cls → cls = .compressedFolder ∨ cls = .internet ∨ cls = .printers ∨ cls = .commonPlacesFolder →
      Logs t.asItem quiet := by
    rintro cls hc (rfl | rfl | rfl | rfl) <;> (unfold asItem; rw [hc]; exact logs_pure _)
  unfold item
  cases hc : t.cls with
  | controlPanelCPL => exact logs_cpl hc
  | controlPanelCategory => exact logs_category hc
  | rootFolder => exact logs_root hc
  | myComputer => exact logs_volume hc
  | shellFSFolder =>
    have := logs_file t
    unfold asItem
    rw [hc]
    exact this
  | networkLocation => exact logs_network hc (hn hc)
  | compressedFolder => exact quietly hc (by simp)
  | internet => exact quietly hc (by simp)
  | controlPanel => exact logs_controlPanel hc
  | printers => exact quietly hc (by simp)
  | commonPlacesFolder => exact quietly hc (by simp)
  | usersFilesFolder => exact logs_users hc
  | unknown =>
    unfold asItem
    rw [hc]
    exact read_known (reads_unpackU (b := t.raw) (by omega) (by omega)) (by omega) (logs_pure _)

end Target

end Verif
