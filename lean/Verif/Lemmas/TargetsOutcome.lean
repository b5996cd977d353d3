import Verif.Lemmas.Outcome
import Verif.Lemmas.Targets

/-
Which exceptions the ID list code may raise, and the progress of its loop.
-/

namespace Verif

open Py

variable {P : PyErr → Prop}

theorem only_getShellItemClasses (n : Nat) : Only P (TargetFactory.getShellItemClasses n) := by
  unfold TargetFactory.getShellItemClasses; only

theorem only_targetClass (raw : Bytes) (h : P .structError) : Only P (TargetFactory.targetClass raw) := by
  unfold TargetFactory.targetClass TargetFactory.itemSize TargetFactory.itemType
  repeat' first | exact only_getShellItemClasses _ | only_step

namespace Target

theorem only_initBase (cls : TargetClass) (tp : TextProc) (b : Bytes) (h : P .structError) :
    Only P (initBase cls tp b) := by
  unfold initBase sizeOf; only

theorem only_initNetwork {tp : TextProc} (b : Bytes) (h : P .structError) (hs : P .stopIteration)
    (hcp : ∀ b, Only P (tp.ansiToStr b)) : Only P (initNetwork tp b) := by
  unfold initNetwork contentFlags
  apply only_bind (only_initBase _ _ _ h)
  intro t
  have h0 := only_readStrings hcp (t.rawTarget.drop 3)
  dsimp only
  apply only_bind' (only_next h0 hs)
  rintro ⟨loc, it⟩ hr
  have h1 : ∀ x ∈ it, Only P x := fun x hx => h0 x (next_mem hr x hx)
  dsimp only
  apply only_bind (only_unpackU _ _ h)
  intro cf
  apply only_bind'
  · apply only_ite
    · intro _; apply only_bind (only_next h1 hs); only
    · only
  · rintro ⟨d, it'⟩ hr'
    have h2 : ∀ x ∈ it', Only P x := by
      by_cases hc : cf &&& 0x80 ≠ 0
      · rw [if_pos hc] at hr'
        obtain ⟨r, h3, h4⟩ := bind_ok_iff.1 hr'
        simp only [pure_res, Except.ok.injEq, Prod.mk.injEq] at h4
        rw [← h4.2]
        exact fun x hx => h1 x (next_mem h3 x hx)
      · rw [if_neg hc] at hr'
        simp only [pure_res, Except.ok.injEq, Prod.mk.injEq] at hr'
        rw [← hr'.2]
        exact h1
    dsimp only
    apply only_bind (only_unpackU _ _ h)
    intro cf'
    apply only_bind
    · apply only_ite
      · intro _; apply only_bind (only_next h2 hs); only
      · only
    · only

theorem only_init (cls : TargetClass) {tp : TextProc} (b : Bytes) (h : P .structError) (hs : P .stopIteration)
    (hcp : ∀ b, Only P (tp.ansiToStr b)) : Only P (init cls tp b) := by
  unfold init
  split
  · exact only_initNetwork b h hs hcp
  · exact only_initBase _ _ _ h

theorem only_getItemShellFsFolder (n : Nat) : Only P (getItemShellFsFolder n) := by
  unfold getItemShellFsFolder; only

theorem only_fsAsItem (t : Target) (h : P .structError) (hcp : ∀ b, Only P (t.tp.ansiToStr b)) :
    Only P t.fsAsItem := by
  unfold fsAsItem fsFlags fsFileSize fsModificationTime fsFileAttributeFlags fsPrimaryName classTypeIndicator
    hasUnicodeStrings classTypeIndicator
  repeat' first
    | exact only_getItemShellFsFolder _
    | exact only_readString hcp _
    | exact only_readUnicodeString _
    | exact only_parseDostime _ h
    | only_step

theorem volumeName_identifier (t : Target) :
    (do
      let f ← t.volumeFlags
      let h ← t.volumeHasName
      if h then do
        let n ← t.volumeName
        pure [("class", PyVal.lit t.cls.name), ("flags", .str (pyHex f)), ("volume_name", PyVal.opt .str n)]
      else do
        let i ← t.volumeIdentifier
        pure [("class", .lit t.cls.name), ("flags", .str (pyHex f)), ("volume_identifier", .str i)] : Py Dict) =
    (do
      let c ← t.classTypeIndicator
      if c % 2 = 1 then do
        let n ← t.tp.readString (slice t.rawTarget 1 21)
        pure [("class", PyVal.lit t.cls.name), ("flags", .str (pyHex (c &&& 0x0F))), ("volume_name", .str n)]
      else do
        let i ← parseUuid (slice t.rawTarget 2 18)
        pure [("class", .lit t.cls.name), ("flags", .str (pyHex (c &&& 0x0F))), ("volume_identifier", .str i)] : Py Dict) := by
  unfold volumeFlags volumeHasName volumeName volumeIdentifier volumeHasName volumeFlags
  generalize hc : t.classTypeIndicator = c
  have hp : ∀ n, (n &&& 0x0F &&& 0x01 != 0) = decide (n % 2 = 1) := by
    intro n
    rw [Nat.and_assoc]
    have : 15 &&& 1 = 1 := rfl
    rw [this, Nat.and_one_is_mod]
    have := Nat.mod_two_eq_zero_or_one n
    rcases this with h | h <;> simp [h]
  rcases c with ⟨w, e | n⟩
  · simp [bind, Py.andThen]
  · have hw : w = [] := by
      unfold classTypeIndicator unpackU at hc
      split at hc
      · simpa using (congrArg Py.warns hc).symm
      · simpa using (congrArg Py.warns hc).symm
    subst hw
    have : (⟨[], .ok n⟩ : Py Nat) = pure n := rfl
    simp only [this, pure_bind, hp]
    by_cases hn : n % 2 = 1
    · simp [hn, PyVal.opt]
    · simp [hn]

theorem only_asItem (t : Target) (h : P .structError) (hcp : ∀ b, Only P (t.tp.ansiToStr b)) : Only P t.asItem := by
  unfold asItem
  split
  · unfold cplSignature cplFilePath cplNameString cplComments cplNameOffset cplCommentsOffset
    repeat' first
      | exact only_readString hcp _
      | exact only_readUnicodeString _
      | only_step
  · unfold category categoryId
    repeat' only_step
  · unfold sortIndex sortIndexValue rootGuid
    repeat' first | exact only_parseUuid _ h | only_step
  · rw [volumeName_identifier]
    unfold classTypeIndicator
    repeat' first | exact only_parseUuid _ h | exact only_readString hcp _ | only_step
  · exact only_fsAsItem t h hcp
  · unfold networkFlags contentFlags
    repeat' first | exact only_getItemShellFsFolder _ | only_step
  · unfold controlPanelItemIdentifier
    repeat' first | exact only_parseUuid _ h | only_step
  · unfold fileEntry delegateClassId delegateFolderId innerDataSize
    apply only_bind' (only_initBase _ _ _ h)
    intro fe hfe
    have htp : fe.tp = t.tp := by
      unfold initBase at hfe
      obtain ⟨n, -, h2⟩ := bind_ok_iff.1 hfe
      simp only [pure_res, Except.ok.injEq] at h2
      rw [← h2]
    apply only_bind (only_fsAsItem fe h (by rw [htp]; exact hcp))
    repeat' first | exact only_parseUuid _ h | only_step
  · unfold sizeOf
    only
  · only

theorem init_tp {cls : TargetClass} {tp : TextProc} {b : Bytes} {t : Target} (h : (init cls tp b).res = .ok t) :
    t.tp = tp := by
  unfold init at h
  split at h
  · unfold initNetwork at h
    obtain ⟨t0, h0, h⟩ := bind_ok_iff.1 h
    have : t0.tp = tp := by
      unfold initBase at h0
      obtain ⟨n, -, h2⟩ := bind_ok_iff.1 h0
      simp only [pure_res, Except.ok.injEq] at h2
      rw [← h2]
    dsimp only at h
    obtain ⟨⟨_, _⟩, -, h⟩ := bind_ok_iff.1 h
    obtain ⟨_, -, h⟩ := bind_ok_iff.1 h
    obtain ⟨⟨_, _⟩, -, h⟩ := bind_ok_iff.1 h
    obtain ⟨_, -, h⟩ := bind_ok_iff.1 h
    obtain ⟨_, -, h⟩ := bind_ok_iff.1 h
    simp only [pure_res, Except.ok.injEq] at h
    rw [← h]; exact this
  · unfold initBase at h
    obtain ⟨n, -, h2⟩ := bind_ok_iff.1 h
    simp only [pure_res, Except.ok.injEq] at h2
    rw [← h2]

end Target

namespace LnkTargets

theorem only_step_list {tp : TextProc} (b : Bytes) (h : P .structError) (hs : P .stopIteration)
    (hcp : ∀ b, Only P (tp.ansiToStr b)) : Only P (step tp b) := by
  unfold step TargetFactory.itemSize
  apply only_bind (only_targetClass b h)
  rintro (_ | c)
  · only
  · apply only_bind (Target.only_init c b h hs hcp)
    repeat' only_step

/-- One step of the loop: the size field is not zero and the loop continues behind the item. -/
theorem step_some {tp : TextProc} {b : Bytes} {t : Target} {rest : Bytes}
    (h : (step tp b).res = .ok (some (t, rest))) :
    ∃ n cls, (TargetFactory.itemSize b).res = .ok n ∧ n ≠ 0 ∧ rest = b.drop n ∧
      (TargetFactory.targetClass b).res = .ok (some cls) ∧ (Target.init cls tp b).res = .ok t := by
  unfold step at h
  obtain ⟨c, h1, h⟩ := bind_ok_iff.1 h
  cases c with
  | none => simp at h
  | some cls =>
    obtain ⟨t', h2, h⟩ := bind_ok_iff.1 h
    obtain ⟨n, h3, h⟩ := bind_ok_iff.1 h
    simp only [pure_res, Except.ok.injEq, Option.some.injEq, Prod.mk.injEq] at h
    refine ⟨n, cls, h3, ?_, h.2.symm, h1, h.1 ▸ h2⟩
    intro h0
    unfold TargetFactory.targetClass at h1
    obtain ⟨n', h4, h1⟩ := bind_ok_iff.1 h1
    rw [h3] at h4
    cases h4
    simp [h0] at h1

theorem step_shorter {tp : TextProc} {b : Bytes} {t : Target} {rest : Bytes} (hb : b ≠ [])
    (h : (step tp b).res = .ok (some (t, rest))) : rest.length < b.length := by
  obtain ⟨n, -, -, h2, rfl, -⟩ := step_some h
  have : 0 < b.length := List.length_pos_iff.2 hb
  simp only [List.length_drop]; omega

theorem genBody_ok {x : Py α} {a : α} : (genBody x).res = .ok a ↔ x.res = .ok a := by
  unfold genBody
  rw [tryExcept_res]
  rcases x with ⟨w, e | b⟩
  · simp only [reduceCtorEq, iff_false]
    split <;> simp_all
  · simp

theorem only_genBody {x : Py α} (h : Only (fun e => e = .stopIteration ∨ P e) x) (hr : P .runtimeError) :
    Only P (genBody x) := by
  unfold genBody
  apply only_tryExcept
  · exact h.mono fun e he => by simpa using he
  · only

/-- Induction over the iteration: what holds for every successful step holds for all of it. -/
theorem idLists_forall {tp : TextProc} {Q : Py Target → Prop} (P' : Bytes → Prop)
    (hP : ∀ b n, P' b → P' (b.drop n))
    (herr : ∀ b w e, P' b → (genBody (step tp b)) = ⟨w, .error e⟩ → Q ⟨w, .error e⟩)
    (hok : ∀ b w t rest, P' b → (genBody (step tp b)) = ⟨w, .ok (some (t, rest))⟩ → Q ⟨w, .ok t⟩)
    (b : Bytes) (hb : P' b) : ∀ x ∈ idLists tp b, Q x := by
  generalize hn : b.length = n
  induction n using Nat.strong_induction_on generalizing b with
  | _ n ih =>
    intro x hx
    rw [idLists.eq_def] at hx
    split at hx
    · simp at hx
    · rename_i hne
      dsimp only at hx
      rcases hg : genBody (step tp b) with ⟨w, e | r⟩
      · rw [hg] at hx
        simp only [List.mem_singleton] at hx
        exact hx ▸ herr b w e hb hg
      · rw [hg] at hx
        rcases r with _ | ⟨t, rest⟩
        · simp at hx
        · have hs : (step tp b).res = .ok (some (t, rest)) := genBody_ok.1 (by rw [hg])
          have hl := step_shorter hne hs
          simp only [hl, if_true] at hx
          rcases List.mem_cons.1 hx with rfl | hx
          · exact hok b w t rest hb hg
          · obtain ⟨m, -, -, -, rfl, -⟩ := step_some hs
            exact ih _ (by omega) (b.drop m) (hP b m hb) rfl x hx

theorem idLists_length (tp : TextProc) (b : Bytes) : (idLists tp b).length ≤ b.length := by
  generalize hn : b.length = n
  induction n using Nat.strong_induction_on generalizing b with
  | _ n ih =>
    rw [idLists.eq_def]
    split
    · simp
    · rename_i hne
      have : 0 < b.length := List.length_pos_iff.2 hne
      dsimp only
      rcases hg : genBody (step tp b) with ⟨w, e | r⟩
      · simp; omega
      · rcases r with _ | ⟨t, rest⟩
        · simp
        · dsimp only
          split
          · have := ih rest.length (by omega) rest rfl
            simp only [List.length_cons]; omega
          · simp; omega

theorem only_itemOf (t : Target) (h : P .structError) (hcp : ∀ b, Only P (t.tp.ansiToStr b)) : Only P (itemOf t) := by
  unfold itemOf
  apply only_tryExcept
  · exact only_bind ((Target.only_asItem t h hcp).mono fun _ => .inr) fun _ => only_pure _
  · only

theorem only_asListLoop {xs : List (Py Target)} (h : P .structError)
    (hx : ∀ x ∈ xs, Only P x ∧ ∀ t, x.res = .ok t → ∀ b, Only P (t.tp.ansiToStr b)) : Only P (asListLoop xs) := by
  induction xs with
  | nil => unfold asListLoop; only
  | cons x xs ih =>
    unfold asListLoop
    obtain ⟨h1, h2⟩ := hx x List.mem_cons_self
    apply only_bind' h1
    intro t ht
    apply only_bind (only_itemOf t h (h2 t ht))
    intro i
    apply only_bind (ih fun y hy => hx y (List.mem_cons_of_mem _ hy))
    only

theorem only_idLists_loop {tp : TextProc} (b : Bytes) (h : P .structError) (hr : P .runtimeError)
    (hcp : ∀ b, Only P (tp.ansiToStr b)) : Only P (asListLoop (idLists tp b)) := by
  apply only_asListLoop h
  refine idLists_forall (Q := fun x => Only P x ∧ ∀ t, x.res = .ok t → ∀ b, Only P (t.tp.ansiToStr b)) (fun _ => True)
    (fun _ _ _ => trivial) ?_ ?_ b trivial
  · intro b w e _ hg
    have := only_genBody (only_step_list (tp := tp) (P := fun e => e = .stopIteration ∨ P e) b (.inr h) (.inl rfl)
      (fun b => (hcp b).mono fun _ => .inr)) hr
    rw [hg] at this
    exact ⟨⟨fun e' he' => this.out e' (by simpa using he')⟩, by simp⟩
  · intro b w t rest _ hg
    refine ⟨⟨by simp⟩, ?_⟩
    intro t' ht'
    have : t = t' := by simpa using ht'
    subst this
    obtain ⟨_, _, -, -, -, -, hi⟩ := step_some (genBody_ok.1 (by rw [hg]))
    rw [Target.init_tp hi]; exact hcp

theorem only_asList (l : LnkTargets) (h : P .structError) (hr : P .runtimeError)
    (hcp : ∀ b, Only P (l.tp.ansiToStr b)) : Only P l.asList := only_idLists_loop _ h hr hcp

end LnkTargets

end Verif
