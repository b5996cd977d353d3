import Verif.Lemmas.Gaps
import Verif.Spec.ItemGaps

/-
Bytes of a shell item that are not looked at.
-/

namespace Verif

open Spec Py Target

namespace Gaps

variable {w w' : Bytes}

theorem slice_slice (w : Bytes) (a s e n : Nat) : slice (slice w a (a + n)) s e = slice w (a + s) (min (a + n) (a + e)) := by
  unfold slice
  rw [List.drop_take, List.drop_drop, List.take_take]
  congr 1
  omega

theorem unpack_cases (n : Nat) (hn : 0 < n) (b : Bytes) (off : Nat) : unpackU n (slice b off (off + n)) = pure ((uAt n b off).getD 0) ∨
    unpackU n (slice b off (off + n)) = Py.raise .structError := by
  rw [unpackU_slice b n off hn]
  rcases uAt n b off with _ | v
  · exact .inr rfl
  · exact .inl rfl

theorem type_byte (c : UInt8) (x : Bytes) : unpackU 1 (slice (c :: x) 0 1) = pure c.toNat := by
  simp [unpackU, slice, leNat]

theorem bit2 (c : UInt8) : (c.toNat &&& 4 != 0) = decide (c.toNat / 4 % 2 = 1) := by
  have : ∀ n < 256, (n &&& 4 != 0) = decide (n / 4 % 2 = 1) := by decide +kernel
  exact this _ c.toNat_lt

theorem bit0 (c : UInt8) : (c.toNat &&& 0x0F &&& 1 != 0) = decide (c.toNat % 2 = 1) := by
  have : ∀ n < 256, (n &&& 0x0F &&& 1 != 0) = decide (n % 2 = 1) := by decide +kernel
  exact this _ c.toNat_lt

theorem head_same (hl : w.length = w'.length) (h : slice w 0 1 = slice w' 0 1) : w = [] ∧ w' = [] ∨ ∃ c x x', w = c :: x ∧ w' = c :: x' := by
  cases w with
  | nil =>
    cases w' with
    | nil => exact .inl ⟨rfl, rfl⟩
    | cons => simp at hl
  | cons c x =>
    cases w' with
    | nil => simp at hl
    | cons d y =>
      simp only [slice, List.drop_zero, Nat.sub_zero, List.take_succ_cons, List.take_zero, List.cons.injEq, and_true] at h
      exact .inr ⟨c, x, y, rfl, by rw [h]⟩

theorem entry_gap (hl : w.length = w'.length) (hu : ∀ r ∈ entryUsed w, slice w r.1 r.2 = slice w' r.1 r.2) (t : Target) (r' : Bytes)
    (ht : t.rawTarget = w) : fsAsItem { t with raw := r', rawTarget := w' } = t.fsAsItem := by
  have a := hu _ (.head _)
  have b := hu _ (.tail _ (.head _))
  have c := hu _ (.tail _ (.tail _ (.head _)))
  simp only at a b
  rcases head_same hl a with ⟨rfl, rfl⟩ | ⟨z, x, x', rfl, rfl⟩
  · unfold fsAsItem fsFlags classTypeIndicator
    simp only [ht]
    rfl
  · unfold fsAsItem fsFlags fsFileSize fsModificationTime fsFileAttributeFlags fsPrimaryName hasUnicodeStrings classTypeIndicator
    simp (disch := omega) only [ht, type_byte, pure_bind, slice_part b, bit2]
    by_cases h : z.toNat / 4 % 2 = 1
    · rw [if_pos (show ((z :: x).headD 0).toNat / 4 % 2 = 1 from h)] at c
      have := wide_at hl c
      simp only [h, decide_true, if_true, this]
    · rw [if_neg (show ¬ ((z :: x).headD 0).toNat / 4 % 2 = 1 from h)] at c
      have := narrow_at t.tp hl c
      simp only [h, decide_false, Bool.false_eq_true, if_false, this]

theorem cpl_gap (hl : w.length = w'.length) (hu : ∀ r ∈ cplUsed w, slice w r.1 r.2 = slice w' r.1 r.2) (t : Target) (r' : Bytes)
    (ht : t.rawTarget = w) :
    cplSignature { t with raw := r', rawTarget := w' } = t.cplSignature ∧ cplFilePath { t with raw := r', rawTarget := w' } = t.cplFilePath ∧
      cplNameString { t with raw := r', rawTarget := w' } = t.cplNameString ∧ cplComments { t with raw := r', rawTarget := w' } = t.cplComments := by
  have a : slice w 2 6 = slice w' 2 6 := hu (2, 6) (by unfold cplUsed; split <;> simp)
  have b : slice w 10 11 = slice w' 10 11 := hu (10, 11) (by unfold cplUsed; split <;> simp)
  have hb : w'[10]? = w[10]? := by
    have := congrArg (fun l => l[0]?) b
    simpa [slice] using this.symm
  have hun : cplIsUnicode { t with raw := r', rawTarget := w' } = t.cplIsUnicode := by
    unfold cplIsUnicode
    dsimp only
    rw [ht, hb, hl]
  have hun' : t.cplIsUnicode = decide (22 ≤ w.length ∧ w[10]? = some 0) := by
    unfold cplIsUnicode
    rw [ht]
    by_cases h : w.length < 22
    · simp [h, Nat.not_le.2 h]
    · simp only [h, if_false, Nat.le_of_not_lt h, true_and, Bool.beq_eq_decide_eq]
  refine ⟨by unfold cplSignature; rw [ht, a], ?_⟩
  unfold cplFilePath cplNameString cplComments cplNameOffset cplCommentsOffset cplStringsStart
  simp only [hun, hun', ht]
  unfold cplUsed at hu
  split at hu
  · rename_i h
    simp only [h, and_self, decide_true, if_true]
    have n := hu (18, 22) (by simp)
    simp only at n
    simp (disch := omega) only [slice_part n]
    refine ⟨wide_at hl (hu _ (by simp)), ?_, ?_⟩
    · rcases unpack_cases 2 (by omega) w 18 with e | e
      · simp only [e, pure_bind]
        exact wide_at hl (hu _ (by simp [u2]))
      · simp only [e, raise_bind]
    · rcases unpack_cases 2 (by omega) w 20 with e | e
      · simp only [e, pure_bind]
        split
        · rfl
        · rename_i h0
          exact wide_at hl (hu (wideAt w (22 + u2 w 20 * 2)) (List.mem_append.2 (.inr (by unfold u2; rw [if_neg h0]; exact .head _))))
      · simp only [e, raise_bind]
  · rename_i h
    simp only [h, decide_false, Bool.false_eq_true, if_false]
    have n := hu (6, 10) (by simp)
    simp only at n
    simp (disch := omega) only [slice_part n]
    refine ⟨narrow_at t.tp hl (hu _ (by simp)), ?_, ?_⟩
    · rcases unpack_cases 2 (by omega) w 6 with e | e
      · simp only [e, pure_bind]
        exact narrow_at t.tp hl (hu _ (by simp [u2]))
      · simp only [e, raise_bind]
    · rcases unpack_cases 2 (by omega) w 8 with e | e
      · simp only [e, pure_bind]
        split
        · rfl
        · rename_i h0
          exact narrow_at t.tp hl (hu (narrowAt w (10 + u2 w 8)) (List.mem_append.2 (.inr (by unfold u2; rw [if_neg h0]; exact .head _))))
      · simp only [e, raise_bind]

theorem users_gap (hl : w.length = w'.length) (hu : ∀ r ∈ usersUsed w, slice w r.1 r.2 = slice w' r.1 r.2) (t : Target) (r' : Bytes)
    (ht : t.rawTarget = w) (hc : t.cls = .usersFilesFolder) : asItem { t with raw := r', rawTarget := w' } = t.asItem := by
  have a := hu _ (.head _)
  have b := hu _ (.tail _ (.head _))
  simp only at a b
  unfold asItem
  simp only [hc]
  unfold fileEntry initBase Target.sizeOf delegateClassId delegateFolderId innerDataSize
  have hd : ∀ x : Bytes, slice (x.drop 8) 0 2 = slice x 8 (8 + 2) := fun x => by simp [slice]
  have hd' : ∀ (x : Bytes) n, slice (x.drop 8) 2 (2 + n) = slice x 10 (10 + n) := fun x n => by simp [slice]
  simp only [ht, hd, hd', bind_assoc, pure_bind]
  simp (disch := omega) only [slice_part a]
  rcases unpack_cases 2 (by omega) w 8 with e | e
  swap
  · simp only [e, raise_bind]
  simp only [e, pure_bind]
  have he := entry_gap (w := slice w 10 (10 + u2 w 8)) (w' := slice w' 10 (10 + u2 w 8)) (length_slice_same hl) (fun r hr => by
      rw [slice_slice, slice_slice]
      refine hu (10 + r.1, min (10 + u2 w 8) (10 + r.2)) (.tail _ (.tail _ (List.mem_map.2 ⟨r, ?_, rfl⟩)))
      unfold slice at hr
      rwa [Nat.add_sub_cancel_left] at hr)
    { cls := .shellFSFolder, tp := t.tp, raw := w.drop 8, rawTarget := slice w 10 (10 + u2 w 8) } (w'.drop 8) rfl
  unfold u2 at he
  rw [he]
  congr 1; funext _
  rcases unpack_cases 2 (by omega) w 2 with e | e
  · simp only [e, pure_bind]
    unfold u2 at b
    simp (disch := omega) only [slice_part b]
  · simp only [e, raise_bind]

/-- An item, read from other bytes that are the same where it is looked at. -/
theorem item_gap {c : UInt8} {x : Bytes} (hw : w = c :: x) (hl : w.length = w'.length)
    (hu : ∀ r ∈ itemUsed w, slice w r.1 r.2 = slice w' r.1 r.2) (t : Target) (r' : Bytes) (ht : t.rawTarget = w)
    (hz : Target.sizeOf r' = Target.sizeOf t.raw) (hc : t.cls = kindOf c.toNat) : asItem { t with raw := r', rawTarget := w' } = t.asItem := by
  obtain ⟨x', hw'⟩ : ∃ x', w' = c :: x' := by
    rcases head_same hl (hu _ (.head _)) with ⟨rfl, -⟩ | ⟨c', y, y', h1, h2⟩
    · cases hw
    · rw [hw] at h1
      cases h1
      exact ⟨y', h2⟩
  have hu : ∀ r, r ∈ (if c.toNat / 16 % 8 = 2 then [if c.toNat % 2 = 1 then narrowIn w 1 21 else (2, 18)]
    else if c.toNat / 16 % 8 = 3 then entryUsed w
    else if c.toNat / 16 % 8 = 4 then remoteUsed w
    else if c.toNat = 0x00 then cplUsed w
    else if c.toNat = 0x01 then [(6, 10)]
    else if c.toNat = 0x1E ∨ c.toNat = 0x1F then [(1, 18)]
    else if c.toNat = 0x70 ∨ c.toNat = 0x71 then [(14, 30)]
    else if c.toNat = 0x74 then usersUsed w
    else []) → slice w r.1 r.2 = slice w' r.1 r.2 := fun r hr => hu r (by
      unfold itemUsed
      refine .tail _ ?_
      rw [hw] at hr ⊢
      exact hr)
  unfold kindOf at hc
  split at hu
  · rename_i h
    rw [if_pos h] at hc
    have q := hu _ (.head _)
    unfold asItem
    simp only [hc]
    unfold volumeFlags volumeHasName volumeName volumeIdentifier volumeHasName volumeFlags classTypeIndicator
    simp only [ht]
    rw [show unpackU 1 (slice w' 0 1) = pure c.toNat by rw [hw']; exact type_byte _ _,
      show unpackU 1 (slice w 0 1) = pure c.toNat by rw [hw]; exact type_byte _ _]
    simp only [pure_bind, bit0]
    by_cases h2 : c.toNat % 2 = 1
    · rw [if_pos h2] at q
      simp only [h2, decide_true, if_true, narrow_in t.tp hl q]
    · rw [if_neg h2] at q
      simp only at q
      simp only [h2, decide_false, Bool.false_eq_true, if_false, q]
  rename_i h2
  rw [if_neg h2] at hc
  split at hu
  · rename_i h
    rw [if_pos h] at hc
    unfold asItem
    simp only [hc]
    have q := entry_gap hl hu t r' ht
    rw [hc] at q
    exact q
  rename_i h3
  rw [if_neg h3] at hc
  split at hu
  · rename_i h
    rw [if_pos h] at hc
    have q0 := hu (2, 3) (.head _)
    simp only at q0
    have hh : ∀ y, slice (c :: y) 0 1 = [c] := fun _ => rfl
    unfold asItem
    simp only [hc]
    unfold networkFlags contentFlags
    simp only [ht, q0]
    rw [hw', hw, hh, hh]
  rename_i h4
  rw [if_neg h4] at hc
  split at hu
  · rename_i h
    rw [if_pos h] at hc
    unfold asItem
    simp only [hc]
    obtain ⟨q1, q2, q3, q4⟩ := cpl_gap hl hu t r' ht
    rw [hc] at q1 q2 q3 q4
    rw [q1, q2, q3, q4]
  rename_i h5
  rw [if_neg h5] at hc
  split at hu
  · rename_i h
    rw [if_pos h] at hc
    have q := hu _ (.head _)
    simp only at q
    unfold asItem
    simp only [hc]
    unfold category categoryId
    simp only [ht, q]
  rename_i h6
  rw [if_neg h6] at hc
  split at hu
  · rename_i h
    rw [if_pos h] at hc
    have q := hu _ (.head _)
    simp only at q
    unfold asItem
    simp only [hc]
    unfold sortIndex sortIndexValue rootGuid
    simp (disch := omega) only [ht, slice_part q]
  rename_i h7
  rw [if_neg h7] at hc
  split at hc
  · unfold asItem
    simp only [hc]
  split at hc
  · unfold asItem
    simp only [hc]
  split at hu
  · rename_i h
    rw [if_pos h] at hc
    have q := hu _ (.head _)
    simp only at q
    unfold asItem
    simp only [hc]
    unfold controlPanelItemIdentifier
    simp only [ht, q]
  rename_i h8
  rw [if_neg h8] at hc
  split at hc
  · unfold asItem
    simp only [hc]
  split at hc
  · unfold asItem
    simp only [hc]
  split at hu
  · rename_i h
    rw [if_pos h] at hc
    exact users_gap hl hu t r' ht hc
  rename_i h9
  rw [if_neg h9] at hc
  unfold asItem
  simp only [hc, hz]

open Hidden

theorem same_length {items items' : List Bytes} (h : SameItems items items') :
    (items.flatMap itemBytes).length = (items'.flatMap itemBytes).length := by
  induction h with
  | nil => rfl
  | cons h hd hi ih => simp [List.flatMap_cons, itemBytes, ih, h]

theorem same_head {items items' : List Bytes} (h : SameItems items items') (r : Bytes) :
    (items'.flatMap itemBytes ++ 0 :: 0 :: r).take 2 = (items.flatMap itemBytes ++ [0, 0]).take 2 := by
  cases h with
  | nil => rfl
  | cons h hd hi =>
    simp only [List.flatMap_cons, itemBytes, List.append_assoc]
    rw [List.take_left' (by simp), List.take_left' (by simp), h]

theorem not_network {n : Nat} (h : ¬ n / 16 % 8 = 4) : kindOf n ≠ .networkLocation := by
  intro hk
  unfold kindOf at hk
  simp only [if_neg h] at hk
  repeat' (split at hk; · cases hk)
  cases hk

/-- The first `k` texts are the same if the bytes of `k` texts are. -/
theorem texts_same (tp : TextProc) : ∀ {x y : Bytes} (k : Nat) (acc : Bytes), x.length = y.length →
    x.take (textsLength k x) = y.take (textsLength k x) → (tp.readStringsGo acc y).take k = (tp.readStringsGo acc x).take k
  | _, _, 0, _, _, _ => by simp
  | [], y, k + 1, acc, hl, _ => by
    rw [List.length_eq_zero_iff.1 hl.symm]
  | c :: x, [], k + 1, acc, hl, _ => by simp at hl
  | c :: x, d :: y, k + 1, acc, hl, h => by
    have hl' : x.length = y.length := by simpa using hl
    by_cases hc : c = 0
    · have e : textsLength (k + 1) (c :: x) = textsLength k x + 1 := by
        subst hc
        show narrowLength (0 :: x) + textsLength k ((0 :: x).drop (narrowLength (0 :: x))) = _
        have : narrowLength (0 :: x) = 1 := by simp [narrowLength]
        rw [this, Nat.add_comm]
        rfl
      rw [e, List.take_succ_cons, List.take_succ_cons] at h
      obtain ⟨rfl, h'⟩ := List.cons.inj h
      unfold TextProc.readStringsGo
      rw [if_pos hc, if_pos hc, List.take_succ_cons, List.take_succ_cons, texts_same tp k [] hl' h']
    · have e : textsLength (k + 1) (c :: x) = textsLength (k + 1) x + 1 := by
        show narrowLength (c :: x) + textsLength k ((c :: x).drop (narrowLength (c :: x))) =
          narrowLength x + textsLength k (x.drop (narrowLength x)) + 1
        have : narrowLength (c :: x) = narrowLength x + 1 := by simp [narrowLength, hc]
        rw [this, List.drop_succ_cons]
        omega
      rw [e, List.take_succ_cons, List.take_succ_cons] at h
      obtain ⟨rfl, h'⟩ := List.cons.inj h
      unfold TextProc.readStringsGo
      rw [if_neg hc, if_neg hc]
      exact texts_same tp (k + 1) _ hl' h'

/-- The texts of a network location, from what `__init__` makes of the bytes behind the flags. -/
def netTexts (f : Py Nat) (it : List (Py Str)) : Py (Str × Option Str × Option Str) := do
  let (location, it) ← TextProc.next it
  let cf ← f
  let (description, it) ←
    (if cf &&& 0x80 ≠ 0 then do
      let r ← TextProc.next it
      pure (some r.1, r.2)
    else pure (none, it) : Py (Option Str × List (Py Str)))
  let cf ← f
  let comments ←
    (if cf &&& 0x40 ≠ 0 then do
      let r ← TextProc.next it
      pure (some r.1)
    else pure none : Py (Option Str))
  pure (location, description, comments)

theorem net_same {n : Nat} : ∀ {it it' : List (Py Str)},
    it'.take (1 + n / 128 % 2 + n / 64 % 2) = it.take (1 + n / 128 % 2 + n / 64 % 2) → netTexts (pure n) it' = netTexts (pure n) it := by
  have h7 : (n &&& 0x80 ≠ 0) ↔ n / 128 % 2 = 1 := by rw [Values.testBit7, Nat.testBit_eq_decide_div_mod_eq]; simp
  have h6 : (n &&& 0x40 ≠ 0) ↔ n / 64 % 2 = 1 := by rw [Values.testBit6, Nat.testBit_eq_decide_div_mod_eq]; simp
  intro it it' h
  unfold netTexts
  simp only [pure_bind]
  by_cases a : n / 128 % 2 = 1 <;> by_cases b : n / 64 % 2 = 1
  · simp only [h7, h6, a, b, if_true] at h ⊢
    rcases it with _ | ⟨x, _ | ⟨y, _ | ⟨z, it⟩⟩⟩ <;> rcases it' with _ | ⟨x', _ | ⟨y', _ | ⟨z', it'⟩⟩⟩ <;> simp_all [TextProc.next]
  · simp only [h7, h6, a, b, show n / 64 % 2 = 0 by omega, if_true, if_false] at h ⊢
    rcases it with _ | ⟨x, _ | ⟨y, it⟩⟩ <;> rcases it' with _ | ⟨x', _ | ⟨y', it'⟩⟩ <;> simp_all [TextProc.next]
  · simp only [h7, h6, a, b, show n / 128 % 2 = 0 by omega, if_true, if_false] at h ⊢
    rcases it with _ | ⟨x, _ | ⟨y, it⟩⟩ <;> rcases it' with _ | ⟨x', _ | ⟨y', it'⟩⟩ <;> simp_all [TextProc.next]
  · simp only [h7, h6, a, b, show n / 128 % 2 = 0 by omega, show n / 64 % 2 = 0 by omega, if_false] at h ⊢
    rcases it with _ | ⟨x, it⟩ <;> rcases it' with _ | ⟨x', it'⟩ <;> simp_all [TextProc.next]

theorem net_texts (tp : TextProc) (hl : w.length = w'.length) (hu : ∀ r ∈ remoteUsed w, slice w r.1 r.2 = slice w' r.1 r.2) :
    netTexts (unpackU 1 (slice w' 2 3)) (tp.readStrings (w'.drop 3)) = netTexts (unpackU 1 (slice w 2 3)) (tp.readStrings (w.drop 3)) := by
  have h0 := hu (2, 3) (.head _)
  have h1 := hu _ (.tail _ (.head _))
  simp only at h0 h1
  rw [← h0]
  by_cases h3 : w.length < 3
  · rw [List.drop_eq_nil_of_le (by omega), List.drop_eq_nil_of_le (by omega)]
  · obtain ⟨d, hd⟩ : ∃ d, w[2]? = some d := ⟨_, List.getElem?_eq_getElem (by omega)⟩
    have hs : slice w 2 3 = [d] := by
      unfold slice
      rw [List.drop_eq_getElem_cons (by omega)]
      rw [List.getElem?_eq_getElem (by omega)] at hd
      simp only [Option.some.injEq] at hd
      simp [hd]
    have hp : unpackU 1 (slice w 2 3) = pure d.toNat := by
      rw [hs]
      exact type_byte d []
    rw [hp]
    refine net_same ?_
    refine texts_same tp _ [] (by simp [hl]) ?_
    unfold slice at h1
    rw [List.getD_eq_getElem?_getD, hd] at h1
    simpa using h1

theorem network_init (tp : TextProc) {p rest : Bytes} (hl : p.length + 2 < 65536) :
    Target.init .networkLocation tp (itemBytes p ++ rest) = (do
      let x ← netTexts (unpackU 1 (slice (p ++ rest.take 2) 2 3)) (tp.readStrings ((p ++ rest.take 2).drop 3))
      pure { cls := .networkLocation, tp := tp, raw := itemBytes p ++ rest, rawTarget := p ++ rest.take 2,
             location := x.1, description := x.2.1, comments := x.2.2 }) := by
  simp only [Target.init, Target.initNetwork, window_itemBytes hl, pure_bind, netTexts, bind_assoc, contentFlags]

/-- One item, read from other bytes that are the same where it is looked at, with another list behind it that is read in the same way. -/
theorem item_step (tp : TextProc) {c : UInt8} {body body' rest rest' : Bytes} (hlen : (c :: body).length = (c :: body').length)
    (hl : (c :: body).length + 2 < 65536) (hh : rest'.take 2 = rest.take 2)
    (hsame : ∀ q ∈ itemUsed (c :: body ++ rest.take 2), slice (c :: body ++ rest.take 2) q.1 q.2 = slice (c :: body' ++ rest.take 2) q.1 q.2)
    (ih : LnkTargets.asListLoop (LnkTargets.idLists tp rest') = LnkTargets.asListLoop (LnkTargets.idLists tp rest)) :
    LnkTargets.asListLoop (LnkTargets.idLists tp (itemBytes (c :: body') ++ rest')) =
      LnkTargets.asListLoop (LnkTargets.idLists tp (itemBytes (c :: body) ++ rest)) := by
  have e := fun b hb => loop_step tp (c := c) (body := b) hb
  simp only [show ∀ b, [c] ++ b = c :: b from fun _ => rfl] at e
  rw [e body' (by rw [← hlen]; exact hl), e body hl, ih]
  congr 1; funext _
  have hz : ∀ (b rest : Bytes), (c :: b).length = (c :: body).length → Target.sizeOf (itemBytes (c :: b) ++ rest) = pure ((c :: body).length + 2) := by
    intro b rest hb
    rw [← hb]
    exact itemSize_itemBytes (by rw [hb]; exact hl)
  by_cases hn : c.toNat / 16 % 8 = 4
  · have hk : kindOf c.toNat = .networkLocation := by
      unfold kindOf
      simp [hn]
    have hlen' : (c :: body ++ rest.take 2).length = (c :: body' ++ rest.take 2).length := by
      rw [List.length_append, List.length_append, hlen]
    have hnet : ∀ r ∈ remoteUsed (c :: body ++ rest.take 2), slice (c :: body ++ rest.take 2) r.1 r.2 = slice (c :: body' ++ rest.take 2) r.1 r.2 :=
      fun r hr => hsame r (by
        unfold itemUsed
        simp only [List.cons_append, List.headD_cons, hn] at hr ⊢
        exact .tail _ hr)
    rw [hk, network_init tp (by rw [← hlen]; exact hl), network_init tp hl, hh, net_texts tp hlen' hnet]
    generalize netTexts _ _ = m
    rcases m with ⟨w, e | x⟩
    · by_cases he : e = .stopIteration
      · subst he
        simp [LnkTargets.genBody, Py.tryExcept, bind, Py.andThen, Py.raise]
      · simp [LnkTargets.genBody, Py.tryExcept, bind, Py.andThen, he]
    · have key := item_gap (c := c) rfl hlen' hsame
        { cls := .networkLocation, tp := tp, raw := itemBytes (c :: body) ++ rest, rawTarget := c :: body ++ rest.take 2,
          location := x.1, description := x.2.1, comments := x.2.2 }
        (itemBytes (c :: body') ++ rest') rfl (by rw [hz body' _ hlen.symm, hz body _ rfl]) hk.symm
      dsimp only at key
      simp only [LnkTargets.genBody, Py.tryExcept, bind, Py.andThen, pure, Py.ret, List.append_nil]
      unfold LnkTargets.itemOf
      rw [key]
  · have hi : ∀ x, Target.init (kindOf c.toNat) tp x = initBase (kindOf c.toNat) tp x := by
      intro x
      have := not_network hn
      generalize kindOf c.toNat = k at this
      cases k <;> first | rfl | exact absurd rfl this
    rw [hi, hi, window_itemBytes (by rw [← hlen]; exact hl), window_itemBytes hl, hh]
    have hlen' : (c :: body ++ rest.take 2).length =
        (c :: body' ++ rest.take 2).length := by
      rw [List.length_append, List.length_append, hlen]
    have key := item_gap (c := c) rfl hlen' hsame
      { cls := kindOf c.toNat, tp := tp, raw := itemBytes (c :: body) ++ rest,
        rawTarget := c :: body ++ rest.take 2 }
      (itemBytes (c :: body') ++ rest') rfl
      (by rw [hz body' _ hlen.symm, hz body _ rfl]) rfl
    dsimp only at key
    have hg : ∀ t : Target, LnkTargets.genBody (pure t) = pure t := fun _ => rfl
    rw [hg, hg, pure_bind, pure_bind]
    unfold LnkTargets.itemOf
    rw [key]

/-- A list of items, read from another one that is the same where it is looked at. -/
theorem items_gap (tp : TextProc) {items items' : List Bytes} (h : SameItems items items') (h0 : ∀ p ∈ items, p ≠ [])
    (hl : ∀ p ∈ items, p.length + 2 < 65536) (r : Bytes) :
    LnkTargets.asListLoop (LnkTargets.idLists tp (items'.flatMap itemBytes ++ 0 :: 0 :: r)) =
      LnkTargets.asListLoop (LnkTargets.idLists tp (items.flatMap itemBytes ++ 0 :: 0 :: r)) := by
  induction h with
  | nil => rfl
  | @cons p p' items items' hlen hd hi ih =>
    have ih := ih (fun p hp => h0 p (List.mem_cons_of_mem _ hp)) fun p hp => hl p (List.mem_cons_of_mem _ hp)
    have hl := hl p List.mem_cons_self
    have hsame : ∀ q ∈ itemUsed (p ++ (items.flatMap itemBytes ++ [0, 0]).take 2),
        slice (p ++ (items.flatMap itemBytes ++ [0, 0]).take 2) q.1 q.2 = slice (p' ++ (items.flatMap itemBytes ++ [0, 0]).take 2) q.1 q.2 := by
      intro q hq
      refine List.ext_getElem? fun k => ?_
      unfold slice
      rw [List.getElem?_take, List.getElem?_take]
      split
      · rw [List.getElem?_drop, List.getElem?_drop]
        by_cases hk : q.1 + k < p.length
        · rw [List.getElem?_append_left hk, List.getElem?_append_left (by omega)]
          rcases hd (q.1 + k) with h | h
          · exact h
          · have := h q hq
            omega
        · rw [List.getElem?_append_right (by omega), List.getElem?_append_right (by omega), hlen]
      · rfl
    have hh := same_head hi r
    have hh0 : (items.flatMap itemBytes ++ 0 :: 0 :: r).take 2 = (items.flatMap itemBytes ++ [0, 0]).take 2 := by
      rw [show items.flatMap itemBytes ++ 0 :: 0 :: r = items.flatMap itemBytes ++ [0, 0] ++ r by simp, List.take_append_of_le_length (by simp)]
    rw [← hh0] at hsame
    obtain ⟨c, body, rfl⟩ := List.exists_cons_of_ne_nil (h0 p List.mem_cons_self)
    obtain ⟨body', rfl⟩ : ∃ body', p' = c :: body' := by
      cases p' with
      | nil => simp at hlen
      | cons d body' =>
        have := hsame _ (.head _)
        simp only [slice, List.drop_zero, Nat.sub_zero, List.cons_append, List.take_succ_cons, List.take_zero, List.cons.injEq, and_true] at this
        exact ⟨body', by rw [this]⟩
    rw [List.flatMap_cons, List.flatMap_cons, List.append_assoc, List.append_assoc]
    exact item_step tp hlen hl (hh.trans hh0.symm) hsame ih

end Gaps

end Verif
