import Verif.Lemmas.FileOutcome
import Verif.Lemmas.Layout
import Verif.Props.Targets
import Verif.Spec.Outcome

/-
When the parts of the report can be made, and what is raised otherwise.
-/

namespace Verif

open Spec

/-- `x` returns if `c` holds, and raises `struct.error` otherwise. -/
structure Py.When (c : Prop) (x : Py α) : Prop where
  ok : c → ∃ a, x.res = .ok a
  err : ¬ c → x.res = .error .structError

namespace Py

theorem When.congr {c d : Prop} {x : Py α} (h : When c x) (hcd : c ↔ d) : When d x :=
  ⟨fun hd => h.ok (hcd.2 hd), fun hd => h.err fun hc => hd (hcd.1 hc)⟩

theorem when_bind {c d : Prop} {x : Py α} {f : α → Py β} (hx : When c x) (hf : ∀ a, x.res = .ok a → When d (f a)) :
    When (c ∧ d) (x >>= f) := by
  constructor
  · rintro ⟨hc, hd⟩
    obtain ⟨a, ha⟩ := hx.ok hc
    obtain ⟨b, hb⟩ := (hf a ha).ok hd
    exact ⟨b, bind_ok_iff.2 ⟨a, ha, hb⟩⟩
  · intro h
    by_cases hc : c
    · obtain ⟨a, ha⟩ := hx.ok hc
      exact bind_error_iff.2 (.inr ⟨a, ha, (hf a ha).err fun hd => h ⟨hc, hd⟩⟩)
    · exact bind_error_iff.2 (.inl (hx.err hc))

theorem when_total {x : Py α} (h : Only (fun _ => False) x) : When True x :=
  ⟨fun _ => by obtain ⟨a, w, rfl⟩ := only_false_iff.1 h; exact ⟨a, rfl⟩, fun h => absurd trivial h⟩

theorem when_pure (a : α) : When True (pure a : Py α) := ⟨fun _ => ⟨a, rfl⟩, fun h => absurd trivial h⟩

theorem when_ite {c : Prop} [Decidable c] {p q : Prop} {x y : Py α} (hx : c → When p x) (hy : ¬ c → When q y) :
    When ((c → p) ∧ (¬ c → q)) (if c then x else y) := by
  by_cases h : c
  · rw [if_pos h]
    exact (hx h).congr (by simp [h])
  · rw [if_neg h]
    exact (hy h).congr (by simp [h])

theorem when_unpackU (n : Nat) (b : Bytes) : When (b.length = n) (unpackU n b) := by
  constructor <;> intro h <;> unfold unpackU
  · rw [if_pos h]; exact ⟨_, rfl⟩
  · rw [if_neg h]; rfl

theorem when_unpackI (n : Nat) (b : Bytes) : When (b.length = n) (unpackI n b) := by
  constructor <;> intro h <;> unfold unpackI
  · rw [if_pos h]; exact ⟨_, rfl⟩
  · rw [if_neg h]; rfl

theorem when_mustBe (f : String) (v : MustVal) (w : α → MustVal) {c : Prop} {x : Py α} (hx : When c x) :
    When c (mustBe f v w x) := by
  constructor
  · intro h
    obtain ⟨a, ha⟩ := hx.ok h
    refine ⟨a, bind_ok_iff.2 ⟨a, ha, ?_⟩⟩
    split <;> rfl
  · intro h
    exact bind_error_iff.2 (.inl (hx.err h))

theorem when_parseUuid (b : Bytes) : When (16 ≤ b.length) (parseUuid b) := by
  constructor
  · intro h
    unfold parseUuid
    rw [if_neg (by simp; omega), if_neg (by simp; omega)]
    exact ⟨_, rfl⟩
  · intro h
    rw [parseUuid_short (by omega)]
    rfl

theorem when_of_only {x : Py α} {c : Prop} (hx : c → Only (fun _ => False) x) (hy : ¬ c → x.res = .error .structError) :
    When c x := ⟨fun h => (when_total (hx h)).ok trivial, hy⟩

theorem when_parseFiletime (b : Bytes) : When (b.length = 8) (parseFiletime b) := by
  refine when_of_only (fun h => ?_) fun h => ?_
  · unfold parseFiletime
    refine only_tryExcept ?_ fun _ => only_bind (only_warn _) fun _ => only_pure _
    have : Only (fun e => decide (e = .osError ∨ e = .overflowError ∨ e.isValueError) = true ∨ False) (unpackI 8 b) := by
      unfold unpackI
      rw [if_pos h]
      exact only_pure _
    refine only_bind this fun n => only_ite (fun _ => only_pure _) fun _ => ?_
    exact only_bind (only_fromTimestamp _ (by decide)) fun _ => only_pure _
  · unfold parseFiletime
    have : unpackI 8 b = raise .structError := by
      unfold unpackI
      rw [if_neg h]
    rw [this]
    rfl

theorem when_parseDostime (b : Bytes) : When (b.length = 4) (parseDostime b) := by
  refine when_of_only (fun h => ?_) fun h => ?_
  · unfold parseDostime
    refine only_tryExcept ?_ fun _ => only_bind (only_warn _) fun _ => only_pure _
    have : Only (fun e => e.isValueError = true ∨ False) (unpackU 4 b) := by
      unfold unpackU
      rw [if_pos h]
      exact only_pure _
    refine only_bind this fun n => only_ite (fun _ => only_pure _) fun _ => ?_
    exact only_bind (only_mkDateTime _ _ _ _ _ _ (by decide)) fun _ => only_pure _
  · unfold parseDostime
    have : unpackU 4 b = raise .structError := by
      unfold unpackU
      rw [if_neg h]
    rw [this]
    rfl

theorem when_readString {tp : TextProc} (hcp : UsableCodePage tp) (b : Bytes) : When True (tp.readString b) :=
  when_total (only_readString (fun b => only_ansiToStr hcp b) b)

theorem when_readUnicodeString (b : Bytes) : When True (TextProc.readUnicodeString b) :=
  when_total (only_readUnicodeString b)

end Py

/-- Goes through a sequence of reads. -/
macro "reads" : tactic => `(tactic| repeat' first
  | assumption
  | exact Py.when_pure _
  | exact Py.when_unpackU _ _
  | exact Py.when_unpackI _ _
  | exact Py.when_parseUuid _
  | exact Py.when_parseFiletime _
  | exact Py.when_parseDostime _
  | exact Py.when_readUnicodeString _
  | exact Py.when_mustBe _ _ _ (Py.when_unpackU _ _)
  | exact Py.when_mustBe _ _ _ (Py.when_parseUuid _)
  | intro _ _
  | apply Py.when_bind)

open Py

namespace LnkFile

theorem when_hotKey (h : LnkHeader) : When (66 ≤ h.raw.length) h.hotKey := by
  unfold LnkHeader.hotKey
  dsimp only
  have hl := slice_length h.raw 64 66
  constructor
  · intro hn
    split
    · split <;> exact ⟨_, rfl⟩
    · rename_i hx
      exfalso
      rcases hs : slice h.raw 64 66 with _ | ⟨a, _ | ⟨b, _ | ⟨c, t⟩⟩⟩ <;> rw [hs] at hl <;> simp at hl
      · omega
      · omega
      · exact hx a b hs
      · omega
  · intro hn
    split
    · rename_i hs
      rw [hs] at hl
      simp at hl
      omega
    · rfl

theorem when_jsonHeader (f : LnkFile) : When (76 ≤ f.header.raw.length) f.jsonHeader := by
  apply When.congr
  · unfold jsonHeader LnkHeader.linkClsId LnkHeader.rLinkFlags LnkHeader.rFileFlags LnkHeader.creationTime LnkHeader.accessTime
      LnkHeader.writeTime LnkHeader.fileSize LnkHeader.iconIndex LnkHeader.windowStyle LnkHeader.rawHotKey
      LnkHeader.linkFlags LnkHeader.fileFlags LnkHeader.size LnkHeader.reserved0 LnkHeader.reserved1 LnkHeader.reserved2
      LnkHeader.rLinkFlags LnkHeader.rFileFlags
    have := when_hotKey f.header
    reads
  · simp only [slice_length, and_true]
    constructor
    · rintro ⟨-, -, -, -, -, -, -, -, -, -, -, -, -, -, -, -, h⟩
      omega
    · intro h
      refine ⟨?_, ?_, ?_, ?_, ?_, ?_, ?_, ?_, ?_, ?_, ?_, ?_, ?_, ?_, ?_, ?_, ?_⟩ <;> omega

end LnkFile

/-- `x` returns, or raises the given exception. -/
def Py.Fails (x : Py α) : Option PyErr → Prop
  | none => ∃ a, x.res = .ok a
  | some e => x.res = .error e

theorem Py.When.fails {c : Prop} [Decidable c] {x : Py α} (h : When c x) :
    Fails x (if c then none else some .structError) := by
  by_cases hc : c
  · rw [if_pos hc]; exact h.ok hc
  · rw [if_neg hc]; exact h.err hc

theorem Py.When.short {n : Nat} {w : Bytes} {x : Py α} (h : When (n ≤ w.length) x) : Fails x (tooShort n w) := h.fails

theorem Py.fails_total {x : Py α} (h : When True x) : Fails x none := h.ok trivial

namespace Target

variable (t : Target) (hcp : UsableCodePage t.tp)

include hcp in
theorem when_text (u : Bool) (b : Bytes) : When True (if u then TextProc.readUnicodeString b else t.tp.readString b) := by
  cases u
  · exact when_readString hcp b
  · exact when_readUnicodeString b

include hcp in
theorem when_cpl : When (10 ≤ t.rawTarget.length) (do
    let sig ← t.cplSignature
    let path ← t.cplFilePath
    let name ← t.cplNameString
    let comments ← t.cplComments
    pure [("class", PyVal.lit t.cls.name), ("signature", .str ('0' :: 'x' :: fmtX 8 sig)),
      ("cpl_file_path", .str path), ("name", .str name), ("comments", .str comments)] : Py Dict) := by
  have h1 : When True t.cplFilePath := t.when_text hcp _ _
  have h2 : When (10 ≤ t.rawTarget.length ∨ 8 ≤ t.rawTarget.length) t.cplNameString := by
    unfold cplNameString cplNameOffset
    by_cases hu : t.cplIsUnicode = true
    · simp only [hu, if_true]
      have : 22 ≤ t.rawTarget.length := by
        unfold cplIsUnicode at hu
        by_contra hc
        rw [if_pos (by omega)] at hu
        cases hu
      refine (when_bind (when_unpackU 2 _) fun a _ => when_readUnicodeString _).congr ?_
      simp
      omega
    · simp only [hu, if_false, Bool.false_eq_true]
      refine (when_bind (when_unpackU 2 _) fun a _ => when_readString hcp _).congr ?_
      simp
      omega
  have h3 : When (10 ≤ t.rawTarget.length) t.cplComments := by
    unfold cplComments cplCommentsOffset
    by_cases hu : t.cplIsUnicode = true
    · simp only [hu, if_true]
      have : 22 ≤ t.rawTarget.length := by
        unfold cplIsUnicode at hu
        by_contra hc
        rw [if_pos (by omega)] at hu
        cases hu
      refine (when_bind (d := True) (when_unpackU 2 _) fun a _ => ?_).congr ?_
      · split
        · exact when_pure _
        · exact when_readUnicodeString _
      simp
      omega
    · simp only [hu, if_false, Bool.false_eq_true]
      refine (when_bind (d := True) (when_unpackU 2 _) fun a _ => ?_).congr ?_
      · split
        · exact when_pure _
        · exact when_readString hcp _
      simp
      omega
  refine (when_bind (when_unpackU 4 _) fun a _ => when_bind h1 fun _ _ => when_bind h2 fun _ _ => when_bind h3 fun _ _ =>
    when_pure _).congr ?_
  simp
  omega

theorem when_getItemShellFsFolder (n : Nat) : When True (getItemShellFsFolder n) := when_total (only_getItemShellFsFolder n)

include hcp in
theorem when_fsAsItem : When (12 ≤ t.rawTarget.length) t.fsAsItem := by
  have h1 : When (1 ≤ t.rawTarget.length) t.fsFlags := by
    refine (when_bind (when_unpackU 1 _) fun a _ => when_getItemShellFsFolder _).congr ?_
    simp
  have h2 : When (1 ≤ t.rawTarget.length) t.fsPrimaryName := by
    unfold fsPrimaryName hasUnicodeStrings classTypeIndicator
    refine (when_bind (when_bind (when_unpackU 1 _) fun a _ => when_pure _) fun a _ => t.when_text hcp _ _).congr ?_
    simp
  unfold fsAsItem
  refine (when_bind h1 fun a _ => when_bind (when_unpackU 4 _) fun _ _ => when_bind (when_parseDostime _) fun _ _ =>
    when_bind (when_unpackU 2 _) fun _ _ => when_bind h2 fun _ _ => when_pure _).congr ?_
  simp
  omega

theorem leNat_slice {n off v : Nat} {w : Bytes} (hn : 0 < n) (h : uAt n w off = some v) :
    unpackU n (slice w off (off + n)) = pure v := by
  rw [unpackU_slice w n off hn, h]

include hcp in
/-- `as_item()` of an item whose constructor has returned. -/
theorem fails_asItem (hn : t.cls ≠ .networkLocation) (hs : 2 ≤ t.raw.length) :
    Fails t.asItem (itemFault t.cls.name t.rawTarget) := by
  obtain ⟨cls, tp, raw, w, loc, d, c⟩ := t
  cases cls
  case controlPanelCPL => exact (when_cpl _ hcp).short
  case controlPanelCategory =>
    refine When.short (w := w) (n := 10) ?_
    have h2 : ∀ n : Nat, When True (match CATEGORIES.lookup n with
        | some s => pure s
        | none => do
          Py.warn (.category n)
          pure "Unknown" : Py String) := by
      intro n
      split
      · exact when_pure _
      · exact ⟨fun _ => ⟨_, rfl⟩, fun h => absurd trivial h⟩
    refine (when_bind (when_unpackU 4 _) fun a _ => when_bind (when_bind (when_unpackU 4 _) fun b _ => h2 b) fun _ _ =>
      when_pure _).congr ?_
    simp
    omega
  case rootFolder =>
    refine When.short (w := w) (n := 18) ?_
    have h2 : ∀ n : Nat, When True (match SORT_INDEX.lookup n with
        | some s => pure s
        | none => do
          Py.warn (.sortIndex n)
          pure "Unknown" : Py String) := by
      intro n
      split
      · exact when_pure _
      · exact ⟨fun _ => ⟨_, rfl⟩, fun h => absurd trivial h⟩
    refine (when_bind (when_bind (when_unpackU 1 _) fun b _ => h2 b) fun _ _ => when_bind (when_unpackU 1 _) fun _ _ =>
      when_bind (when_parseUuid _) fun _ _ => when_pure _).congr ?_
    simp
    omega
  case myComputer =>
    unfold asItem
    simp only
    rw [volumeName_identifier]
    unfold classTypeIndicator
    simp only
    rcases w with _ | ⟨x, w⟩
    · exact rfl
    · have h1 : slice (x :: w) 0 1 = [x] := by simp [slice]
      rw [h1, unpackU_byte, pure_bind]
      show Fails _ (if x.toNat % 2 = 1 then none else tooShort 18 (x :: w))
      by_cases hx : x.toNat % 2 = 1
      · rw [if_pos hx, if_pos hx]
        exact ((when_bind (when_readString hcp _) fun _ _ => when_pure _).congr (by simp)).ok trivial
      · rw [if_neg hx, if_neg hx]
        refine When.short ((when_bind (when_parseUuid _) fun _ _ => when_pure _).congr ?_)
        simp
        omega
  case shellFSFolder => exact (when_fsAsItem _ hcp).short
  case networkLocation => exact absurd rfl hn
  case controlPanel =>
    refine When.short (w := w) (n := 30) ((when_bind (when_parseUuid _) fun _ _ => when_pure _).congr ?_)
    simp
    omega
  case usersFilesFolder =>
    show Fails _ (match uAt 2 w 8, uAt 2 w 2 with
      | some m, some n => if 12 ≤ m ∧ 22 ≤ w.length ∧ n + 36 ≤ w.length then none else some .structError
      | _, _ => some .structError)
    unfold asItem fileEntry initBase sizeOf delegateClassId delegateFolderId innerDataSize
    simp only
    have e8 : slice (w.drop 8) 0 2 = slice w 8 (8 + 2) := by simp [slice]
    rw [e8]
    rcases h8 : uAt 2 w 8 with _ | m
    · rw [unpackU_slice w 2 8 (by omega), h8]
      rfl
    · have hl := ExtraData.uAt_some_length h8
      obtain ⟨n, h2⟩ : ∃ n, uAt 2 w 2 = some n := by
        rcases h2 : uAt 2 w 2 with _ | n
        · have := uAt_eq_none_iff.1 h2
          omega
        · exact ⟨n, rfl⟩
      rw [h2, leNat_slice (by omega) h8, leNat_slice (n := 2) (off := 2) (by omega) h2, pure_bind, pure_bind, pure_bind, pure_bind]
      have hcp' : UsableCodePage tp := hcp
      refine When.fails ((when_bind (when_fsAsItem ⟨.shellFSFolder, tp, w.drop 8, slice (w.drop 8) 2 (2 + m), [], none, none⟩
        hcp') fun _ _ => when_bind (when_parseUuid _) fun _ _ =>
        when_bind (when_parseUuid _) fun _ _ => when_pure _).congr ?_)
      simp
      omega
  case unknown =>
    refine ((when_bind (when_unpackU 2 _) fun _ _ => when_pure _).congr ?_).ok trivial
    simp at hs ⊢
    omega
  all_goals exact ⟨_, rfl⟩

theorem length_readStringsGo (tp : TextProc) (acc b : Bytes) : (tp.readStringsGo acc b).length = b.count 0 + 1 := by
  induction b generalizing acc with
  | nil => rfl
  | cons x b ih =>
    unfold TextProc.readStringsGo
    by_cases hx : x = 0
    · rw [if_pos hx, List.length_cons, ih, hx, List.count_cons_self]
    · rw [if_neg hx, ih, List.count_cons_of_ne hx]

theorem next_cons {x : Py Str} {l : List (Py Str)} (hx : Only (fun _ => False) x) :
    ∃ s, (TextProc.next (x :: l)).res = .ok (s, l) := by
  obtain ⟨s, w, rfl⟩ := only_false_iff.1 hx
  exact ⟨s, rfl⟩

theorem next_opt (c : Prop) [Decidable c] (it : List (Py Str)) (h : ∀ y ∈ it, Only (fun _ => False) y) :
    if (if c then 1 else 0) ≤ it.length then
      ∃ d, (if c then do
        let r ← TextProc.next it
        pure (some r.1, r.2)
      else pure (none, it) : Py (Option Str × List (Py Str))).res = .ok (d, it.drop (if c then 1 else 0))
    else (if c then do
        let r ← TextProc.next it
        pure (some r.1, r.2)
      else pure (none, it) : Py (Option Str × List (Py Str))).res = .error .stopIteration := by
  by_cases hc : c
  · simp only [if_pos hc]
    rcases it with _ | ⟨y, it⟩
    · exact rfl
    · obtain ⟨s, hs⟩ := next_cons (l := it) (h y (by simp))
      rw [if_pos (by simp)]
      exact ⟨some s, bind_ok_iff.2 ⟨_, hs, rfl⟩⟩
  · simp only [if_neg hc]
    exact ⟨none, rfl⟩

theorem next_opt' (c : Prop) [Decidable c] (it : List (Py Str)) (h : ∀ y ∈ it, Only (fun _ => False) y) :
    if (if c then 1 else 0) ≤ it.length then
      ∃ d, (if c then do
        let r ← TextProc.next it
        pure (some r.1)
      else pure none : Py (Option Str)).res = .ok d
    else (if c then do
        let r ← TextProc.next it
        pure (some r.1)
      else pure none : Py (Option Str)).res = .error .stopIteration := by
  by_cases hc : c
  · simp only [if_pos hc]
    rcases it with _ | ⟨y, it⟩
    · exact rfl
    · obtain ⟨s, hs⟩ := next_cons (l := it) (h y (by simp))
      rw [if_pos (by simp)]
      exact ⟨some s, bind_ok_iff.2 ⟨_, hs, rfl⟩⟩
  · simp only [if_neg hc]
    exact ⟨none, rfl⟩

/-- The constructor of a network location. -/
theorem initNetwork_fails {tp : TextProc} (hcp : UsableCodePage tp) (b : Bytes) (n : Nat) (hn : uAt 2 b 0 = some n) :
    match itemFault "Network location" ((b.drop 2).take n) with
    | none => ∃ t, (initNetwork tp b).res = .ok t ∧ t.cls = .networkLocation ∧ t.tp = tp ∧ t.raw = b ∧
        t.rawTarget = (b.drop 2).take n
    | some .structError => (initNetwork tp b).res = .error .structError
    | some .runtimeError => (initNetwork tp b).res = .error .stopIteration
    | _ => False := by
  have hi : initBase .networkLocation tp b =
      pure { cls := .networkLocation, tp := tp, raw := b, rawTarget := (b.drop 2).take n } := by
    unfold initBase sizeOf
    have := leNat_slice (n := 2) (off := 0) (by omega) hn
    rw [this, pure_bind]
    simp [slice]
  have hin : initNetwork tp b = (initNetwork tp b) := rfl
  unfold initNetwork at hin ⊢
  rw [hi]
  simp only [pure_bind]
  generalize hw : (b.drop 2).take n = w
  have hall := only_readStrings (P := fun _ => False) (fun b => only_ansiToStr hcp b) (w.drop 3)
  have hlen : (tp.readStrings (w.drop 3)).length = (w.drop 3).count 0 + 1 := length_readStringsGo tp [] _
  rcases hl : tp.readStrings (w.drop 3) with _ | ⟨x, l⟩
  · rw [hl] at hlen
    simp at hlen
  rw [hl] at hall hlen
  obtain ⟨loc, hloc⟩ := next_cons (l := l) (hall x (by simp))
  have hl' : l.length = (w.drop 3).count 0 := by simpa using hlen
  have hall' : ∀ y ∈ l, Only (fun _ => False) y := fun y hy => hall y (by simp [hy])
  rcases w with _ | ⟨x0, _ | ⟨x1, _ | ⟨cf, st⟩⟩⟩
  iterate 3
    exact bind_error_iff.2 (.inr ⟨_, hloc, bind_error_iff.2 (.inl rfl)⟩)
  have hcf : unpackU 1 (slice (x0 :: x1 :: cf :: st) 2 3) = pure cf.toNat := by
    rw [show slice (x0 :: x1 :: cf :: st) 2 3 = [cf] by simp [slice], unpackU_byte]
  have hst : (x0 :: x1 :: cf :: st).drop 3 = st := rfl
  rw [hst] at hl'
  have bits : ∀ (i m : Nat), m = 2 ^ i → ((cf.toNat &&& m ≠ 0) ↔ cf.toNat.testBit i = true) := by
    rintro i m rfl
    rw [← and_two_pow_ne_zero cf.toNat i]
    simp
  have c7 := bits 7 0x80 rfl
  have c6 := bits 6 0x40 rfl
  have k7 : (if cf.toNat.testBit 7 then 1 else 0) = if cf.toNat &&& 0x80 ≠ 0 then 1 else 0 := by simp only [c7]
  have k6 : (if cf.toNat.testBit 6 then 1 else 0) = if cf.toNat &&& 0x40 ≠ 0 then 1 else 0 := by simp only [c6]
  have hf : itemFault "Network location" (x0 :: x1 :: cf :: st) =
      if (if cf.toNat &&& 0x80 ≠ 0 then 1 else 0) + (if cf.toNat &&& 0x40 ≠ 0 then 1 else 0) ≤ l.length then none
        else some .runtimeError := by
    rw [hl', ← k7, ← k6]
    rfl
  rw [hf]
  unfold contentFlags
  simp only [hcf]
  have s1 := next_opt (cf.toNat &&& 0x80 ≠ 0) l hall'
  generalize hk1 : (if cf.toNat &&& 0x80 ≠ 0 then 1 else 0) = k1 at s1 ⊢
  generalize hk2 : (if cf.toNat &&& 0x40 ≠ 0 then 1 else 0) = k2 at ⊢
  by_cases h1 : k1 ≤ l.length
  · rw [if_pos h1] at s1
    obtain ⟨d, hd⟩ := s1
    have s2 := next_opt' (cf.toNat &&& 0x40 ≠ 0) (l.drop k1) fun y hy => hall' y (List.mem_of_mem_drop hy)
    rw [hk2, List.length_drop] at s2
    by_cases h2 : k1 + k2 ≤ l.length
    · rw [if_pos h2]
      rw [if_pos (by omega)] at s2
      obtain ⟨c, hc⟩ := s2
      exact ⟨_, bind_ok_iff.2 ⟨_, hloc, bind_ok_iff.2 ⟨_, rfl, bind_ok_iff.2 ⟨_, hd, bind_ok_iff.2 ⟨_, rfl,
        bind_ok_iff.2 ⟨_, hc, rfl⟩⟩⟩⟩⟩, rfl, rfl, rfl, rfl⟩
    · rw [if_neg h2]
      rw [if_neg (by omega)] at s2
      exact bind_error_iff.2 (.inr ⟨_, hloc, bind_error_iff.2 (.inr ⟨_, rfl, bind_error_iff.2 (.inr ⟨_, hd,
        bind_error_iff.2 (.inr ⟨_, rfl, bind_error_iff.2 (.inl s2)⟩)⟩)⟩)⟩)
  · rw [if_neg h1] at s1
    rw [if_neg (by omega)]
    exact bind_error_iff.2 (.inr ⟨_, hloc, bind_error_iff.2 (.inr ⟨_, rfl, bind_error_iff.2 (.inl s1)⟩)⟩)

end Target

namespace LnkTargets

theorem fails_itemOf {t : Target} {o : Option PyErr} (h : Fails t.asItem o) (ho : o ≠ some .keyError) : Fails (itemOf t) o := by
  rcases o with _ | e
  · obtain ⟨d, hd⟩ := h
    have : (do
      let d ← t.asItem
      pure (some (.dict d)) : Py (Option PyVal)).res = .ok (some (.dict d)) := bind_ok_iff.2 ⟨d, hd, rfl⟩
    unfold itemOf
    exact ⟨_, by rw [tryExcept_res, this]⟩
  · have : (do
      let d ← t.asItem
      pure (some (.dict d)) : Py (Option PyVal)).res = .error e := bind_error_iff.2 (.inl h)
    unfold itemOf
    show (tryExcept _ _ _).res = _
    rw [tryExcept_res, this]
    simp only
    rw [if_neg]
    intro he
    exact ho (by simpa using he)

theorem itemFault_cases (cls : String) (w : Bytes) :
    itemFault cls w = none ∨ itemFault cls w = some .structError ∨ itemFault cls w = some .runtimeError := by
  unfold itemFault tooShort
  repeat' split
  all_goals simp

/-- A network location whose constructor has returned can be reported. -/
theorem network_asItem (t : Target) (hc : t.cls = .networkLocation) (hw : 3 ≤ t.rawTarget.length) :
    ∃ d, t.asItem.res = .ok d := by
  obtain ⟨cls, tp, raw, w, loc, d, c⟩ := t
  subst hc
  refine ((when_bind (when_bind (when_unpackU 1 _) fun a _ => Target.when_getItemShellFsFolder _) fun _ _ =>
    when_bind (when_unpackU 1 _) fun _ _ => when_pure _).congr ?_).ok hw
  simp
  omega

theorem fails_idLists {tp : TextProc} (hcp : UsableCodePage tp) (b : Bytes) :
    Fails (asListLoop (idLists tp b)) (listFault b) := by
  induction hb : b.length using Nat.strong_induction_on generalizing b with
  | _ k ih =>
  subst hb
  rw [idLists.eq_def, listFault.eq_def]
  by_cases hne : b = []
  · rw [if_pos hne, if_pos hne]
    exact ⟨_, rfl⟩
  rw [if_neg hne, if_neg hne]
  have hpos : 0 < b.length := List.length_pos_iff.2 hne
  obtain ⟨d0, d1, d2⟩ := Props.item_dispatch_end b
  have stepErr : ∀ e, (step tp b).res = .error e → e ≠ .stopIteration → ∃ w, genBody (step tp b) = ⟨w, .error e⟩ := by
    intro e he hs
    have : (genBody (step tp b)).res = .error e := by
      unfold genBody
      rw [tryExcept_res, he]
      simp [hs]
    exact ⟨(genBody (step tp b)).warns, by rw [← this]⟩
  have failAt : ∀ e, (∃ w, genBody (step tp b) = ⟨w, .error e⟩) → (asListLoop (match (genBody (step tp b)).res with
      | .error e => [⟨(genBody (step tp b)).warns, .error e⟩]
      | .ok none => []
      | .ok (some (target, rest')) =>
        if rest'.length < b.length then ⟨(genBody (step tp b)).warns, .ok target⟩ :: idLists tp rest'
        else [⟨(genBody (step tp b)).warns, .error .diverge⟩])).res = .error e := by
    rintro e ⟨w, hw⟩
    rw [hw]
    rfl
  rcases hu : uAt 2 b 0 with _ | _ | n
  · refine failAt _ (stepErr _ ?_ (by simp))
    unfold step
    rw [d1 (by have := uAt_eq_none_iff.1 hu; omega)]
    rfl
  · have : step tp b = pure none := by
      unfold step
      rw [d0 hu]
      rfl
    simp only [this]
    exact ⟨_, rfl⟩
  rcases ht : b[2]? with _ | t
  · refine failAt _ (stepErr _ ?_ (by simp))
    have h2 := ExtraData.uAt_some_length hu
    have h3 := List.getElem?_eq_none_iff.1 ht
    unfold step
    rw [d2 _ hu (by omega) (by omega)]
    rfl
  obtain ⟨c, wc, hc, hname, -⟩ := Props.item_dispatch b (n + 1) t hu (by omega) ht
  have hsz : TargetFactory.itemSize b = pure (n + 1) := Target.leNat_slice (n := 2) (off := 0) (by omega) hu
  dsimp only
  rw [← hname]
  have hstepErr : ∀ e, (Target.init c tp b).res = .error e → (step tp b).res = .error e := by
    intro e he
    unfold step
    rw [hc]
    exact bind_error_iff.2 (.inr ⟨some c, rfl, bind_error_iff.2 (.inl he)⟩)
  have hstepOk : ∀ tg, (Target.init c tp b).res = .ok tg → Fails tg.asItem (itemFault c.name ((b.drop 2).take (n + 1))) →
      Fails (asListLoop (match (genBody (step tp b)).res with
      | .error e => [⟨(genBody (step tp b)).warns, .error e⟩]
      | .ok none => []
      | .ok (some (target, rest')) =>
        if rest'.length < b.length then ⟨(genBody (step tp b)).warns, .ok target⟩ :: idLists tp rest'
        else [⟨(genBody (step tp b)).warns, .error .diverge⟩]))
        (match itemFault c.name ((b.drop 2).take (n + 1)) with
        | some e => some e
        | none => listFault (b.drop (n + 1))) := by
    intro tg htg hf
    have hs : (step tp b).res = .ok (some (tg, b.drop (n + 1))) := by
      unfold step
      rw [hc]
      refine bind_ok_iff.2 ⟨some c, rfl, bind_ok_iff.2 ⟨tg, htg, ?_⟩⟩
      rw [hsz]
      rfl
    rw [genBody_ok.2 hs]
    simp only
    have hlt : (b.drop (n + 1)).length < b.length := by simp; omega
    rw [if_pos hlt]
    have hit := fails_itemOf hf (by rcases itemFault_cases c.name ((b.drop 2).take (n + 1)) with h | h | h <;> rw [h] <;> simp)
    have hrest := ih _ hlt (b.drop (n + 1)) rfl
    rcases hif : itemFault c.name ((b.drop 2).take (n + 1)) with _ | e
    · rw [hif] at hit
      obtain ⟨item, hitem⟩ := hit
      simp only
      rcases hlf : listFault (b.drop (n + 1)) with _ | e
      · rw [hlf] at hrest
        obtain ⟨items, hitems⟩ := hrest
        exact ⟨_, bind_ok_iff.2 ⟨tg, rfl, bind_ok_iff.2 ⟨item, hitem, bind_ok_iff.2 ⟨items, hitems, rfl⟩⟩⟩⟩
      · rw [hlf] at hrest
        exact bind_error_iff.2 (.inr ⟨tg, rfl, bind_error_iff.2 (.inr ⟨item, hitem, bind_error_iff.2 (.inl hrest)⟩)⟩)
    · rw [hif] at hit
      exact bind_error_iff.2 (.inr ⟨tg, rfl, bind_error_iff.2 (.inl hit)⟩)
  by_cases hnet : c = .networkLocation
  · subst hnet
    have hin := Target.initNetwork_fails hcp b (n + 1) hu
    have hinit : Target.init .networkLocation tp b = Target.initNetwork tp b := rfl
    rw [← hinit] at hin
    rcases itemFault_cases "Network location" ((b.drop 2).take (n + 1)) with h | h | h
    · rw [h] at hin
      obtain ⟨tg, htg, k1, k2, k3, k4⟩ := hin
      refine hstepOk tg htg ?_
      have h' : itemFault TargetClass.networkLocation.name ((b.drop 2).take (n + 1)) = none := h
      rw [h']
      refine network_asItem tg k1 ?_
      rw [k4]
      by_contra hlt
      rcases hw : (b.drop 2).take (n + 1) with _ | ⟨x0, _ | ⟨x1, _ | ⟨x2, st⟩⟩⟩ <;> rw [hw] at h hlt
      · cases h
      · cases h
      · cases h
      · simp at hlt
    · rw [h] at hin
      have h' : itemFault TargetClass.networkLocation.name ((b.drop 2).take (n + 1)) = some .structError := h
      rw [h']
      exact failAt _ (stepErr _ (hstepErr _ hin) (by simp))
    · rw [h] at hin
      have h' : itemFault TargetClass.networkLocation.name ((b.drop 2).take (n + 1)) = some .runtimeError := h
      rw [h']
      refine failAt _ ⟨(genBody (step tp b)).warns, ?_⟩
      have : (genBody (step tp b)).res = .error .runtimeError := by
        unfold genBody
        rw [tryExcept_res, hstepErr _ hin]
        rfl
      rw [← this]
  · have hinit : Target.init c tp b =
        pure { cls := c, tp := tp, raw := b, rawTarget := (b.drop 2).take (n + 1) } := by
      have : Target.init c tp b = Target.initBase c tp b := by
        cases c <;> first | rfl | exact absurd rfl hnet
      rw [this]
      unfold Target.initBase Target.sizeOf
      have := Target.leNat_slice (n := 2) (off := 0) (by omega) hu
      rw [this, pure_bind]
      simp [slice]
    have h2 := ExtraData.uAt_some_length hu
    refine hstepOk { cls := c, tp := tp, raw := b, rawTarget := (b.drop 2).take (n + 1) } (by rw [hinit]; rfl) (Target.fails_asItem _ hcp hnet (by
      have h3 : 0 + 2 ≤ b.length := h2
      simpa using h3))

end LnkTargets

end Verif
