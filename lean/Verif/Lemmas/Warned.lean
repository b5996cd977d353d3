import Verif.Lemmas.TargetsOutcome
import Verif.Spec.Warnings
import Verif.Props.Time
import Verif.Props.Targets
import Verif.Model.File

/-
Which warnings a computation may issue.
-/

namespace Verif

open Spec

/-- Every warning of `x` satisfies `P`. -/
structure Py.Warned (P : Warn → Prop) (x : Py α) : Prop where
  out : ∀ w ∈ x.warns, P w

namespace Py

variable {P Q : Warn → Prop}

theorem Warned.mono {x : Py α} (h : Warned P x) (hpq : ∀ w, P w → Q w) : Warned Q x := ⟨fun w hw => hpq w (h.out w hw)⟩

theorem warned_silent {x : Py α} (h : x.warns = []) : Warned P x := ⟨by simp [h]⟩
theorem warned_pure (a : α) : Warned P (pure a : Py α) := warned_silent rfl
theorem warned_ret (a : α) : Warned P (ret a : Py α) := warned_silent rfl
theorem warned_raise (e : PyErr) : Warned P (raise e : Py α) := warned_silent rfl
theorem warned_warn {w : Warn} (h : P w) : Warned P (warn w) := ⟨by simpa [warn] using h⟩

theorem warned_bind' {x : Py α} {f : α → Py β} (hx : Warned P x) (hf : ∀ a, x.res = .ok a → Warned P (f a)) :
    Warned P (x >>= f) := by
  constructor
  intro w hw
  rcases x with ⟨ws, e | a⟩
  · exact hx.out w hw
  · rcases List.mem_append.1 (show w ∈ ws ++ (f a).warns from hw) with h | h
    · exact hx.out w h
    · exact (hf a rfl).out w h

theorem warned_bind {x : Py α} {f : α → Py β} (hx : Warned P x) (hf : ∀ a, Warned P (f a)) : Warned P (x >>= f) :=
  warned_bind' hx fun a _ => hf a

theorem warned_ite {c : Prop} [Decidable c] {x y : Py α} (hx : c → Warned P x) (hy : ¬ c → Warned P y) :
    Warned P (if c then x else y) := by
  split
  · exact hx ‹_›
  · exact hy ‹_›

theorem warned_tryExcept {x : Py α} {p : PyErr → Bool} {h : PyErr → Py α} (hx : Warned P x)
    (hh : ∀ e, x.res = .error e → p e = true → Warned P (h e)) : Warned P (tryExcept x p h) := by
  constructor
  intro w hw
  unfold tryExcept at hw
  rcases x with ⟨ws, e | a⟩
  · dsimp only at hw
    split at hw
    · rename_i hp
      rcases List.mem_append.1 hw with h' | h'
      · exact hx.out w h'
      · exact (hh e rfl hp).out w h'
    · exact hx.out w hw
  · exact hx.out w hw

theorem warned_attempt {x : Py α} {p : PyErr → Bool} (hx : Warned P x) : Warned P (attempt x p) := by
  constructor
  intro w hw
  unfold attempt at hw
  rcases x with ⟨ws, e | a⟩
  · dsimp only at hw
    split at hw <;> exact hx.out w hw
  · exact hx.out w hw

theorem warned_unpackU (n : Nat) (b : Bytes) : Warned P (unpackU n b) := by
  unfold unpackU; exact warned_ite (fun _ => warned_pure _) fun _ => warned_raise _

theorem warned_unpackI (n : Nat) (b : Bytes) : Warned P (unpackI n b) := by
  unfold unpackI; exact warned_ite (fun _ => warned_pure _) fun _ => warned_raise _

/-- Pushes `Warned` through a computation. -/
macro "warned_step" : tactic => `(tactic| first
  | intro _
  | exact warned_pure _
  | exact warned_ret _
  | exact warned_raise _
  | exact warned_unpackU _ _
  | exact warned_unpackI _ _
  | assumption
  | apply warned_bind
  | apply warned_ite
  | split
  | dsimp only)

macro "warned" : tactic => `(tactic| repeat' warned_step)

theorem warned_mustBe {f : String} {v : MustVal} {w : α → MustVal} {x : Py α} (hx : Warned P x)
    (h : ∀ a, x.res = .ok a → w a ≠ v → P (.mustBe f v (w a))) : Warned P (mustBe f v w x) := by
  unfold mustBe
  refine warned_bind' hx fun a ha => ?_
  by_cases hv : w a = v
  · simp only [hv, ne_eq, not_true_eq_false, if_false]
    warned
  · simp only [hv, ne_eq, not_false_eq_true, if_true]
    exact warned_bind (warned_warn (h a ha hv)) fun _ => warned_pure _

theorem warned_parseUuid (b : Bytes) : Warned P (parseUuid b) := by
  unfold parseUuid; warned

theorem warned_quadToHex (q : Str) : Warned P (quadToHex q) := by
  have : ∀ n d, Warned P (quadLoop q n d) := by
    intro n
    induction n with
    | zero => intro d; exact warned_pure _
    | succ n ih =>
      intro d
      unfold quadLoop
      split
      · exact warned_raise _
      · exact ih _
  exact warned_bind (this _ _) fun _ => warned_pure _

theorem warned_parsePackedUuid (t : Option Str) : Warned P (parsePackedUuid t) := by
  unfold parsePackedUuid
  split
  · exact warned_pure _
  · repeat' first | exact warned_quadToHex _ | warned_step

section Text

variable (hd : ∀ s, P (.decode s))

include hd in
theorem warned_ansiToStr (tp : TextProc) (b : Bytes) : Warned P (tp.ansiToStr b) := by
  have h1 : ∀ b, Warned P (decodeNamed tp.env tp.cp b) := by
    intro b; unfold decodeNamed
    repeat' first | exact warned_silent rfl | warned_step
  have h2 : ∀ b, Warned P (decodeNamedReplace tp.env tp.cp b) := by
    intro b; unfold decodeNamedReplace
    repeat' first | exact warned_silent rfl | warned_step
  have h3 : ∀ b, Warned P (decodeUtf8 b) := by
    intro b; unfold decodeUtf8; warned
  unfold TextProc.ansiToStr
  refine warned_tryExcept (h1 b) fun _ _ _ => warned_tryExcept (h3 b) fun _ _ _ => warned_bind (h2 b) fun s => ?_
  exact warned_bind (warned_warn (hd s)) fun _ => warned_pure _

include hd in
theorem warned_wideToStr (b : Bytes) : Warned P (TextProc.wideToStr b) := by
  unfold TextProc.wideToStr
  refine warned_tryExcept (warned_silent rfl) fun _ _ _ => warned_bind (warned_silent rfl) fun s => ?_
  exact warned_bind (warned_warn (hd s)) fun _ => warned_pure _

include hd in
theorem warned_readStrings (tp : TextProc) (b : Bytes) : ∀ x ∈ tp.readStrings b, Warned P x := by
  have : ∀ acc b, ∀ x ∈ tp.readStringsGo acc b, Warned P x := by
    intro acc b
    induction b generalizing acc with
    | nil => intro x hx; simp only [TextProc.readStringsGo, List.mem_singleton] at hx; exact hx ▸ warned_ansiToStr hd _ _
    | cons c b ih =>
      intro x hx
      unfold TextProc.readStringsGo at hx
      split at hx
      · rcases List.mem_cons.1 hx with rfl | hx
        · exact warned_ansiToStr hd _ _
        · exact ih _ _ hx
      · exact ih _ _ hx
  exact this [] b

theorem warned_next {l : List (Py Str)} (h : ∀ x ∈ l, Warned P x) : Warned P (TextProc.next l) := by
  cases l with
  | nil => exact warned_raise _
  | cons x xs => exact warned_bind (h x List.mem_cons_self) fun _ => warned_pure _

include hd in
theorem warned_readString (tp : TextProc) (b : Bytes) : Warned P (tp.readString b) :=
  warned_bind (warned_next (warned_readStrings hd tp b)) fun _ => warned_pure _

include hd in
theorem warned_readUnicodeString (b : Bytes) : Warned P (TextProc.readUnicodeString b) := by
  have : ∀ us acc, ∀ x ∈ TextProc.readWideGo acc us, Warned P x := by
    intro us
    induction us with
    | nil => intro acc x hx; simp only [TextProc.readWideGo, List.mem_singleton] at hx; exact hx ▸ warned_wideToStr hd _
    | cons c b ih =>
      intro acc x hx
      unfold TextProc.readWideGo at hx
      split at hx
      · rcases List.mem_cons.1 hx with rfl | hx
        · exact warned_wideToStr hd _
        · exact ih _ _ hx
      · exact ih _ _ hx
  exact warned_bind (warned_next (this _ _)) fun _ => warned_pure _

end Text

end Py

open Py

variable {P : Warn → Prop}

/-! ### items -/

theorem warned_parseDostime (h : ∀ w, ItemWarn w → P w) (b : Bytes) : Warned P (parseDostime b) := by
  by_cases hb : b.length = 4
  · obtain ⟨date, time, h1, h2, h3⟩ := Props.dostime_total b hb
    rw [h3]
    split
    · exact warned_pure _
    · rename_i h0
      dsimp only
      split
      · exact warned_pure _
      · rename_i hv
        exact ⟨fun w hw => by
          simp only [List.mem_singleton] at hw
          subst hw
          exact h _ (.time hb h1 h2 h0 hv)⟩
  · have : parseDostime b = Py.raise .structError := Props.dostime_wrong_length b hb
    rw [this]
    exact warned_raise _

namespace Target

theorem unpackU_small {n : Nat} {b : Bytes} {v : Nat} (h : (unpackU n b).res = .ok v) : v < 256 ^ n := by
  unfold unpackU at h
  split at h
  · rename_i hn
    simp only [pure_res, Except.ok.injEq] at h
    rw [← h, ← hn]
    exact leNat_lt b
  · simp at h

theorem byte_toNat {n : Nat} (h : n < 256) : (UInt8.ofNat n).toNat = n := by
  simp [Nat.mod_eq_of_lt h]

theorem warned_targetClass (h : ∀ w, ItemWarn w → P w) (raw : Bytes) : Warned P (TargetFactory.targetClass raw) := by
  unfold TargetFactory.targetClass
  refine warned_bind (warned_unpackU _ _) fun n => warned_ite (fun _ => warned_pure _) fun _ => ?_
  refine warned_bind' (warned_unpackU _ _) fun t ht => ?_
  have ht' : t < 256 := unpackU_small ht
  have hd := dispatch (UInt8.ofNat t)
  rw [byte_toNat ht'] at hd
  have hw : Warned P (⟨if itemClass t = none then [.itemType t] else [], .ok (kindOf t)⟩ : Py TargetClass) := by
    refine ⟨fun w hw => ?_⟩
    dsimp only at hw
    split at hw
    · simp only [List.mem_singleton] at hw
      subst hw
      exact h _ (.type ht' ‹_›)
    · simp at hw
  rw [← hd] at hw
  dsimp only
  by_cases hc : t &&& 112 = 32 ∨ t &&& 112 = 48 ∨ t &&& 112 = 64
  · rw [if_pos hc] at hw ⊢
    exact warned_bind hw fun _ => warned_pure _
  · rw [if_neg hc] at hw ⊢
    exact warned_bind hw fun _ => warned_pure _

theorem warned_initBase (cls : TargetClass) (tp : TextProc) (b : Bytes) : Warned P (initBase cls tp b) := by
  unfold initBase sizeOf; warned

theorem warned_initNetwork (hd : ∀ s, P (.decode s)) (tp : TextProc) (b : Bytes) : Warned P (initNetwork tp b) := by
  unfold initNetwork
  refine warned_bind (warned_initBase _ _ _) fun t => ?_
  dsimp only
  have h1 := warned_readStrings (P := P) hd tp (t.rawTarget.drop 3)
  refine warned_bind' (warned_next h1) fun r hr => ?_
  have h2 : ∀ x ∈ r.2, Warned P x := fun x hx => h1 x (next_mem hr x hx)
  obtain ⟨loc, it⟩ := r
  dsimp only at h2 ⊢
  refine warned_bind (warned_unpackU _ _) fun cf => ?_
  refine warned_bind' (warned_ite (fun _ => warned_bind (warned_next h2) fun _ => warned_pure _) fun _ => warned_pure _) fun r hr => ?_
  have h3 : ∀ x ∈ r.2, Warned P x := by
    intro x hx
    split at hr
    · obtain ⟨r', h4, h5⟩ := bind_ok_iff.1 hr
      cases h5
      exact h2 x (next_mem h4 x hx)
    · cases hr
      exact h2 x hx
  obtain ⟨desc, it'⟩ := r
  dsimp only at h3 ⊢
  refine warned_bind (warned_unpackU _ _) fun cf => ?_
  exact warned_bind (warned_ite (fun _ => warned_bind (warned_next h3) fun _ => warned_pure _) fun _ => warned_pure _) fun r =>
    warned_pure _

theorem warned_init (hd : ∀ s, P (.decode s)) (cls : TargetClass) (tp : TextProc) (b : Bytes) : Warned P (init cls tp b) := by
  unfold init
  split
  · exact warned_initNetwork hd tp b
  · exact warned_initBase _ _ _

theorem warned_getItemShellFsFolder (h : ∀ w, ItemWarn w → P w) (n : Nat) :
    Warned P (getItemShellFsFolder (n &&& 0x0F)) := by
  have hk : n &&& 15 < 16 := by rw [and_15]; exact Nat.mod_lt _ (by decide)
  have := getItemShellFsFolder_eq (UInt8.ofNat (n &&& 15))
  have he : (UInt8.ofNat (n &&& 15)).toNat = n &&& 15 := byte_toNat (by omega)
  rw [he, Nat.and_assoc] at this
  have h15 : 15 &&& 15 = 15 := rfl
  rw [h15] at this
  rw [this]
  refine ⟨fun w hw => ?_⟩
  dsimp only at hw
  unfold fsKindWarns at hw
  rw [he, Nat.mod_eq_of_lt hk] at hw
  split at hw
  · simp only [List.mem_singleton] at hw
    subst hw
    exact h _ (.kind hk ‹_›)
  · simp at hw

theorem warned_fsAsItem (h : ∀ w, ItemWarn w → P w) (t : Target) : Warned P t.fsAsItem := by
  have hd : ∀ s, P (.decode s) := fun s => h _ (.text s)
  unfold fsAsItem fsFlags fsFileSize fsModificationTime fsFileAttributeFlags fsPrimaryName hasUnicodeStrings classTypeIndicator
  repeat' first
    | exact warned_getItemShellFsFolder h _
    | exact warned_readString hd _ _
    | exact warned_readUnicodeString hd _
    | exact warned_parseDostime h _
    | warned_step

theorem warned_asItem (h : ∀ w, ItemWarn w → P w) (t : Target) : Warned P t.asItem := by
  have hd : ∀ s, P (.decode s) := fun s => h _ (.text s)
  unfold asItem
  split
  · unfold cplSignature cplFilePath cplNameString cplComments cplNameOffset cplCommentsOffset
    repeat' first
      | exact warned_readString hd _ _
      | exact warned_readUnicodeString hd _
      | warned_step
  · refine warned_bind (warned_unpackU _ _) fun _ => warned_bind ?_ fun _ => warned_pure _
    unfold category categoryId
    refine warned_bind' (warned_unpackU _ _) fun c hc => ?_
    rw [category_lookup]
    split
    · exact warned_pure _
    · refine warned_bind (warned_warn (h _ (.category ?_ ‹_›))) fun _ => warned_pure _
      have := unpackU_small hc
      omega
  · refine warned_bind ?_ fun _ => warned_bind (warned_unpackU _ _) fun _ => warned_bind (warned_parseUuid _) fun _ => warned_pure _
    unfold sortIndex sortIndexValue
    refine warned_bind' (warned_unpackU _ _) fun v hv => ?_
    have hv' : v < 256 := unpackU_small hv
    have hl := sortIndex_lookup (UInt8.ofNat v)
    rw [byte_toNat hv'] at hl
    rw [hl]
    split
    · exact warned_pure _
    · exact warned_bind (warned_warn (h _ (.sortIndex hv' ‹_›))) fun _ => warned_pure _
  · rw [volumeName_identifier]
    unfold classTypeIndicator
    repeat' first | exact warned_parseUuid _ | exact warned_readString hd _ _ | warned_step
  · exact warned_fsAsItem h t
  · unfold networkFlags contentFlags
    repeat' first | exact warned_getItemShellFsFolder h _ | warned_step
  · unfold controlPanelItemIdentifier
    repeat' first | exact warned_parseUuid _ | warned_step
  · unfold fileEntry delegateClassId delegateFolderId innerDataSize
    refine warned_bind (warned_initBase _ _ _) fun fe => warned_bind (warned_fsAsItem h fe) fun _ => ?_
    repeat' first | exact warned_parseUuid _ | warned_step
  · unfold sizeOf
    warned
  · warned

end Target

namespace LnkTargets

theorem warned_idLists (h : ∀ w, ItemWarn w → P w) {tp : TextProc} (hcp : UsableCodePage tp) (b : Bytes) :
    ∀ x ∈ idLists tp b, Warned P x ∧ ∀ t, x.res = .ok t → UsableCodePage t.tp := by
  have hs : ∀ b, Warned P (genBody (step tp b)) := by
    intro b
    refine warned_tryExcept ?_ fun _ _ _ => warned_raise _
    unfold step
    refine warned_bind (Target.warned_targetClass h b) ?_
    rintro (_ | c)
    · exact warned_pure _
    · exact warned_bind (Target.warned_init (fun s => h _ (.text s)) c tp b) fun _ => warned_bind (warned_unpackU _ _) fun _ => warned_pure _
  refine idLists_forall (fun _ => True) (fun _ _ _ => trivial) ?_ ?_ b trivial
  · intro b w e _ hg
    have := (hs b).out
    rw [hg] at this
    exact ⟨⟨this⟩, by simp⟩
  · intro b w t rest _ hg
    have := (hs b).out
    rw [hg] at this
    refine ⟨⟨this⟩, fun t' ht' => ?_⟩
    have : t = t' := by simpa using ht'
    subst this
    obtain ⟨_, _, -, -, -, -, hi⟩ := step_some (genBody_ok.1 (by rw [hg]))
    rw [Target.init_tp hi]
    exact hcp

theorem warned_itemOf (h : ∀ w, ItemWarn w → P w) {t : Target} (hcp : UsableCodePage t.tp) : Warned P (itemOf t) := by
  refine warned_tryExcept (warned_bind (Target.warned_asItem h t) fun _ => warned_pure _) fun e he hp => ?_
  exfalso
  rcases bind_error_iff.1 he with he | ⟨_, -, he⟩
  · have h1 : e = .keyError := by simpa using hp
    have h2 := (Target.only_asItem (P := fun e => e = .structError) t rfl fun b => only_ansiToStr hcp b).out e he
    rw [h1] at h2
    cases h2
  · simp at he

theorem warned_asListLoop (h : ∀ w, ItemWarn w → P w) {xs : List (Py Target)}
    (hx : ∀ x ∈ xs, Warned P x ∧ ∀ t, x.res = .ok t → UsableCodePage t.tp) : Warned P (asListLoop xs) := by
  induction xs with
  | nil => exact warned_pure _
  | cons x xs ih =>
    unfold asListLoop
    obtain ⟨h1, h2⟩ := hx x List.mem_cons_self
    exact warned_bind' h1 fun t ht => warned_bind (warned_itemOf h (h2 t ht)) fun _ =>
      warned_bind (ih fun y hy => hx y (List.mem_cons_of_mem _ hy)) fun _ => warned_pure _

theorem warned_items (h : ∀ w, ItemWarn w → P w) {tp : TextProc} (hcp : UsableCodePage tp) (b : Bytes) :
    Warned P (asListLoop (idLists tp b)) := warned_asListLoop h (warned_idLists h hcp b)

end LnkTargets

end Verif
