import Verif.Lemmas.Basic
import Verif.Model.Utils
import Verif.Spec.Text

/-
Which exceptions a computation may raise.
-/

namespace Verif

/-- Every exception that `x` may raise satisfies `P`. -/
structure Py.Only (P : PyErr → Prop) (x : Py α) : Prop where
  out : ∀ e, x.res = .error e → P e

namespace Py

variable {P Q : PyErr → Prop}

theorem Only.mono {x : Py α} (h : Only P x) (hpq : ∀ e, P e → Q e) : Only Q x :=
  ⟨fun e he => hpq e (h.out e he)⟩

theorem only_pure (a : α) : Only P (pure a : Py α) := ⟨by intro e h; simp at h⟩
theorem only_ret (a : α) : Only P (ret a : Py α) := ⟨by intro e h; simp at h⟩
theorem only_warn (w : Warn) : Only P (warn w) := ⟨by intro e h; simp at h⟩
theorem only_raise {e : PyErr} (h : P e) : Only P (raise e : Py α) := by
  constructor; intro e' h'; simp only [raise_res, Except.error.injEq] at h'; exact h' ▸ h

theorem only_bind {x : Py α} {f : α → Py β} (hx : Only P x) (hf : ∀ a, Only P (f a)) : Only P (x >>= f) := by
  constructor; intro e h
  rcases bind_error_iff.1 h with h | ⟨a, -, h⟩
  · exact hx.out e h
  · exact (hf a).out e h

theorem only_bind' {x : Py α} {f : α → Py β} (hx : Only P x) (hf : ∀ a, x.res = .ok a → Only P (f a)) :
    Only P (x >>= f) := by
  constructor; intro e h
  rcases bind_error_iff.1 h with h | ⟨a, ha, h⟩
  · exact hx.out e h
  · exact (hf a ha).out e h

theorem only_map {x : Py α} {f : α → β} (hx : Only P x) : Only P (f <$> x) := by
  rw [← bind_pure_comp]; exact only_bind hx fun _ => only_pure _

theorem only_ite {c : Prop} [Decidable c] {x y : Py α} (hx : c → Only P x) (hy : ¬c → Only P y) :
    Only P (if c then x else y) := by
  split
  · exact hx ‹_›
  · exact hy ‹_›

theorem only_tryExcept {x : Py α} {p : PyErr → Bool} {h : PyErr → Py α}
    (hx : Only (fun e => p e = true ∨ P e) x) (hh : ∀ e, Only P (h e)) : Only P (tryExcept x p h) := by
  constructor; intro e he
  rw [tryExcept_res] at he
  split at he
  · rename_i e' hx'
    split at he
    · exact (hh e').out e he
    · rename_i hp
      cases he
      rcases hx.out _ hx' with h' | h'
      · exact absurd h' hp
      · exact h'
  · simp at he

theorem only_attempt {x : Py α} {p : PyErr → Bool} (hx : Only (fun e => p e = true ∨ P e) x) :
    Only P (attempt x p) := by
  constructor; intro e he
  unfold attempt at he
  split at he
  · rename_i e' hx'
    split at he
    · simp at he
    · rename_i hp
      cases he
      rcases hx.out _ hx' with h' | h'
      · exact absurd h' hp
      · exact h'
  · simp at he

/-- Nothing is raised. -/
theorem only_false_iff {x : Py α} : Only (fun _ => False) x ↔ ∃ a w, x = ⟨w, .ok a⟩ := by
  rcases x with ⟨w, e | a⟩
  · simp only [reduceCtorEq, Py.mk.injEq, and_false, exists_false, iff_false]
    exact fun h => h.out e rfl
  · exact ⟨fun _ => ⟨a, w, rfl⟩, fun _ => ⟨by simp⟩⟩

end Py

open Py

variable {P : PyErr → Prop}

theorem only_unpackU (n : Nat) (b : Bytes) (h : P .structError) : Only P (unpackU n b) := by
  unfold unpackU; exact only_ite (fun _ => only_pure _) fun _ => only_raise h

theorem only_unpackI (n : Nat) (b : Bytes) (h : P .structError) : Only P (unpackI n b) := by
  unfold unpackI; exact only_ite (fun _ => only_pure _) fun _ => only_raise h

/-- Pushes `Only` through a computation. -/
macro "only_step" : tactic => `(tactic| first
  | intro _
  | exact only_pure _
  | exact only_ret _
  | exact only_warn _
  | (apply only_raise; assumption)
  | (apply only_raise; first | trivial | (simp; done))
  | (apply only_unpackU; assumption)
  | (apply only_unpackI; assumption)
  | assumption
  | apply only_bind
  | apply only_map
  | apply only_ite
  | split
  | dsimp only)

macro "only" : tactic => `(tactic| repeat' only_step)

theorem only_mustBe (f : String) (v : MustVal) (w : α → MustVal) {x : Py α} (hx : Only P x) : Only P (mustBe f v w x) := by
  unfold mustBe; only

theorem only_parseUuid (b : Bytes) (h : P .structError) : Only P (parseUuid b) := by
  unfold parseUuid; only

theorem only_mkDateTime (y mo d h mi s : Nat) (hp : P .valueError) : Only P (mkDateTime y mo d h mi s) := by
  unfold mkDateTime; only

theorem only_parseDostime (b : Bytes) (h : P .structError) : Only P (parseDostime b) := by
  unfold parseDostime
  apply only_tryExcept
  · have h' : (fun e => e.isValueError = true ∨ P e) PyErr.structError := .inr h
    have h2 : (fun e => e.isValueError = true ∨ P e) PyErr.valueError := .inl rfl
    apply only_bind
    · exact only_unpackU _ _ h'
    · intro d
      apply only_ite
      · only
      · intro _
        apply only_bind
        · exact only_mkDateTime _ _ _ _ _ _ h2
        · only
  · only

theorem only_fromTimestamp (x : ℚ) (hp : P .valueError) : Only P (fromTimestamp x) := by
  unfold fromTimestamp
  dsimp only
  exact only_ite (fun _ => only_raise hp) fun _ => only_ite (fun _ => only_pure _) fun _ => only_raise hp

theorem only_parseFiletime (b : Bytes) (h : P .structError) : Only P (parseFiletime b) := by
  unfold parseFiletime
  apply only_tryExcept
  · apply only_bind
    · exact only_unpackI _ _ (.inr h)
    · intro d
      apply only_ite
      · only
      · intro _
        dsimp only
        apply only_bind
        · exact only_fromTimestamp _ (.inl rfl)
        · only
  · only

theorem only_readString {tp : TextProc} (h : ∀ b, Only P (tp.ansiToStr b)) (b : Bytes) :
    Only P (tp.readString b) := by
  have : ∀ acc b, ∃ x xs, tp.readStringsGo acc b = x :: xs ∧ Only P x := by
    intro acc b
    induction b generalizing acc with
    | nil => exact ⟨_, _, rfl, h _⟩
    | cons c b ih =>
      unfold TextProc.readStringsGo
      split
      · exact ⟨_, _, rfl, h _⟩
      · exact ih _
  obtain ⟨x, xs, hx, ho⟩ := this [] b
  unfold TextProc.readString TextProc.readStrings
  rw [hx]
  unfold TextProc.next; only

theorem only_readStrings {tp : TextProc} (h : ∀ b, Only P (tp.ansiToStr b)) (b : Bytes) :
    ∀ x ∈ tp.readStrings b, Only P x := by
  have : ∀ acc b, ∀ x ∈ tp.readStringsGo acc b, Only P x := by
    intro acc b
    induction b generalizing acc with
    | nil => intro x hx; simp only [TextProc.readStringsGo, List.mem_singleton] at hx; exact hx ▸ h _
    | cons c b ih =>
      intro x hx
      unfold TextProc.readStringsGo at hx
      split at hx
      · rcases List.mem_cons.1 hx with rfl | hx
        · exact h _
        · exact ih _ _ hx
      · exact ih _ _ hx
  exact this [] b

theorem only_wideToStr (b : Bytes) : Only P (TextProc.wideToStr b) := by
  unfold TextProc.wideToStr
  apply only_tryExcept
  · constructor; intro e he
    unfold decodeUtf16 strictOf at he
    left
    split at he
    · simp at he
    · simp_all
  · intro _
    unfold decodeUtf16Replace
    only

theorem only_readUnicodeString (b : Bytes) : Only P (TextProc.readUnicodeString b) := by
  have : ∀ us acc, ∃ x xs, TextProc.readWideGo acc us = x :: xs ∧ Only P x := by
    intro us
    induction us with
    | nil => exact fun acc => ⟨_, _, rfl, only_wideToStr _⟩
    | cons c b ih =>
      intro acc
      unfold TextProc.readWideGo
      split
      · exact ⟨_, _, rfl, only_wideToStr _⟩
      · exact ih _
  obtain ⟨x, xs, hx, ho⟩ := this (TextProc.twoBytesEach b) []
  unfold TextProc.readUnicodeString TextProc.readUnicodeStrings
  rw [hx]
  unfold TextProc.next; only

theorem readStringsGo_ne_nil (tp : TextProc) (acc b : Bytes) : tp.readStringsGo acc b ≠ [] := by
  induction b generalizing acc with
  | nil => simp [TextProc.readStringsGo]
  | cons c b ih =>
    unfold TextProc.readStringsGo
    split
    · simp
    · exact ih _

theorem only_next {l : List (Py Str)} (h : ∀ x ∈ l, Only P x) (hs : P .stopIteration) : Only P (TextProc.next l) := by
  cases l with
  | nil => exact only_raise hs
  | cons x xs => unfold TextProc.next; have := h x List.mem_cons_self; only

theorem next_mem {l : List (Py Str)} {r : Str × List (Py Str)} (h : (TextProc.next l).res = .ok r) :
    ∀ x ∈ r.2, x ∈ l := by
  cases l with
  | nil => simp [TextProc.next] at h
  | cons x xs =>
    unfold TextProc.next at h
    obtain ⟨a, -, h⟩ := bind_ok_iff.1 h
    simp only [pure_res, Except.ok.injEq] at h
    subst h
    exact fun y hy => List.mem_cons_of_mem _ hy

/-- A usable code page never raises. -/
theorem only_ansiToStr {tp : TextProc} (h : Spec.UsableCodePage tp) (b : Bytes) : Only P (tp.ansiToStr b) := by
  obtain ⟨h1, s, h2⟩ := h b
  unfold TextProc.ansiToStr
  apply only_tryExcept
  · exact ⟨fun e he => .inl (by simp [h1 e he])⟩
  · intro _
    apply only_tryExcept
    · constructor
      intro e he
      unfold decodeUtf8 at he
      split at he
      · simp at he
      · left; simp_all
    · intro _
      apply only_bind
      · exact ⟨fun e he => by rw [h2] at he; simp at he⟩
      · only

theorem usable_cp1252 {tp : TextProc} (h : tp.cp = "cp1252") : Spec.UsableCodePage tp := by
  intro b
  unfold decodeNamed decodeNamedReplace
  have hr : tp.env.resolve tp.cp = some cp1252 := by simp [Env.resolve, h]
  rw [hr]
  split
  · simp
  · refine ⟨?_, _, rfl⟩
    intro e he
    simp only [cp1252, strictOf] at he
    split at he
    · simp at he
    · simpa using he.symm

theorem usable_default (env : Env) : Spec.UsableCodePage (TextProc.mk' env none) := usable_cp1252 rfl

end Verif
