import Verif.Lemmas.ValuesItems
import Verif.Lemmas.ValuesUnique
import Verif.Spec.Log

/-
What a computation says and raises, as a log.
-/

namespace Verif

open Spec

/-- The exception, if any. -/
def Py.err (x : Py α) : Option PyErr := match x.res with
  | .ok _ => none
  | .error e => some e

/-- What is said and raised is what the log says. -/
def Py.Logs (x : Py α) (l : Log) : Prop := l x.warns x.err

/-- `x` reads the first `k` bytes of `b`, with the value `v`. -/
structure Py.Reads (x : Py α) (k : Nat) (b : Bytes) (v : α) : Prop where
  ok : k ≤ b.length → x = pure v
  err : b.length < k → x = Py.raise .structError

namespace Spec.Log

theorem quiet_andThen (l : Log) : andThen quiet l = l := by
  funext w e
  apply propext
  constructor
  · rintro (⟨⟨-, h⟩, h'⟩ | ⟨u, v, rfl, ⟨rfl, -⟩, h⟩)
    · exact absurd h h'
    · simpa using h
  · exact fun h => .inr ⟨[], w, rfl, ⟨rfl, rfl⟩, h⟩

theorem andThen_quiet (l : Log) : andThen l quiet = l := by
  funext w e
  apply propext
  constructor
  · rintro (⟨h, -⟩ | ⟨u, v, rfl, h, rfl, rfl⟩)
    · exact h
    · simpa using h
  · intro h
    cases e with
    | none => exact .inr ⟨w, [], by simp, h, rfl, rfl⟩
    | some e => exact .inl ⟨h, by simp⟩

theorem andThen_assoc (l m n : Log) : andThen (andThen l m) n = andThen l (andThen m n) := by
  funext w e
  apply propext
  constructor
  · rintro (⟨⟨h, h'⟩ | ⟨u, v, rfl, h1, h2⟩, he⟩ | ⟨u, v, rfl, ⟨h, h'⟩ | ⟨u', v', rfl, h1, h2⟩, h3⟩)
    · exact .inl ⟨h, h'⟩
    · exact .inr ⟨u, v, rfl, h1, .inl ⟨h2, he⟩⟩
    · exact absurd rfl h'
    · exact .inr ⟨u', v' ++ v, by simp, h1, .inr ⟨v', v, rfl, h2, h3⟩⟩
  · rintro (⟨h, h'⟩ | ⟨u, v, rfl, h1, ⟨h2, h3⟩ | ⟨u', v', rfl, h2, h3⟩⟩)
    · exact .inl ⟨.inl ⟨h, h'⟩, h'⟩
    · exact .inl ⟨.inr ⟨u, v, rfl, h1, h2⟩, h3⟩
    · exact .inr ⟨u ++ u', v', by simp, .inr ⟨u, u', rfl, h1, h2⟩, h3⟩

theorem fail_andThen (x : PyErr) (l : Log) : andThen (fail x) l = fail x := by
  funext w e
  apply propext
  constructor
  · rintro (⟨h, -⟩ | ⟨u, v, rfl, ⟨-, h⟩, -⟩)
    · exact h
    · cases h
  · rintro ⟨rfl, rfl⟩
    exact .inl ⟨⟨rfl, rfl⟩, by simp⟩

theorem all_cons (l : Log) (ls : List Log) : all (l :: ls) = andThen l (all ls) := rfl
theorem all_nil : all [] = quiet := rfl

theorem all_append (ls ms : List Log) : all (ls ++ ms) = andThen (all ls) (all ms) := by
  induction ls with
  | nil => exact (quiet_andThen _).symm
  | cons l ls ih => rw [List.cons_append, all_cons, all_cons, ih, andThen_assoc]

theorem all_flat (ls ms : List Log) : all (all ls :: ms) = all (ls ++ ms) := (all_append ls ms).symm
theorem all_one (l : Log) : all [l] = l := andThen_quiet l
theorem all_quiet (ls : List Log) : all (quiet :: ls) = all ls := quiet_andThen _
theorem all_fail (x : PyErr) (ls : List Log) : all (fail x :: ls) = fail x := fail_andThen _ _

theorem say_nil : say [] = quiet := rfl

theorem need_pos {c : Prop} (h : c) (x : PyErr) : need c x = quiet := by
  funext w e; simp [need, quiet, h]

theorem need_neg {c : Prop} (h : ¬ c) (x : PyErr) : need c x = fail x := by
  funext w e; simp [need, fail, h]

theorem room_pos {n : Nat} {b : Bytes} (h : n ≤ b.length) : room n b = quiet := need_pos h _
theorem room_neg {n : Nat} {b : Bytes} (h : ¬ n ≤ b.length) : room n b = fail .structError := need_neg h _

theorem given_pos {c : Prop} (h : c) (l : Log) : given c l = l := by
  funext w e; simp [given, h]

theorem given_neg {c : Prop} (h : ¬ c) (l : Log) : given c l = quiet := by
  funext w e; simp [given, h]

/-- Two rooms of the same bytes. -/
theorem room_room {n m : Nat} (h : n ≤ m) (b : Bytes) (ls : List Log) : all (room n b :: room m b :: ls) = all (room m b :: ls) := by
  by_cases hm : m ≤ b.length
  · rw [room_pos (le_trans h hm), room_pos hm, all_quiet]
  · by_cases hn : n ≤ b.length
    · rw [room_pos hn, all_quiet]
    · rw [room_neg hm, room_neg hn, all_fail, all_fail]

end Spec.Log

open Spec.Log

namespace Py

theorem err_ok {x : Py α} {a : α} (h : x.res = .ok a) : x.err = none := by unfold err; rw [h]
theorem err_error {x : Py α} {e : PyErr} (h : x.res = .error e) : x.err = some e := by unfold err; rw [h]

theorem err_none {x : Py α} (h : x.err = none) : ∃ a, x.res = .ok a := by
  rcases x with ⟨w, e | a⟩
  · cases h
  · exact ⟨a, rfl⟩

theorem err_some {x : Py α} {e : PyErr} (h : x.err = some e) : x.res = .error e := by
  rcases x with ⟨w, e' | a⟩
  · cases h; rfl
  · cases h

theorem logs_bind {x : Py α} {f : α → Py β} {l m : Log} (hx : Logs x l) (hf : ∀ a, x.res = .ok a → Logs (f a) m) :
    Logs (x >>= f) (Log.andThen l m) := by
  rcases x with ⟨w, e | a⟩
  · exact .inl ⟨hx, by simp [err, bind_res]⟩
  · have h := hf a rfl
    refine .inr ⟨w, (f a).warns, ?_, hx, ?_⟩
    · rw [bind_warns]
    · have : Py.err (⟨w, .ok a⟩ >>= f : Py β) = (f a).err := by simp only [err, bind_res]
      rw [this]
      exact h

theorem logs_cons {x : Py α} {f : α → Py β} {l : Log} {ls : List Log} (hx : Logs x l) (hf : ∀ a, x.res = .ok a → Logs (f a) (all ls)) :
    Logs (x >>= f) (all (l :: ls)) := logs_bind hx hf

theorem logs_pure (a : α) : Logs (pure a : Py α) quiet := ⟨rfl, rfl⟩
theorem logs_nil (a : α) : Logs (pure a : Py α) (all []) := ⟨rfl, rfl⟩
theorem logs_raise (e : PyErr) : Logs (raise e : Py α) (fail e) := ⟨rfl, rfl⟩
theorem logs_ok {W : List Warn} {a : α} : Logs (⟨W, .ok a⟩ : Py α) (say W) := ⟨rfl, rfl⟩

/-- The value does not matter. -/
theorem logs_map {x : Py α} {l : Log} (g : α → β) (hx : Logs x l) : Logs (x >>= fun a => pure (g a)) l := by
  have := logs_bind hx (fun a _ => logs_pure (g a))
  rwa [andThen_quiet] at this

/-- A read among those that need `m` bytes. -/
theorem read_step {x : Py α} {f : α → Py β} {k m : Nat} {b : Bytes} {v : α} {ls : List Log} (hx : Reads x k b v) (hk : k ≤ m)
    (hf : Logs (f v) (all (room m b :: ls))) : Logs (x >>= f) (all (room m b :: ls)) := by
  by_cases h : k ≤ b.length
  · rw [hx.ok h, pure_bind]; exact hf
  · rw [hx.err (by omega), room_neg (by omega), all_fail]
    exact logs_raise _

/-- The last of them. -/
theorem read_last {x : Py α} {f : α → Py β} {m : Nat} {b : Bytes} {v : α} {ls : List Log} (hx : Reads x m b v)
    (hf : m ≤ b.length → Logs (f v) (all ls)) : Logs (x >>= f) (all (room m b :: ls)) := by
  by_cases h : m ≤ b.length
  · rw [hx.ok h, pure_bind, room_pos h, all_quiet]; exact hf h
  · rw [hx.err (by omega), room_neg h, all_fail]
    exact logs_raise _

/-- A read of bytes that are known to be there. -/
theorem read_known {x : Py α} {f : α → Py β} {k : Nat} {b : Bytes} {v : α} {l : Log} (hx : Reads x k b v) (hk : k ≤ b.length)
    (hf : Logs (f v) l) : Logs (x >>= f) l := by rw [hx.ok hk, pure_bind]; exact hf

theorem reads_unpackU {n s e : Nat} {b : Bytes} (h : s < e) (hn : n = e - s) :
    Reads (unpackU n (slice b s e)) e b ((uAt n b s).getD 0) := by
  obtain rfl : e = s + n := by omega
  have h1 := unpackU_slice b n s (by omega)
  constructor
  · intro hl
    rw [h1]
    have : ∃ k, uAt n b s = some k := by
      rcases hu : uAt n b s with _ | k
      · rw [uAt_eq_none_iff] at hu; omega
      · exact ⟨k, rfl⟩
    obtain ⟨k, hk⟩ := this
    rw [hk]
    rfl
  · intro hl
    rw [h1, uAt_eq_none_iff.2 (by omega)]

/-- The value, if there is one. -/
def val [Inhabited α] (x : Py α) : α := match x.res with
  | .ok a => a
  | .error _ => default

theorem reads_unpackI {n s e : Nat} {b : Bytes} (h : s < e) (hn : n = e - s) :
    Reads (unpackI n (slice b s e)) e b (val (unpackI n (slice b s e))) := by
  obtain rfl : e = s + n := by omega
  constructor
  · intro hl
    unfold unpackI
    rw [if_pos (by simp; omega)]
    rfl
  · intro hl
    unfold unpackI
    rw [if_neg (by simp; omega)]

theorem reads_parseUuid {s e : Nat} {b : Bytes} (h : e = s + 16) :
    Reads (parseUuid (slice b s e)) e b (val (parseUuid (slice b s e))) := by
  subst h
  constructor
  · intro hl
    obtain ⟨a, ha⟩ := (when_parseUuid (slice b s (s + 16))).ok (by simp; omega)
    have hw := (warned_parseUuid (P := fun _ => False) (slice b s (s + 16)))
    have h0 : (parseUuid (slice b s (s + 16))).warns = [] := by
      rcases hx : (parseUuid (slice b s (s + 16))).warns with _ | ⟨w, ws⟩
      · rfl
      · exact absurd (hw.out w (by rw [hx]; simp)) id
    rcases hp : parseUuid (slice b s (s + 16)) with ⟨w, r⟩
    rw [hp] at ha h0
    simp only at ha h0
    subst ha h0
    rfl
  · intro hl
    exact parseUuid_short (by simp; omega)

end Py

end Verif
