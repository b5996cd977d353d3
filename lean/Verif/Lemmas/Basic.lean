import Verif.Py.Basic

namespace Verif

namespace Py

@[simp] theorem ret_res (a : α) : (ret a).res = .ok a := rfl
@[simp] theorem ret_warns (a : α) : (ret a).warns = [] := rfl
@[simp] theorem pure_res (a : α) : (pure a : Py α).res = .ok a := rfl
@[simp] theorem pure_warns (a : α) : (pure a : Py α).warns = [] := rfl
@[simp] theorem raise_res (e : PyErr) : (raise e : Py α).res = .error e := rfl
@[simp] theorem raise_warns (e : PyErr) : (raise e : Py α).warns = [] := rfl
@[simp] theorem warn_res (w : Warn) : (warn w).res = .ok () := rfl
@[simp] theorem warn_warns (w : Warn) : (warn w).warns = [w] := rfl

theorem bind_def (x : Py α) (f : α → Py β) : (x >>= f) = andThen x f := rfl

@[simp] theorem raise_bind (e : PyErr) (f : α → Py β) : ((raise e : Py α) >>= f) = raise e := rfl

@[simp] theorem map_raise (e : PyErr) (f : α → β) : (f <$> (raise e : Py α)) = raise e := rfl

@[simp] theorem ret_eq_pure (a : α) : ret a = pure a := rfl

instance : LawfulMonad Py := LawfulMonad.mk'
  (id_map := by
    intro α x
    show andThen x (fun a => ret (id a)) = x
    rcases x with ⟨w, e | a⟩ <;> simp [andThen, ret])
  (pure_bind := by
    intro α β a f
    show andThen (ret a) f = f a
    simp [andThen, ret])
  (bind_assoc := by
    intro α β γ x f g
    show andThen (andThen x f) g = andThen x (fun a => andThen (f a) g)
    rcases x with ⟨w, e | a⟩
    · simp [andThen]
    · rcases h : f a with ⟨w', e | b⟩ <;> simp [andThen, h])

theorem bind_res (x : Py α) (f : α → Py β) :
    (x >>= f).res = match x.res with
      | .error e => .error e
      | .ok a => (f a).res := by
  rw [bind_def]; rcases x with ⟨w, e | a⟩ <;> rfl

theorem bind_warns (x : Py α) (f : α → Py β) :
    (x >>= f).warns = match x.res with
      | .error _ => x.warns
      | .ok a => x.warns ++ (f a).warns := by
  rw [bind_def]; rcases x with ⟨w, e | a⟩ <;> rfl

theorem bind_ok_iff {x : Py α} {f : α → Py β} {b : β} :
    (x >>= f).res = .ok b ↔ ∃ a, x.res = .ok a ∧ (f a).res = .ok b := by
  rw [bind_res]; rcases x with ⟨w, e | a⟩ <;> simp

theorem bind_error_iff {x : Py α} {f : α → Py β} {e : PyErr} :
    (x >>= f).res = .error e ↔
      x.res = .error e ∨ ∃ a, x.res = .ok a ∧ (f a).res = .error e := by
  rw [bind_res]; rcases x with ⟨w, e | a⟩ <;> simp

theorem map_res (f : α → β) (x : Py α) :
    (f <$> x).res = match x.res with
      | .error e => .error e
      | .ok a => .ok (f a) := by
  rw [← bind_pure_comp, bind_res]; rfl

theorem map_warns (f : α → β) (x : Py α) : (f <$> x).warns = x.warns := by
  rw [← bind_pure_comp, bind_warns]; rcases x with ⟨w, e | a⟩ <;> simp

@[simp] theorem tryExcept_pure (a : α) (p) (h : PyErr → Py α) : tryExcept (pure a) p h = pure a := rfl

theorem tryExcept_raise (e : PyErr) (p) (h : PyErr → Py α) :
    tryExcept (raise e) p h = if p e then h e else raise e := by
  simp only [tryExcept, raise_res, raise_warns, List.nil_append]

theorem tryExcept_of_ok {x : Py α} {a : α} (hx : x.res = .ok a) (p) (h : PyErr → Py α) :
    tryExcept x p h = x := by
  simp [tryExcept, hx]

theorem tryExcept_res (x : Py α) (p) (h : PyErr → Py α) :
    (tryExcept x p h).res = match x.res with
      | .error e => if p e then (h e).res else .error e
      | .ok a => .ok a := by
  rcases x with ⟨w, e | a⟩
  · simp only [tryExcept]; split <;> simp_all
  · rfl

/-- A computation without warnings that returns `a` is `pure a`. -/
theorem eq_pure {x : Py α} {a : α} (h1 : x.res = .ok a) (h2 : x.warns = []) : x = pure a := by
  ext1 <;> simp [h1, h2]

end Py

/-! ### slices -/

@[simp] theorem slice_length (b : List α) (s e : Nat) : (slice b s e).length = min (e - s) (b.length - s) := by
  simp [slice]

theorem slice_append_right {x y : List α} {s e : Nat} (h : x.length ≤ s) :
    slice (x ++ y) s e = slice y (s - x.length) (e - x.length) := by
  unfold slice
  rw [List.drop_append, List.drop_of_length_le h]
  simp only [List.nil_append]
  congr 1; omega

theorem slice_append_left {x y : List α} {s e : Nat} (h : e ≤ x.length) :
    slice (x ++ y) s e = slice x s e := by
  unfold slice
  rw [List.drop_append, List.take_append]
  simp; omega

theorem slice_append_exact {x y : List α} {e : Nat} (h : x.length = e) :
    slice (x ++ y) 0 e = x := by
  subst h; simp [slice]

theorem slice_all {x : List α} {e : Nat} (h : x.length ≤ e) : slice x 0 e = x := by
  simp [slice, List.take_of_length_le h]

theorem drop_append_right {x y : List α} {s : Nat} (h : x.length ≤ s) :
    (x ++ y).drop s = y.drop (s - x.length) := by
  rw [List.drop_append, List.drop_of_length_le h]; rfl

theorem drop_append_exact {x y : List α} {s : Nat} (h : x.length = s) :
    (x ++ y).drop s = y := by
  subst h; simp

/-! ### integers -/

theorem leNat_lt (b : Bytes) : leNat b < 256 ^ b.length := by
  induction b with
  | nil => simp [leNat]
  | cons x xs ih =>
    have := x.toNat_lt
    simp only [leNat, List.length_cons, Nat.pow_succ]
    omega

theorem leNat_append (a b : Bytes) : leNat (a ++ b) = leNat a + 256 ^ a.length * leNat b := by
  induction a with
  | nil => simp [leNat]
  | cons x xs ih =>
    simp only [leNat, List.cons_append, List.length_cons, ih, Nat.pow_succ]
    rw [Nat.mul_add, Nat.mul_comm (256 ^ _) 256, Nat.mul_assoc]; omega

theorem leNat_inj {a b : Bytes} (hl : a.length = b.length) (h : leNat a = leNat b) : a = b := by
  induction a generalizing b with
  | nil => cases b <;> simp_all
  | cons x xs ih =>
    cases b with
    | nil => simp at hl
    | cons y ys =>
      simp only [leNat] at h
      have hx := x.toNat_lt
      have hy := y.toNat_lt
      have h1 : x.toNat = y.toNat := by omega
      have h2 : leNat xs = leNat ys := by omega
      rw [UInt8.toNat_inj.mp h1, ih (by simpa using hl) h2]

end Verif
