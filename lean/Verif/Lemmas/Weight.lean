import Verif.Spec.Weight
import Verif.Lemmas.Shape

namespace Verif

open Spec

theorem weightList_append (a b : List PyVal) : weightList (a ++ b) = weightList a + weightList b := by
  induction a with
  | nil => simp [weightList]
  | cons v a ih => rw [List.cons_append, weightList, weightList, ih]; omega

theorem weightEntries_append (a b : Dict) : weightEntries (a ++ b) = weightEntries a + weightEntries b := by
  induction a with
  | nil => simp [weightEntries]
  | cons kv a ih => obtain ⟨k, v⟩ := kv; rw [List.cons_append, weightEntries, weightEntries, ih]; omega

theorem weight_mem {d : Dict} {k : String} {v : PyVal} (h : (k, v) ∈ d) : weight v ≤ weight (.dict d) := by
  rw [weight]
  induction d with
  | nil => simp at h
  | cons kv d ih =>
    obtain ⟨k', v'⟩ := kv
    rw [weightEntries]
    rcases List.mem_cons.1 h with h | h
    · cases h
      omega
    · have := ih h
      omega

/-! ### texts -/

/-- Decoding UTF-16 gives at least one character for four bytes, and at most one for each byte. -/
theorem utf16Pieces_length (b : Bytes) : b.length ≤ 4 * (utf16Pieces b).length ∧ (utf16Pieces b).length ≤ b.length := by
  induction hk : b.length using Nat.strong_induction_on generalizing b with
  | _ k ih =>
    match b, hk with
    | [], hk => simp at hk; subst hk; simp [utf16Pieces]
    | [_], hk => simp at hk; subst hk; simp [utf16Pieces]
    | lo :: hi :: rest, hk =>
      simp only [List.length_cons] at hk
      have h1 := ih rest.length (by omega) rest rfl
      rw [utf16Pieces_two]
      split
      · rw [List.length_cons]; omega
      · split
        · split
          · rename_i lo2 hi2 rest2
            simp only [List.length_cons] at hk h1
            have h2 := ih rest2.length (by omega) rest2 rfl
            split
            · rw [List.length_cons]; omega
            · rw [List.length_cons]; omega
          · rename_i hno
            have : rest.length < 2 := by
              match rest, hno with
              | [], _ => simp
              | [_], _ => simp
              | a :: b :: r, hno => exact absurd rfl (hno a b r)
            rw [List.length_cons]
            simp
            omega
        · rw [List.length_cons]; omega

theorem wideToStr_ok (b : Bytes) : ∃ s, (TextProc.wideToStr b).res = .ok s ∧ s.length = (utf16Pieces b).length := by
  unfold TextProc.wideToStr decodeUtf16 decodeUtf16Replace strictOf
  by_cases h : (utf16Pieces b).all Option.isSome
  · exact ⟨(utf16Pieces b).map (·.getD replacementChar), by simp [Py.tryExcept, h], by simp⟩
  · refine ⟨replaceOf (utf16Pieces b), ?_, by simp [replaceOf]⟩
    simp [Py.tryExcept, h, Py.warn, bind, Py.andThen, pure, Py.ret]

theorem readWideGo_head (chars : Bytes) (l : List Bytes) : ∃ rest, TextProc.readWideGo chars l =
    TextProc.wideToStr (chars ++ (l.takeWhile (· ≠ [0, 0])).flatten) :: rest := by
  induction l generalizing chars with
  | nil => exact ⟨[], by simp [TextProc.readWideGo]⟩
  | cons x l ih =>
    rw [TextProc.readWideGo]
    by_cases h : x = [0, 0]
    · exact ⟨TextProc.readWideGo [] l, by rw [if_pos h]; simp [h]⟩
    · rw [if_neg h]
      obtain ⟨r, hr⟩ := ih (chars ++ x)
      exact ⟨r, by rw [hr]; simp [h]⟩

theorem readUnicodeString_eq (b : Bytes) : TextProc.readUnicodeString b =
    TextProc.wideToStr ((TextProc.twoBytesEach b).takeWhile (· ≠ [0, 0])).flatten := by
  unfold TextProc.readUnicodeString TextProc.readUnicodeStrings
  obtain ⟨r, hr⟩ := readWideGo_head [] (TextProc.twoBytesEach b)
  rw [hr]
  simp [TextProc.next]

theorem twoBytesEach_append (u v : Bytes) (h : u.length % 2 = 0) :
    TextProc.twoBytesEach (u ++ v) = TextProc.twoBytesEach u ++ TextProc.twoBytesEach v := by
  induction hk : u.length using Nat.strong_induction_on generalizing u with
  | _ k ih =>
    match u, hk, h with
    | [], _, _ => simp [TextProc.twoBytesEach]
    | [_], _, h => simp at h
    | a :: b :: r, hk, h =>
      simp only [List.length_cons] at hk h
      simp [TextProc.twoBytesEach, ih r.length (by omega) r (by omega) rfl]

theorem twoBytesEach_flatten (b : Bytes) : (TextProc.twoBytesEach b).flatten = b := by
  induction hk : b.length using Nat.strong_induction_on generalizing b with
  | _ k ih =>
    match b, hk with
    | [], _ => rfl
    | [_], _ => rfl
    | a :: c :: r, hk =>
      simp only [List.length_cons] at hk
      simp [TextProc.twoBytesEach, ih r.length (by omega) r rfl]

/-- No aligned zero unit. -/
def NoZero (u : Bytes) : Prop := u.length % 2 = 0 ∧ ∀ x ∈ TextProc.twoBytesEach u, x ≠ [0, 0]

theorem NoZero.append {u v : Bytes} (hu : NoZero u) (hv : NoZero v) : NoZero (u ++ v) := by
  refine ⟨by have := hu.1; have := hv.1; rw [List.length_append]; omega, ?_⟩
  rw [twoBytesEach_append u v hu.1]
  intro x hx
  rcases List.mem_append.1 hx with hx | hx
  · exact hu.2 x hx
  · exact hv.2 x hx

theorem NoZero.replicate {u : Bytes} (hu : NoZero u) (n : Nat) : NoZero (List.replicate n u).flatten := by
  induction n with
  | zero => exact ⟨rfl, by simp [TextProc.twoBytesEach]⟩
  | succ n ih =>
    rw [List.replicate_succ, List.flatten_cons]
    exact hu.append ih

theorem name_long (u rest : Bytes) (hu : NoZero u) :
    ∃ s, (TextProc.readUnicodeString (u ++ rest)).res = .ok s ∧ u.length ≤ 4 * s.length := by
  rw [readUnicodeString_eq, twoBytesEach_append _ _ hu.1,
    List.takeWhile_append_of_pos (by simpa using hu.2), List.flatten_append, twoBytesEach_flatten]
  obtain ⟨s, h1, h2⟩ := wideToStr_ok (u ++ ((TextProc.twoBytesEach rest).takeWhile (· ≠ [0, 0])).flatten)
  refine ⟨s, h1, ?_⟩
  have := (utf16Pieces_length (u ++ ((TextProc.twoBytesEach rest).takeWhile (· ≠ [0, 0])).flatten)).1
  rw [List.length_append] at this
  omega

/-! ### bounds on the texts that are read -/

section

variable {α β : Type} {P : α → Prop} {Q : β → Prop}

theorem Py.ret_bind_of {x : Py α} {f : α → Py β} (hx : Py.Ret P x) (h : ∀ a, P a → Py.Ret Q (f a)) : Py.Ret Q (x >>= f) :=
  Py.ret_bind fun a ha => h a (hx.out a ha)

theorem Py.ret_mono {P' : α → Prop} {x : Py α} (hx : Py.Ret P x) (h : ∀ a, P a → P' a) : Py.Ret P' x :=
  ⟨fun a ha => h a (hx.out a ha)⟩

theorem Py.ret_try {x : Py α} {c : PyErr → Bool} {h : PyErr → Py α} (hx : Py.Ret P x) (hh : ∀ e, Py.Ret P (h e)) :
    Py.Ret P (Py.tryExcept x c h) := by
  constructor
  intro a ha
  unfold Py.tryExcept at ha
  split at ha
  · split at ha
    · exact (hh _).out a ha
    · exact hx.out a ha
  · exact hx.out a ha

theorem Py.ret_mustBe {n : String} {e : MustVal} {w : α → MustVal} {x : Py α} (hx : Py.Ret P x) :
    Py.Ret P (mustBe n e w x) := by
  unfold mustBe
  refine Py.ret_bind_of hx fun a ha => ?_
  split
  · exact Py.ret_bind fun _ _ => Py.ret_pure ha
  · exact Py.ret_pure ha

end

theorem len_utf16 (b : Bytes) : Py.Ret (fun s => s.length ≤ b.length) (TextProc.wideToStr b) := by
  constructor
  intro s hs
  obtain ⟨s', h1, h2⟩ := wideToStr_ok b
  rw [h1] at hs
  cases hs
  have := (utf16Pieces_length b).2
  omega

theorem len_readUnicodeString (b : Bytes) : Py.Ret (fun s => s.length ≤ b.length) (TextProc.readUnicodeString b) := by
  rw [readUnicodeString_eq]
  refine Py.ret_mono (len_utf16 _) fun s hs => Nat.le_trans hs ?_
  have h : ((TextProc.twoBytesEach b).takeWhile (· ≠ [0, 0])).flatten.length ≤ (TextProc.twoBytesEach b).flatten.length := by
    conv_rhs => rw [← List.takeWhile_append_dropWhile (p := (· ≠ [0, 0])) (l := TextProc.twoBytesEach b)]
    rw [List.flatten_append, List.length_append]
    omega
  rwa [twoBytesEach_flatten] at h

theorem utf8Decode_length (b : Bytes) : ∀ s, utf8Decode b = some s → s.length ≤ b.length := by
  induction hk : b.length using Nat.strong_induction_on generalizing b with
  | _ k ih =>
    subst hk
    intro s h
    have step : ∀ (r : Bytes) (c : Char), r.length < b.length → (utf8Decode r).map (c :: ·) = some s →
        s.length ≤ b.length := by
      intro r c hr h
      obtain ⟨t, ht, rfl⟩ := Option.map_eq_some_iff.1 h
      have := ih r.length hr r rfl t ht
      simp
      omega
    rw [utf8Decode.eq_def] at h
    split at h
    · cases h
      simp
    · dsimp only at h
      repeat' split at h
      all_goals first
        | cases h
        | exact step _ _ (by simp only [List.length_cons]; omega) h

theorem len_ansi {tp : TextProc} (h : Frugal tp) (b : Bytes) : Py.Ret (fun s => s.length ≤ b.length) (tp.ansiToStr b) := by
  unfold TextProc.ansiToStr
  refine Py.ret_try ⟨fun s hs => h b s (.inl hs)⟩ fun _ => Py.ret_try ?_ fun _ => ?_
  · unfold decodeUtf8
    split
    · exact Py.ret_pure (utf8Decode_length b _ ‹_›)
    · exact Py.ret_raise _
  · exact Py.ret_bind fun s hs => Py.ret_bind fun _ _ => Py.ret_pure (h b s (.inr hs))

theorem len_readStringsGo {tp : TextProc} (h : Frugal tp) (chars b : Bytes) :
    ∀ x ∈ tp.readStringsGo chars b, Py.Ret (fun s => s.length ≤ chars.length + b.length) x := by
  induction b generalizing chars with
  | nil =>
    intro x hx
    simp only [TextProc.readStringsGo, List.mem_singleton] at hx
    subst hx
    exact len_ansi h chars
  | cons c b ih =>
    intro x hx
    rw [TextProc.readStringsGo] at hx
    split at hx
    · rcases List.mem_cons.1 hx with rfl | hx
      · exact Py.ret_mono (len_ansi h chars) fun s hs => Nat.le_trans hs (by simp)
      · exact Py.ret_mono (ih [] x hx) fun s hs => Nat.le_trans hs (by simp; omega)
    · exact Py.ret_mono (ih _ x hx) fun s hs => Nat.le_trans hs (by simp; omega)

theorem len_next {n : Nat} {l : List (Py Str)} (h : ∀ x ∈ l, Py.Ret (fun s => s.length ≤ n) x) :
    Py.Ret (fun r => r.1.length ≤ n ∧ ∀ x ∈ r.2, Py.Ret (fun s => s.length ≤ n) x) (TextProc.next l) := by
  cases l with
  | nil => exact Py.ret_raise _
  | cons x l =>
    refine Py.ret_bind_of (h x List.mem_cons_self) fun s hs => Py.ret_pure ⟨hs, fun y hy => h y (List.mem_cons_of_mem _ hy)⟩

theorem len_readString {tp : TextProc} (h : Frugal tp) (b : Bytes) :
    Py.Ret (fun s => s.length ≤ b.length) (tp.readString b) := by
  unfold TextProc.readString TextProc.readStrings
  refine Py.ret_bind_of (len_next (n := b.length) fun x hx => ?_) fun r hr => Py.ret_pure hr.1
  have := len_readStringsGo h [] b x hx
  simpa using this

/-! ### numbers -/

theorem hexStr_length (u : Bool) (k n : Nat) (h : n < 16 ^ (k + 1)) : (hexStr u n).length ≤ k + 1 := by
  induction k generalizing n with
  | zero => rw [hexStr_lt (by omega)]; simp
  | succ k ih =>
    by_cases h16 : n < 16
    · rw [hexStr_lt h16]; simp
    · rw [hexStr_ge h16, List.length_append]
      have := ih (n / 16) (by rw [Nat.pow_succ] at h; omega)
      simp
      omega

theorem pyHex_length {n : Nat} (h : n < 2 ^ 32) : (pyHex n).length ≤ 10 := by
  have := hexStr_length false 7 n (by omega)
  simp [pyHex]
  omega

theorem fmtX_length {w n : Nat} (hw : w ≤ 8) (h : n < 2 ^ 32) : (fmtX w n).length ≤ 8 := by
  have := hexStr_length true 7 n (by omega)
  simp [fmtX, zpad]
  omega

theorem lt_unpackU (n : Nat) (b : Bytes) : Py.Ret (fun v => v < 256 ^ n) (unpackU n b) := by
  unfold unpackU
  split
  · rename_i h
    exact Py.ret_pure (h ▸ leNat_lt b)
  · exact Py.ret_raise _

theorem len_parseUuid (b : Bytes) : Py.Ret (fun s => s.length ≤ 64) (parseUuid b) := by
  have h4 : ∀ (x : Bytes) (i j : Nat), j - i ≤ 4 → leNat (slice x i j) < 2 ^ 32 := by
    intro x i j h
    refine Nat.lt_of_lt_of_le (leNat_lt _) ?_
    calc 256 ^ (slice x i j).length ≤ 256 ^ 4 := Nat.pow_le_pow_right (by omega) (by simp [slice]; omega)
      _ = 2 ^ 32 := by norm_num
  have h5 : ∀ (x : Bytes) (i j : Nat), j - i ≤ 4 → beNat (slice x i j) < 2 ^ 32 := by
    intro x i j h
    refine Nat.lt_of_lt_of_le (leNat_lt _) ?_
    calc 256 ^ (slice x i j).reverse.length ≤ 256 ^ 4 := Nat.pow_le_pow_right (by omega) (by simp [slice]; omega)
      _ = 2 ^ 32 := by norm_num
  unfold parseUuid
  ret
  all_goals
    simp only [List.length_append, List.length_cons]
    have a1 := fmtX_length (w := 8) (by omega) (h4 (slice b 0 8) 0 4 (by omega))
    have a2 := fmtX_length (w := 4) (by omega) (h4 (slice b 0 8) 4 6 (by omega))
    have a3 := fmtX_length (w := 4) (by omega) (h4 (slice b 0 8) 6 8 (by omega))
    have a4 := fmtX_length (w := 4) (by omega) (h5 (slice b 8 16) 0 2 (by omega))
    have a5 := fmtX_length (w := 4) (by omega) (h5 (slice b 8 16) 2 4 (by omega))
    have a6 := fmtX_length (w := 8) (by omega) (h5 (slice b 8 16) 4 8 (by omega))
    omega

theorem len_parsePackedUuid (o : Option Str) : Py.Ret (fun o => ∀ s ∈ o, s.length ≤ 64) (parsePackedUuid o) := by
  have h : ∀ (s : Str) (i j : Nat), (slice s i j).length ≤ j - i := by
    intro s i j
    simp [slice]
  unfold parsePackedUuid
  split
  · exact Py.ret_pure (by simp)
  · refine Py.ret_bind fun q1 _ => Py.ret_bind fun q2 _ => Py.ret_bind fun q3 _ => Py.ret_bind fun q4 _ => Py.ret_pure ?_
    generalize q1 ++ q2 ++ q3 ++ q4 = q
    simp only [Option.mem_def, Option.some.injEq, forall_eq', List.length_append, List.length_cons]
    have := h q 0 8
    have := h q 12 16
    have := h q 8 12
    have := h q 22 24
    have := h q 20 22
    have := h q 18 20
    have := h q 16 18
    have := h q 30 32
    have := h q 28 30
    have := h q 26 28
    have := h q 24 26
    omega

end Verif
