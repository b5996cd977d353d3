import Verif.Lemmas.Basic
import Verif.Spec.Bytes

namespace Verif

open Spec

@[simp] theorem le_length (n v : Nat) : (le n v).length = n := by
  induction n generalizing v with
  | zero => rfl
  | succ n ih => simp [le, ih]

@[simp] theorem leI_length (n : Nat) (i : Int) : (leI n i).length = n := by simp [leI]

theorem leNat_le (n v : Nat) : leNat (le n v) = v % 256 ^ n := by
  induction n generalizing v with
  | zero => simp [le, leNat, Nat.mod_one]
  | succ n ih =>
    simp only [le, leNat, ih, Nat.pow_succ']
    rw [UInt8.toNat_ofNat_of_lt' (by
      have := Nat.mod_lt v (y := 256) (by decide)
      simpa [UInt8.size] using this), Nat.mod_mul]

theorem leNat_le_of_lt {n v : Nat} (h : v < 256 ^ n) : leNat (le n v) = v := by
  rw [leNat_le, Nat.mod_eq_of_lt h]

/-- Every byte string is the little-endian representation of its value. -/
theorem le_leNat (b : Bytes) : le b.length (leNat b) = b :=
  leNat_inj (by simp) (by rw [leNat_le_of_lt (leNat_lt b)])

theorem unpackU_le {n v : Nat} (h : v < 256 ^ n) : unpackU n (le n v) = pure v := by
  simp [unpackU, leNat_le_of_lt h]

theorem unpackU_le_ok (n v : Nat) (h : v < 256 ^ n) : (unpackU n (le n v)).res = .ok v := by
  rw [unpackU_le h]; rfl

@[simp] theorem unpackU_le1 (v : UInt8) : unpackU 1 (le 1 v.toNat) = pure v.toNat :=
  unpackU_le (by have := v.toNat_lt; omega)
@[simp] theorem unpackU_le2 (v : UInt16) : unpackU 2 (le 2 v.toNat) = pure v.toNat :=
  unpackU_le (by have := v.toNat_lt; omega)
@[simp] theorem unpackU_le4 (v : UInt32) : unpackU 4 (le 4 v.toNat) = pure v.toNat :=
  unpackU_le (by have := v.toNat_lt; omega)

theorem toSigned_emod {n : Nat} (hn : 0 < n) {i : Int} (h1 : -(2 ^ (8 * n - 1) : Nat) ≤ i)
    (h2 : i < (2 ^ (8 * n - 1) : Nat)) : toSigned n (i % (2 ^ (8 * n) : Nat)).toNat = i := by
  have hp : 2 ^ (8 * n) = 2 * 2 ^ (8 * n - 1) := by
    rw [← Nat.pow_succ']; congr 1; omega
  have hpos : 0 < 2 ^ (8 * n - 1) := Nat.pow_pos (by decide)
  unfold toSigned
  generalize 2 ^ (8 * n - 1) = p at *
  rw [hp]
  by_cases hi : 0 ≤ i
  · rw [Int.emod_eq_of_lt hi (by omega)]
    rw [if_pos (by omega)]; omega
  · have : i % ((2 * p : Nat) : Int) = i + (2 * p : Nat) := by
      rw [← Int.add_emod_right, Int.emod_eq_of_lt (by omega) (by omega)]
    rw [this, if_neg (by omega)]; omega

theorem unpackI_leI {n : Nat} (hn : 0 < n) {i : Int} (h1 : -(2 ^ (8 * n - 1) : Nat) ≤ i)
    (h2 : i < (2 ^ (8 * n - 1) : Nat)) : unpackI n (leI n i) = pure i := by
  unfold unpackI
  rw [if_pos (by simp)]
  congr 1
  unfold leI
  rw [leNat_le_of_lt, toSigned_emod hn h1 h2]
  have : (256 : Nat) ^ n = 2 ^ (8 * n) := by rw [Nat.pow_mul]
  rw [this]
  have h3 : 0 < 2 ^ (8 * n) := Nat.pow_pos (by decide)
  have h4 := Int.emod_lt_of_pos i (b := ((2 ^ (8 * n) : Nat) : Int)) (by exact_mod_cast h3)
  have h5 := Int.emod_nonneg i (b := ((2 ^ (8 * n) : Nat) : Int)) (by omega)
  omega

@[simp] theorem unpackI_leI2 (i : Int16) : unpackI 2 (leI 2 i.toInt) = pure i.toInt :=
  unpackI_leI (by decide) (by have := i.le_toInt; simpa using this) (by have := i.toInt_lt; simpa using this)
@[simp] theorem unpackI_leI4 (i : Int32) : unpackI 4 (leI 4 i.toInt) = pure i.toInt :=
  unpackI_leI (by decide) (by have := i.le_toInt; simpa using this) (by have := i.toInt_lt; simpa using this)
@[simp] theorem unpackI_leI8 (i : Int64) : unpackI 8 (leI 8 i.toInt) = pure i.toInt :=
  unpackI_leI (by decide) (by have := i.le_toInt; simpa using this) (by have := i.toInt_lt; simpa using this)

/-! ### slices of concatenations -/

/-- Right-nested slice computation. -/
theorem slice_cat {x y : List α} {s e n : Nat} (hx : x.length = n) (h : n ≤ s) :
    slice (x ++ y) s e = slice y (s - n) (e - n) := by
  subst hx; exact slice_append_right h

theorem slice_hit {x y : List α} {e n : Nat} (hx : x.length = n) (h : n = e) :
    slice (x ++ y) 0 e = x := by
  subst h; exact slice_append_exact hx

theorem slice_mid {a m c : List α} {s e : Nat} (hs : a.length = s) (he : e = s + m.length) :
    slice (a ++ (m ++ c)) s e = m := by
  subst hs he; simp [slice]

theorem slice_slice {b : List α} {s e s' e' : Nat} (h : e' ≤ e - s) :
    slice (slice b s e) s' e' = slice b (s + s') (s + e') := by
  unfold slice
  rw [List.drop_take, List.drop_drop, List.take_take]
  congr 1
  omega

theorem slice_take {b : List α} {s e n : Nat} (h : e ≤ n) : slice (b.take n) s e = slice b s e := by
  unfold slice
  rw [List.drop_take, List.take_take]; congr 1; omega

theorem slice_drop {b : List α} {s e n : Nat} : slice (b.drop n) s e = slice b (n + s) (n + e) := by
  unfold slice
  rw [List.drop_drop]; congr 1; omega

theorem take_eq_slice (b : List α) (n : Nat) : b.take n = slice b 0 n := by simp [slice]

theorem slice_through {x y : List α} {e : Nat} (h : x.length ≤ e) :
    slice (x ++ y) 0 e = x ++ slice y 0 (e - x.length) := by
  unfold slice; simp [List.take_append, List.take_of_length_le h]

theorem slice_zero_zero (y : List α) : slice y 0 0 = [] := by simp [slice]

theorem slice_cons_succ (a : α) (y : List α) (s e : Nat) :
    slice (a :: y) (s + 1) (e + 1) = slice y s e := by simp [slice]

theorem slice_cons_zero (a : α) (y : List α) (e : Nat) :
    slice (a :: y) 0 (e + 1) = a :: slice y 0 e := by simp [slice]

theorem slice_nil (s e : Nat) : slice ([] : List α) s e = [] := by simp [slice]

@[simp] theorem Guid_encode_length (g : Guid) : g.encode.length = 16 := by simp [Guid.encode]

/-- Discharges comparisons of lengths. -/
macro "len_disch" : tactic => `(tactic| first | omega | (simp <;> omega) | fail)

/-- Evaluates slices with literal bounds of right-nested concatenations of parts of known length. -/
macro "slices" : tactic => `(tactic|
  simp (disch := len_disch) only [List.append_assoc, slice_append_right, slice_through, slice_all,
    slice_zero_zero, slice_nil, le_length, leI_length, Guid_encode_length, Nat.reduceSub, Nat.sub_self, List.append_nil,
    List.length_cons, List.length_nil, Nat.reduceAdd, List.length_append])

/-! ### reading integers at an offset -/

theorem uAt_go_eq (b : Bytes) (n off : Nat) (h : off + n ≤ b.length) :
    uAt.go b n off = leNat (slice b off (off + n)) := by
  induction n generalizing off with
  | zero => simp [uAt.go, slice, leNat]
  | succ n ih =>
    have h1 : off < b.length := by omega
    have : slice b off (off + (n + 1)) = b[off] :: slice b (off + 1) (off + 1 + n) := by
      unfold slice
      rw [List.drop_eq_getElem_cons h1, show off + (n + 1) - off = n + 1 by omega, List.take_succ_cons]
      congr 2; omega
    rw [this]
    simp only [uAt.go, leNat, ih (off + 1) (by omega)]
    simp [List.getD_eq_getElem?_getD, h1]

/-- `struct.unpack` of a slice is the specification's integer at that offset, or `struct.error`. -/
theorem unpackU_slice (b : Bytes) (n off : Nat) (_hn : 0 < n) :
    unpackU n (slice b off (off + n)) = match uAt n b off with
      | some v => pure v
      | none => Py.raise .structError := by
  unfold unpackU uAt
  by_cases h : off + n ≤ b.length
  · rw [if_pos (by simp; omega), if_pos h, uAt_go_eq b n off h]
  · rw [if_neg (by simp; omega), if_neg h]

theorem uAt_eq_some_iff {n : Nat} {b : Bytes} {off v : Nat} :
    uAt n b off = some v ↔ off + n ≤ b.length ∧ leNat (slice b off (off + n)) = v := by
  unfold uAt
  split
  · rename_i h; simp [uAt_go_eq b n off h, h]
  · rename_i h; simp [h]

theorem uAt_eq_none_iff {n : Nat} {b : Bytes} {off : Nat} :
    uAt n b off = none ↔ b.length < off + n := by
  unfold uAt; split <;> simp <;> omega

theorem uAt_lt {n : Nat} {b : Bytes} {off v : Nat} (h : uAt n b off = some v) : v < 256 ^ n := by
  obtain ⟨h1, rfl⟩ := uAt_eq_some_iff.mp h
  have := leNat_lt (slice b off (off + n))
  simp only [slice_length] at this
  rwa [show min (off + n - off) (b.length - off) = n by omega] at this

/-- A serialized integer is read back. -/
theorem uAt_le {n v : Nat} (h : v < 256 ^ n) (pre post : Bytes) :
    uAt n (pre ++ (le n v ++ post)) pre.length = some v := by
  rw [uAt_eq_some_iff]
  refine ⟨by simp, ?_⟩
  rw [slice_mid rfl (by simp), leNat_le_of_lt h]

/-! ### every byte string is an encoding -/

theorem le4_surj {b : Bytes} (h : b.length = 4) : ∃ v : UInt32, le 4 v.toNat = b := by
  refine ⟨.ofNat (leNat b), ?_⟩
  have h1 := leNat_lt b
  rw [h] at h1
  have h2 := le_leNat b
  rw [h] at h2
  rw [show (UInt32.ofNat (leNat b)).toNat = leNat b by simp; omega, h2]

theorem le2_surj {b : Bytes} (h : b.length = 2) : ∃ v : UInt16, le 2 v.toNat = b := by
  refine ⟨.ofNat (leNat b), ?_⟩
  have h1 := leNat_lt b
  rw [h] at h1
  have h2 := le_leNat b
  rw [h] at h2
  rw [show (UInt16.ofNat (leNat b)).toNat = leNat b by simp; omega, h2]

theorem leI8_surj {b : Bytes} (h : b.length = 8) : ∃ v : Int64, leI 8 v.toInt = b := by
  refine ⟨.ofInt (leNat b), ?_⟩
  have h1 := leNat_lt b
  rw [h] at h1
  have h2 := le_leNat b
  rw [h] at h2
  unfold leI
  rw [Int64.toInt_ofInt]
  rw [show ((2 ^ (8 * 8) : Nat) : Int) = ((2 ^ 64 : Nat) : Int) from rfl, show Int64.size = 2 ^ 64 from rfl, Int.bmod_emod,
    Int.emod_eq_of_lt (by omega) (by omega), Int.toNat_natCast, h2]

theorem leI4_surj {b : Bytes} (h : b.length = 4) : ∃ v : Int32, leI 4 v.toInt = b := by
  refine ⟨.ofInt (leNat b), ?_⟩
  have h1 := leNat_lt b
  rw [h] at h1
  have h2 := le_leNat b
  rw [h] at h2
  unfold leI
  rw [Int32.toInt_ofInt]
  rw [show ((2 ^ (8 * 4) : Nat) : Int) = ((2 ^ 32 : Nat) : Int) from rfl, show Int32.size = 2 ^ 32 from rfl, Int.bmod_emod,
    Int.emod_eq_of_lt (by omega) (by omega), Int.toNat_natCast, h2]

end Verif
