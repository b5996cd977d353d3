import Verif.Props.Extra

/-
C61: records of a property store may overlap.
-/

namespace Verif.Props

open Spec

/-- How many values a reported storage has. -/
def valuesIn : PyVal → Nat
  | .dict d => match Dict.get? d "serialized_property_values" with
    | some (.list l) => l.length
    | _ => 0
  | _ => 0

/-! ### upper bound -/

/-- C61, upper bound (also for C46): a property store of `n` bytes has at most `n` storages with at most `n` values each. -/
theorem store_bounded (raw : Bytes) (l : List PyVal) (h : (Metadata.propertyStore raw).res = .ok l) :
    l.length ≤ raw.length ∧ ∀ v ∈ l, valuesIn v ≤ raw.length := by
  unfold Metadata.propertyStore at h
  obtain ⟨sts, h1, h⟩ := Py.bind_ok_iff.1 h
  obtain ⟨a1, a2⟩ := Metadata.sizeChain_length _ _ h1
  rw [List.length_drop] at a1 a2
  obtain ⟨b1, b2⟩ := Metadata.collect_length (P := fun v => valuesIn v ≤ raw.length) sts l h fun x hx d hd => by
    have hx := a2 x hx
    unfold Metadata.storageAsDict at hd
    obtain ⟨_, -, hd⟩ := Py.bind_ok_iff.1 hd
    obtain ⟨_, -, hd⟩ := Py.bind_ok_iff.1 hd
    obtain ⟨_, -, hd⟩ := Py.bind_ok_iff.1 hd
    obtain ⟨_, -, hd⟩ := Py.bind_ok_iff.1 hd
    obtain ⟨vals, hv, hd⟩ := Py.bind_ok_iff.1 hd
    obtain ⟨items, hi, hd⟩ := Py.bind_ok_iff.1 hd
    simp only [Py.pure_res, Except.ok.injEq] at hd
    subst hd
    obtain ⟨c1, -⟩ := Metadata.sizeChain_length _ _ hv
    obtain ⟨d1, -⟩ := Metadata.collect_length (P := fun _ => True) vals items hi fun _ _ _ _ => trivial
    rw [List.length_drop] at c1
    show items.length ≤ _
    omega
  exact ⟨by omega, b2⟩

/-! ### lower bound -/

/-- `n` times the number 4, then zeros: every word is the size of a storage that ends with itself, and of a value in all
storages before. -/
def overlapping (n : Nat) : Bytes := (List.replicate n (le 4 4)).flatten ++ List.replicate 32 0

theorem overlapping_add (m n : Nat) :
    overlapping (m + n) = (List.replicate m (le 4 4)).flatten ++ overlapping n := by
  unfold overlapping
  rw [List.replicate_add, List.flatten_append, List.append_assoc]

/-- The suffixes from each word on. -/
def tails : Nat → List Bytes
  | 0 => []
  | n + 1 => overlapping (n + 1) :: tails n

theorem tails_length (n : Nat) : (tails n).length = n := by
  induction n with
  | zero => rfl
  | succ n ih => rw [tails, List.length_cons, ih]

theorem sizeChain_overlapping (n : Nat) : Metadata.sizeChain (overlapping n) = pure (tails n) := by
  induction n with
  | zero => exact Metadata.sizeChain_end (List.replicate 28 0)
  | succ n ih =>
    have e : overlapping (n + 1) = le 4 4 ++ overlapping n := by
      rw [Nat.add_comm, overlapping_add]
      rfl
    rw [tails, e]
    exact Metadata.sizeChain_cons ⟨[], rfl, by decide⟩ ih

theorem value_overlapping (n : Nat) (hn : 0 < n) : ∃ d, Metadata.integerNameAsDict (overlapping n) = pure d := by
  have h : n = 1 ∨ n = 2 ∨ n = 3 ∨ ∃ k, n = 4 + k := by
    rcases Nat.lt_or_ge n 4 with h | h
    · omega
    · exact .inr (.inr (.inr ⟨n - 4, by omega⟩))
  rcases h with rfl | rfl | rfl | ⟨k, rfl⟩
  · exact ⟨_, rfl⟩
  · exact ⟨_, rfl⟩
  · exact ⟨_, rfl⟩
  · rw [overlapping_add]
    exact ⟨_, rfl⟩

theorem collect_tails (n : Nat) : ∃ l, Metadata.collect Metadata.integerNameAsDict (tails n) = pure l ∧ l.length = n := by
  induction n with
  | zero => exact ⟨[], rfl, rfl⟩
  | succ n ih =>
    obtain ⟨l, hl, hn⟩ := ih
    obtain ⟨d, hd⟩ := value_overlapping (n + 1) (by omega)
    exact ⟨_, Metadata.collect_cons hd hl, by simp [hn]⟩

theorem parseUuid_long {b : Bytes} (h : 16 ≤ b.length) : ∃ t, parseUuid b = pure t := by
  unfold parseUuid
  have ha : (slice b 0 8).length = 8 := by simp [slice]; omega
  have hb : (slice b 8 16).length = 8 := by simp [slice]; omega
  simp only [ha, hb, ne_eq, not_true_eq_false, if_false]
  exact ⟨_, rfl⟩

theorem overlapping_length (n : Nat) : (overlapping n).length = 4 * n + 32 := by
  simp [overlapping]
  omega

theorem storage_overlapping (n : Nat) :
    ∃ d, Metadata.storageAsDict (overlapping n) = pure d ∧ valuesIn (.dict d) = n - 6 := by
  have hl := overlapping_length n
  obtain ⟨t, ht⟩ := parseUuid_long (b := slice (overlapping n) 8 24) (by simp [slice]; omega)
  have hf : Metadata.formatId (overlapping n) = pure t := ht
  obtain ⟨vals, hv, items, hi, hn⟩ : ∃ vals, Metadata.sizeChain ((overlapping n).drop 24) = pure vals ∧
      ∃ items, Metadata.collect (if t = Metadata.stringNameFormat then Metadata.stringNameAsDict
        else Metadata.integerNameAsDict) vals = pure items ∧ items.length = n - 6 := by
    rcases Nat.lt_or_ge n 6 with h | h
    · refine ⟨[], ?_, [], rfl, by simp; omega⟩
      have : (overlapping n).drop 24 = le 4 0 ++ List.replicate (4 * n + 4) 0 := by
        have : n = 0 ∨ n = 1 ∨ n = 2 ∨ n = 3 ∨ n = 4 ∨ n = 5 := by omega
        rcases this with rfl | rfl | rfl | rfl | rfl | rfl <;> rfl
      rw [this]
      exact Metadata.sizeChain_end _
    · obtain ⟨k, rfl⟩ : ∃ k, n = 6 + k := ⟨n - 6, by omega⟩
      obtain ⟨l, hl, hk⟩ := collect_tails k
      refine ⟨tails k, ?_, l, ?_, by omega⟩
      · rw [← sizeChain_overlapping, overlapping_add]
        exact congrArg _ (drop_append_exact rfl)
      · have hs : slice (overlapping (6 + k)) 8 24 = (⟨4, 4, 0, 4, 0, 0, 0, 4, 0, 0, 0⟩ : Guid).encode := by
          rw [overlapping_add]
          rfl
        rw [hs, parseUuid_encode] at ht
        have := congrArg Py.res ht
        simp only [Py.pure_res, Except.ok.injEq] at this
        rw [← this, if_neg (by decide +kernel), hl]
  have hu : ∀ off, off + 4 ≤ 8 → ∃ v, unpackU 4 (slice (overlapping n) off (off + 4)) = pure v := by
    intro off ho
    refine ⟨leNat (slice (overlapping n) off (off + 4)), ?_⟩
    unfold unpackU
    exact if_pos (by simp [slice]; omega)
  obtain ⟨v0, h0⟩ := hu 0 (by omega)
  obtain ⟨v4, h4⟩ := hu 4 (by omega)
  refine ⟨[("storage_size", .nat v0),
    ("version", .str (pyHex v4)), ("format_id", .str t),
    ("serialized_property_values", .list items)], ?_, hn⟩
  unfold Metadata.storageAsDict
  rw [show unpackU 4 (slice (overlapping n) 0 4) = pure v0 from h0,
    show unpackU 4 (slice (overlapping n) 4 8) = pure v4 from h4, hf, hv]
  simp only [pure_bind]
  rw [hi]
  rfl

/-- C61, lower bound: a block of `40 + 4 n` bytes gives a report with `n` storages and `(n - 6)(n - 5) / 2` values. -/
theorem store_overlap (tp : TextProc) (n : Nat) (hn : 40 + 4 * n < 2 ^ 32) :
    ∃ l, Extra.asDict ⟨.metadata, tp, le 4 (40 + 4 * n) ++ le 4 0xA0000009 ++ overlapping n⟩ =
        pure [("size", .int (40 + 4 * n : Nat)), ("property_store", .list l)] ∧
      l.length = n ∧ 2 * (l.map valuesIn).sum = (n - 6) * (n - 5) := by
  have key : ∀ n, ∃ l, Metadata.collect Metadata.storageAsDict (tails n) = pure l ∧ l.length = n ∧
      2 * (l.map valuesIn).sum = (n - 6) * (n - 5) := by
    intro n
    induction n with
    | zero => exact ⟨[], rfl, rfl, rfl⟩
    | succ n ih =>
      obtain ⟨l, h1, h2, h3⟩ := ih
      obtain ⟨d, d1, d2⟩ := storage_overlapping (n + 1)
      refine ⟨_, Metadata.collect_cons d1 h1, by simp [h2], ?_⟩
      rw [List.map_cons, List.sum_cons, d2, Nat.mul_add, h3]
      rcases Nat.lt_or_ge n 6 with h | h
      · have e1 : n - 6 = 0 := by omega
        have e2 : n + 1 - 6 = 0 := by omega
        simp [e1, e2]
      · obtain ⟨k, rfl⟩ : ∃ k, n = 6 + k := ⟨n - 6, by omega⟩
        have e1 : 6 + k - 6 = k := by omega
        have e2 : 6 + k - 5 = k + 1 := by omega
        have e3 : 6 + k + 1 - 6 = k + 1 := by omega
        have e4 : 6 + k + 1 - 5 = k + 2 := by omega
        rw [e1, e2, e3, e4]
        ring
  obtain ⟨l, h1, h2, h3⟩ := key n
  refine ⟨l, ?_, h2, h3⟩
  have hsz : Extra.size ⟨.metadata, tp, le 4 (40 + 4 * n) ++ le 4 0xA0000009 ++ overlapping n⟩ = pure (40 + 4 * n) := by
    rw [ExtraData.size_eq _ (by simp), List.append_assoc, ExtraData.uAt_le4 _ hn]
  unfold Extra.asDict
  rw [hsz, pure_bind]
  show (Extra.metadataFields _ >>= _) = _
  unfold Extra.metadataFields Metadata.propertyStore
  have : (le 4 (40 + 4 * n) ++ le 4 0xA0000009 ++ overlapping n).drop 8 = overlapping n := drop_append_exact (by simp)
  simp only [this]
  rw [sizeChain_overlapping, pure_bind, h1]
  rfl

/-- 4 kB of extra data, half a million values. -/
example (tp : TextProc) : ∃ l, Extra.asDict ⟨.metadata, tp, le 4 4068 ++ le 4 0xA0000009 ++ overlapping 1007⟩ =
    pure [("size", .int 4068), ("property_store", .list l)] ∧ (l.map valuesIn).sum = 501501 := by
  obtain ⟨l, h1, -, h3⟩ := store_overlap tp 1007 (by omega)
  exact ⟨l, h1, by omega⟩

end Verif.Props
