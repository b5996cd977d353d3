import Verif.Props.Growth
import Verif.Props.Values

namespace Verif

open Spec

/-! ### the length of a printed tree -/

/-- The tree is at most `n` levels deep; its keys are short, its dates have the usual length, its numbers satisfy `P`. -/
def Slim (P : Int → Prop) : Nat → PyVal → Prop
  | _, .none => True
  | _, .int i => P i
  | _, .str _ => True
  | _, .dt d => (Json.quote d.isoSeconds).length ≤ 27
  | 0, .list _ => False
  | n + 1, .list l => ∀ v ∈ l, Slim P n v
  | 0, .dict _ => False
  | n + 1, .dict d => ∀ kv ∈ d, (Json.quote kv.1.toList).length ≤ 40 ∧ Slim P n kv.2

mutual
/-- The number of characters of the numbers of a tree. -/
def digits : PyVal → Nat
  | .int i => (decInt i).length
  | .list l => digitsList l
  | .dict d => digitsEntries d
  | .none => 0
  | .str _ => 0
  | .dt _ => 0
def digitsList : List PyVal → Nat
  | [] => 0
  | v :: l => digits v + digitsList l
def digitsEntries : List (String × PyVal) → Nat
  | [] => 0
  | (_, v) :: d => digits v + digitsEntries d
end

theorem hex4_length {n : Nat} (h : n < 65536) : (Json.hex4 n).length = 4 := by
  rw [Json.hex4_eq h]; rfl

theorem pair_length (a b : Nat) (h : a < 65536) (h' : b < 65536) : ('\\' :: 'u' :: (Json.hex4 a ++
    '\\' :: 'u' :: Json.hex4 b)).length = 12 := by
  simp only [List.length_cons, List.length_append, hex4_length h, hex4_length h']

theorem pair_range (n : Nat) (h : n < 0x110000) :
    0xD800 + (n - 0x10000) / 0x400 < 65536 ∧ 0xDC00 + (n - 0x10000) % 0x400 < 65536 := by omega

theorem escChar_length_le (c : Char) : (Json.escChar c).length ≤ 12 := by
  have hc : c.toNat < 0x110000 := by
    rcases Json.char_cases c with h | h <;> omega
  unfold Json.escChar
  split <;> [decide; skip]
  split <;> [decide; skip]
  split <;> [decide; skip]
  split <;> [decide; skip]
  split <;> [decide; skip]
  split <;> [decide; skip]
  split <;> [decide; skip]
  split <;> [exact (by simp); skip]
  split
  · rename_i h
    simp [hex4_length h]
  · exact Nat.le_of_eq (pair_length _ _ (pair_range _ hc).1 (pair_range _ hc).2)

theorem quote_length_le (s : Str) : (Json.quote s).length ≤ 2 + 12 * s.length := by
  have : (s.flatMap Json.escChar).length ≤ 12 * s.length := by
    induction s with
    | nil => simp
    | cons c s ih =>
      have := escChar_length_le c
      simp only [List.flatMap_cons, List.length_append, List.length_cons]
      omega
  simp only [Json.quote, List.length_cons, List.length_append, List.length_nil]
  omega

theorem newline_length (lvl : Nat) : (Json.newline lvl).length = 4 * lvl + 1 := by simp [Json.newline]

mutual
theorem dump_length_le {P : Int → Prop} (lvl n : Nat) (hl : lvl + n ≤ 9) :
    (v : PyVal) → Slim P n v → (Json.dump lvl v).length + 80 ≤ 120 * weight v + digits v
  | .none, _ => by simp [Json.dump, weight, digits]
  | .int i, _ => by simp only [Json.dump, weight, digits]; omega
  | .str s, _ => by
    have := quote_length_le s
    simp only [Json.dump, weight, digits]
    omega
  | .dt d, h => by
    have h : (Json.quote d.isoSeconds).length ≤ 27 := by cases n <;> exact h
    simp only [Json.dump, weight, digits]
    omega
  | .list [], _ => by simp [Json.dump, weight, weightList, digits, digitsList]
  | .list (v :: l), h => by
    cases n with
    | zero => exact h.elim
    | succ n =>
      have h1 := dump_length_le (lvl + 1) n (by omega) v (h v (by simp))
      have h2 := dumpList_length_le (lvl + 1) n (by omega) l fun v hv => h v (by simp [hv])
      simp only [Json.dump, weight, weightList, digits, digitsList, List.length_cons, List.length_append, newline_length,
        List.length_nil]
      omega
  | .dict [], _ => by simp [Json.dump, weight, weightEntries, digits, digitsEntries]
  | .dict ((k, v) :: d), h => by
    cases n with
    | zero => exact h.elim
    | succ n =>
      have h0 : (Json.quote k.toList).length ≤ 40 := (h (k, v) (by simp)).1
      have h1 := dump_length_le (lvl + 1) n (by omega) v (h (k, v) (by simp)).2
      have h2 := dumpDict_length_le (lvl + 1) n (by omega) d fun kv hv => h kv (by simp [hv])
      have h3 : (": ".toList).length = 2 := rfl
      simp only [Json.dump, weight, weightEntries, digits, digitsEntries, List.length_cons, List.length_append, newline_length,
        List.length_nil, h3]
      omega
theorem dumpList_length_le {P : Int → Prop} (lvl n : Nat) (hl : lvl + n ≤ 9) :
    (l : List PyVal) → (∀ v ∈ l, Slim P n v) → (Json.dumpList lvl l).length ≤ 120 * weightList l + digitsList l
  | [], _ => by simp [Json.dumpList]
  | v :: l, h => by
    have h1 := dump_length_le lvl n hl v (h v (by simp))
    have h2 := dumpList_length_le lvl n hl l fun v hv => h v (by simp [hv])
    simp only [Json.dumpList, weightList, digitsList, List.length_cons, List.length_append, newline_length]
    omega
theorem dumpDict_length_le {P : Int → Prop} (lvl n : Nat) (hl : lvl + n ≤ 9) :
    (d : List (String × PyVal)) → (∀ kv ∈ d, (Json.quote kv.1.toList).length ≤ 40 ∧ Slim P n kv.2) →
      (Json.dumpDict lvl d).length ≤ 120 * weightEntries d + digitsEntries d
  | [], _ => by simp [Json.dumpDict]
  | (k, v) :: d, h => by
    have h0 : (Json.quote k.toList).length ≤ 40 := (h (k, v) (by simp)).1
    have h1 := dump_length_le lvl n hl v (h (k, v) (by simp)).2
    have h2 := dumpDict_length_le lvl n hl d fun kv hv => h kv (by simp [hv])
    have h3 : (": ".toList).length = 2 := rfl
    simp only [Json.dumpDict, weightEntries, digitsEntries, List.length_cons, List.length_append, newline_length, h3]
    omega
end

theorem digitsEntries_insertKey (k : String) (v : PyVal) (d : Dict) :
    digitsEntries (Json.insertKey k v d) = digits v + digitsEntries d := by
  induction d with
  | nil => rfl
  | cons x d ih =>
    obtain ⟨k', v'⟩ := x
    simp only [Json.insertKey]
    split
    · rfl
    · simp only [digitsEntries, ih]
      omega

mutual
theorem digits_sortKeys : (v : PyVal) → digits (Json.sortKeys v) = digits v
  | .none => rfl
  | .int _ => rfl
  | .str _ => rfl
  | .dt _ => rfl
  | .list l => by simp only [Json.sortKeys, digits, digitsList_sort l]
  | .dict d => by simp only [Json.sortKeys, digits, digitsEntries_sort d]
theorem digitsList_sort : (l : List PyVal) → digitsList (Json.sortList l) = digitsList l
  | [] => rfl
  | v :: l => by simp only [Json.sortList, digitsList, digits_sortKeys v, digitsList_sort l]
theorem digitsEntries_sort : (d : List (String × PyVal)) → digitsEntries (Json.sortDict d) = digitsEntries d
  | [] => rfl
  | (k, v) :: d => by
    simp only [Json.sortDict, digitsEntries, digitsEntries_insertKey, digits_sortKeys v, digitsEntries_sort d]
end

theorem mem_sortList {l : List PyVal} {v : PyVal} (h : v ∈ Json.sortList l) : ∃ u ∈ l, v = Json.sortKeys u := by
  induction l with
  | nil => simp [Json.sortList] at h
  | cons x l ih =>
    rw [Json.sortList, List.mem_cons] at h
    rcases h with rfl | h
    · exact ⟨x, by simp, rfl⟩
    · obtain ⟨u, hu, e⟩ := ih h
      exact ⟨u, by simp [hu], e⟩

theorem Slim.sort {P : Int → Prop} (n : Nat) : ∀ v, Slim P n v → Slim P n (Json.sortKeys v) := by
  induction n with
  | zero =>
    intro v h
    cases v with
    | list l => exact h.elim
    | dict d => exact h.elim
    | _ => exact h
  | succ n ih =>
    intro v h
    cases v with
    | list l =>
      intro v hv
      obtain ⟨u, hu, rfl⟩ := mem_sortList hv
      exact ih u (h u hu)
    | dict d =>
      intro kv hkv
      obtain ⟨u, hu, rfl⟩ := List.mem_map.1 ((Json.sortDict_perm d).mem_iff.1 hkv)
      exact ⟨(h u hu).1, ih u.2 (h u hu).2⟩
    | _ => exact h

/-- The text of a tree of at most nine levels. -/
theorem dumps_length_le {P : Int → Prop} {v : PyVal} (h : Slim P 9 v) :
    (Json.dumps v).length ≤ 120 * weight v + digits v := by
  have := dump_length_le 0 9 (by omega) _ (h.sort 9)
  rw [Props.weight_sortKeys, digits_sortKeys] at this
  unfold Json.dumps
  omega

/-! ### numbers -/

theorem decStr_length (k : Nat) : ∀ n, n < 10 ^ (k + 1) → (decStr n).length ≤ k + 1 := by
  induction k with
  | zero =>
    intro n h
    rw [decStr, if_pos (by omega)]
    simp
  | succ k ih =>
    intro n h
    rw [decStr]
    split
    · simp
    · have := ih (n / 10) (by rw [pow_succ] at h; omega)
      simp only [List.length_append, List.length_cons, List.length_nil]
      omega

/-- The numbers that occur in a report, but for two sizes. -/
def Small (i : Int) : Prop := i.natAbs < 10 ^ 10

theorem decInt_small {i : Int} (h : Small i) : (decInt i).length ≤ 11 := by
  unfold Small at h
  cases i with
  | ofNat n =>
    have := decStr_length 9 n (by simpa using h)
    simp only [decInt]
    omega
  | negSucc n =>
    have := decStr_length 9 (n + 1) (by simpa using h)
    simp only [decInt, List.length_cons]
    omega

mutual
theorem digits_le (n : Nat) : (v : PyVal) → Slim Small n v → digits v ≤ 11 * weight v
  | .none, _ => by simp [digits]
  | .int i, h => by
    have := decInt_small (i := i) (by cases n <;> exact h)
    simp only [digits, weight]
    omega
  | .str _, _ => by simp [digits]
  | .dt _, _ => by simp [digits]
  | .list l, h => by
    cases n with
    | zero => exact h.elim
    | succ n =>
      have := digitsList_le n l h
      simp only [digits, weight]
      omega
  | .dict d, h => by
    cases n with
    | zero => exact h.elim
    | succ n =>
      have := digitsEntries_le n d fun kv hkv => (h kv hkv).2
      simp only [digits, weight]
      omega
theorem digitsList_le (n : Nat) : (l : List PyVal) → (∀ v ∈ l, Slim Small n v) → digitsList l ≤ 11 * weightList l
  | [], _ => by simp [digitsList]
  | v :: l, h => by
    have h1 := digits_le n v (h v (by simp))
    have h2 := digitsList_le n l fun v hv => h v (by simp [hv])
    simp only [digitsList, weightList]
    omega
theorem digitsEntries_le (n : Nat) : (d : List (String × PyVal)) → (∀ kv ∈ d, Slim Small n kv.2) →
    digitsEntries d ≤ 11 * weightEntries d
  | [], _ => by simp [digitsEntries]
  | (k, v) :: d, h => by
    have h1 := digits_le n v (h (k, v) (by simp))
    have h2 := digitsEntries_le n d fun kv hv => h kv (by simp [hv])
    simp only [digitsEntries, weightEntries]
    omega
end

/-- One entry may have larger numbers. -/
theorem digitsEntries_except {n m : Nat} {k : String} {d : Dict} (hd : d.keys.Nodup)
    (h : ∀ kv ∈ d, kv.1 ≠ k → Slim Small n kv.2) (hk : ∀ v, (k, v) ∈ d → digits v ≤ 11 * weight v + m) :
    digitsEntries d ≤ 11 * weightEntries d + m := by
  induction d with
  | nil => simp [digitsEntries]
  | cons x d ih =>
    obtain ⟨k', v⟩ := x
    have hn : k' ∉ d.map Prod.fst ∧ (Dict.keys d).Nodup := by simpa [Dict.keys] using hd
    by_cases e : k' = k
    · subst e
      have h1 := hk v (by simp)
      have h2 := digitsEntries_le n d fun kv hkv => h kv (by simp [hkv]) fun e => hn.1 (e ▸ List.mem_map_of_mem hkv)
      simp only [digitsEntries, weightEntries]
      omega
    · have h1 := digits_le n v (h (k', v) (by simp) e)
      have h2 := ih hn.2 (fun kv hkv => h kv (by simp [hkv])) fun v hv => hk v (by simp [hv])
      simp only [digitsEntries, weightEntries]
      omega

theorem Slim.mono {P Q : Int → Prop} (h : ∀ i, P i → Q i) (n : Nat) : ∀ v, Slim P n v → Slim Q n v := by
  induction n with
  | zero =>
    intro v hv
    cases v with
    | int i => exact h i hv
    | _ => exact hv
  | succ n ih =>
    intro v hv
    cases v with
    | int i => exact h i hv
    | list l => exact fun u hu => ih u (hv u hu)
    | dict d => exact fun kv hkv => ⟨(hv kv hkv).1, ih kv.2 (hv kv hkv).2⟩
    | _ => exact hv

/-! ### dates -/

theorem escChar_plain {c : Char} (h : c.isDigit = true ∨ c ∈ ['-', 'T', ':', '+']) : (Json.escChar c).length = 1 := by
  rcases h with h | h
  · have hc : 48 ≤ c.toNat ∧ c.toNat ≤ 57 := by
      simp only [Char.isDigit, Bool.and_eq_true, decide_eq_true_eq] at h
      exact h
    have h0 : ∀ x : Char, x.toNat < 48 ∨ 57 < x.toNat → c ≠ x := by
      rintro x hx rfl
      omega
    unfold Json.escChar
    rw [if_neg (h0 _ (by decide)), if_neg (h0 _ (by decide)), if_neg (h0 _ (by decide)), if_neg (h0 _ (by decide)),
      if_neg (h0 _ (by decide)), if_neg (by omega), if_neg (by omega), if_pos (by omega)]
    rfl
  · revert c
    decide

theorem quote_plain {s : Str} (h : ∀ c ∈ s, c.isDigit = true ∨ c ∈ ['-', 'T', ':', '+']) :
    (Json.quote s).length = 2 + s.length := by
  have : (s.flatMap Json.escChar).length = s.length := by
    induction s with
    | nil => rfl
    | cons c s ih =>
      have h1 := escChar_plain (h c (by simp))
      have h2 := ih fun c hc => h c (by simp [hc])
      simp only [List.flatMap_cons, List.length_append, List.length_cons]
      omega
  simp only [Json.quote, List.length_cons, List.length_append, List.length_nil]
  omega

theorem padded_length {w n : Nat} (hw : 0 < w) (h : n < 10 ^ w) : (padded w n).length = w := by
  have := (Nat.length_toDigits_le_iff (b := 10) (n := n) (by decide) hw).2 h
  simp only [padded, List.length_append, List.length_replicate]
  omega

theorem padded_digits {w n : Nat} {c : Char} (h : c ∈ padded w n) : c.isDigit = true := by
  rcases List.mem_append.1 h with h | h
  · rw [(List.mem_replicate.1 h).2]
    decide
  · exact Nat.isDigit_of_mem_toDigits (b := 10) (by decide) (by decide) h

theorem monthLengths_le (y i : Nat) : (monthLengths y).getD i 0 ≤ 31 := by
  rw [List.getD_eq_getElem?_getD]
  rcases e : (monthLengths y)[i]? with _ | x
  · simp
  · have := List.mem_of_getElem? e
    simp only [monthLengths, List.mem_cons, List.not_mem_nil, or_false] at this
    simp only [Option.getD_some]
    split at this <;> omega

theorem isoSeconds_quote {d : DateTime} (h : ValidDateTime d) : (Json.quote d.isoSeconds).length ≤ 27 := by
  rw [Json.isoSeconds_eq]
  rw [quote_plain]
  · obtain ⟨hy, hm, hd, hh, hi, hs, -⟩ := h
    have hd : d.day ≤ 31 := le_trans hd.2 (monthLengths_le _ _)
    simp only [isoText, List.length_append, padded_length (w := 4) (n := d.year) (by decide) (by omega),
      padded_length (w := 2) (n := d.month) (by decide) (by omega), padded_length (w := 2) (n := d.day) (by decide) (by omega),
      padded_length (w := 2) (n := d.hour) (by decide) (by omega),
      padded_length (w := 2) (n := d.minute) (by decide) (by omega),
      padded_length (w := 2) (n := d.second) (by decide) (by omega), List.length_cons, List.length_nil]
    omega
  · intro c hc
    simp only [isoText, List.mem_append] at hc
    rcases hc with (((((((((((hc | hc) | hc) | hc) | hc) | hc) | hc) | hc) | hc) | hc) | hc) | hc)
    all_goals first
      | exact .inl (padded_digits hc)
      | (revert c; decide)

end Verif
