import Verif.Spec.InfoTold
import Verif.Lemmas.Visible
import Verif.Props.FinalAll

/-
C105: what the report tells about the link info.
-/

namespace Verif.Props

open Spec Py Log Trailer Verif.Values

namespace InfoTold

open Ends

theorem sameBytes_append {i i' : Bytes} {a b c : Nat} (h : SameBytes i i' a b) (h' : SameBytes i i' b c) : SameBytes i i' a c := by
  intro k h1 h2
  by_cases hk : k < b
  · exact h k h1 hk
  · exact h' k (by omega) h2

theorem sameBytes_sub {i i' : Bytes} {a c a' c' : Nat} (h : SameBytes i i' a c) (ha : a ≤ a') (hc : c' ≤ c) : SameBytes i i' a' c' :=
  fun k h1 h2 => h k (by omega) (by omega)

theorem slice_at (i : Bytes) (off n k : Nat) (h1 : off ≤ k) (h2 : k < off + n) : (slice i off (off + n))[k - off]? = i[k]? := by
  unfold slice
  rw [List.getElem?_take_of_lt (by omega), List.getElem?_drop]
  congr 1
  omega

theorem word_bytes {i i' : Bytes} {off n : Nat} (h : uAt 4 i off = some n) (h' : uAt 4 i' off = some n) : SameBytes i i' off (off + 4) := by
  obtain ⟨l1, e1⟩ := uAt_eq_some_iff.1 h
  obtain ⟨l2, e2⟩ := uAt_eq_some_iff.1 h'
  have : slice i off (off + 4) = slice i' off (off + 4) := leNat_inj (by simp; omega) (e1.trans e2.symm)
  intro k h1 h2
  rw [← slice_at i off 4 k h1 h2, this, slice_at i' off 4 k h1 h2]

theorem bytes_word {i i' : Bytes} {a c off : Nat} (h : SameBytes i i' a c) (ha : a ≤ off) (hc : off + 4 ≤ c) :
    uAt 4 i off = uAt 4 i' off := by
  have key : ∀ {x y : Bytes} {n : Nat}, SameBytes x y a c → uAt 4 x off = some n → uAt 4 y off = some n := by
    intro x y n h hx
    obtain ⟨l1, e1⟩ := uAt_eq_some_iff.1 hx
    have hs : slice x off (off + 4) = slice y off (off + 4) := by
      refine List.ext_getElem? fun k => ?_
      by_cases hk : k < 4
      · have h1 := slice_at x off 4 (off + k) (by omega) (by omega)
        have h2 := slice_at y off 4 (off + k) (by omega) (by omega)
        rw [Nat.add_sub_cancel_left] at h1 h2
        rw [h1, h2]
        exact h _ (by omega) (by omega)
      · rw [List.getElem?_eq_none (by simp; omega), List.getElem?_eq_none (by simp; omega)]
    refine uAt_eq_some_iff.2 ⟨?_, by rw [← hs, e1]⟩
    have h3 := h (off + 3) (by omega) (by omega)
    rw [List.getElem?_eq_getElem (by omega)] at h3
    have := (List.getElem?_eq_some_iff.1 h3.symm).1
    omega
  rcases hx : uAt 4 i off with _ | n
  · rcases hy : uAt 4 i' off with _ | m
    · rfl
    · rw [key (fun k h1 h2 => (h k h1 h2).symm) hy] at hx
      cases hx
  · exact (key h hx).symm

theorem sameNarrow_value {tp : TextProc} {i i' : Bytes} {off : Nat} {v : PyVal} (h : Narrow tp (i.drop off) v) (h' : Narrow tp (i'.drop off) v) :
    SameNarrow tp i i' off := by
  obtain ⟨s, hs, rfl⟩ := h
  obtain ⟨s', hs', e⟩ := h'
  cases e
  exact fun t => ⟨fun ht => narrowText_unique hs ht ▸ hs', fun ht => narrowText_unique hs' ht ▸ hs⟩

theorem sameWide_value {i i' : Bytes} {off : Nat} {v : PyVal} (h : Wide (i.drop off) v) (h' : Wide (i'.drop off) v) : SameWide i i' off := by
  obtain ⟨s, hs, rfl⟩ := h
  obtain ⟨s', hs', e⟩ := h'
  cases e
  exact fun t => ⟨fun ht => wideText_unique hs ht ▸ hs', fun ht => wideText_unique hs' ht ▸ hs⟩

theorem narrow_eq {tp : TextProc} {i i' : Bytes} {off : Nat} (h : SameNarrow tp i i' off) : Narrow tp (i.drop off) = Narrow tp (i'.drop off) := by
  funext v
  unfold Narrow
  simp only [h _]

theorem wide_eq {i i' : Bytes} {off : Nat} (h : SameWide i i' off) : Wide (i.drop off) = Wide (i'.drop off) := by
  funext v
  unfold Wide
  simp only [h _]

/-- Both descriptions have the key. -/
theorem both {d : Dict} {es es' : Entries} (h : Fits d es) (h' : Fits d es') {k : String} {P P' : PyVal → Prop}
    (hf : es.find? (·.1 = k) = some (k, P)) (hf' : es'.find? (·.1 = k) = some (k, P')) : ∃ v, P v ∧ P' v := by
  obtain ⟨v, hv, p⟩ := value_at h hf
  obtain ⟨v', hv', p'⟩ := value_at h' hf'
  rw [hv] at hv'
  cases hv'
  exact ⟨v, p, p'⟩

theorem both_nat {d : Dict} {es es' : Entries} (h : Fits d es) (h' : Fits d es') (k : String) (i i' : Bytes) (off : Nat)
    (hf : es.find? (·.1 = k) = some (k, NatAt 4 i off)) (hf' : es'.find? (·.1 = k) = some (k, NatAt 4 i' off)) :
    SameBytes i i' off (off + 4) := by
  obtain ⟨v, ⟨n, hn, rfl⟩, ⟨m, hm, e⟩⟩ := both h h' hf hf'
  simp only [PyVal.int.injEq, Nat.cast_inj] at e
  subst e
  exact word_bytes hn hm

theorem both_hex {d : Dict} {es es' : Entries} (h : Fits d es) (h' : Fits d es') (k : String) (i i' : Bytes) (off : Nat)
    (hf : es.find? (·.1 = k) = some (k, HexAt i off)) (hf' : es'.find? (·.1 = k) = some (k, HexAt i' off)) :
    SameBytes i i' off (off + 4) := by
  obtain ⟨v, ⟨n, hn, rfl⟩, ⟨m, hm, e⟩⟩ := both h h' hf hf'
  simp only [PyVal.str.injEq, hex0x_inj] at e
  subst e
  exact word_bytes hn hm

theorem u4_bytes {i i' : Bytes} {a c off : Nat} (h : SameBytes i i' a c) (ha : a ≤ off) (hc : off + 4 ≤ c) : u4 i off = u4 i' off := by
  unfold u4
  rw [bytes_word h ha hc]

theorem zero_bytes {i i' : Bytes} {off : Nat} (hl : off + 4 ≤ i.length) (hl' : off + 4 ≤ i'.length) (h : u4 i off = 0) (h' : u4 i' off = 0) :
    SameBytes i i' off (off + 4) := by
  obtain ⟨n, hn⟩ := LnkInfo.uAt_exists hl
  obtain ⟨m, hm⟩ := LnkInfo.uAt_exists hl'
  rw [u4_eq hn] at h
  rw [u4_eq hm] at h'
  subst h h'
  exact word_bytes hn hm

/-- A key that is there in one description only. -/
theorem only_one {d : Dict} {es es' : Entries} (h : Fits d es) (h' : Fits d es') {k : String} {e : String × (PyVal → Prop)}
    (hf : es.find? (·.1 = k) = some e) (hf' : es'.find? (·.1 = k) = none) : False := by
  have h1 := fits_get h k
  have h2 := fits_get h' k
  rw [hf] at h1
  rw [hf'] at h2
  obtain ⟨v, hv, -⟩ := h1
  rw [h2] at hv
  cases hv

theorem volume_told {tp : TextProc} {i i' : Bytes} {o : Nat} {d : Dict} (h20 : u4 i (o + 12) = 0x14 → o + 20 ≤ i.length)
    (h20' : u4 i' (o + 12) = 0x14 → o + 20 ≤ i'.length) (h : Fits d (volumeEntries tp i o)) (h' : Fits d (volumeEntries tp i' o)) :
    EqualVolume tp i i' o := by
  have s0 := both_nat h h' "volume_id_size" i i' o (by simp [volumeEntries]) (by simp [volumeEntries])
  have s1 := both_nat h h' "r_drive_type" i i' (o + 4) (by simp [volumeEntries]) (by simp [volumeEntries])
  have s2 := both_hex h h' "drive_serial_number" i i' (o + 8) (by simp [volumeEntries]) (by simp [volumeEntries])
  have s3 := both_nat h h' "volume_label_offset" i i' (o + 12) (by simp [volumeEntries]) (by simp [volumeEntries])
  have hs : SameBytes i i' o (o + 16) := sameBytes_append (sameBytes_append (sameBytes_append s0 s1) s2) s3
  refine ⟨hs, ?_⟩
  have e12 : u4 i (o + 12) = u4 i' (o + 12) := u4_bytes hs (by omega) (by omega)
  split
  · rename_i hk
    have hk' := e12 ▸ hk
    by_cases hz : u4 i (o + 16) = 0 <;> by_cases hz' : u4 i' (o + 16) = 0
    · exact ⟨zero_bytes (h20 hk) (h20' hk') hz hz', fun hn => absurd hz hn⟩
    · exact (only_one h' h (k := "volume_label_unicode_offset") (e := ("volume_label_unicode_offset", NatAt 4 i' (o + 16)))
        (by simp [volumeEntries, hk', hz']) (by simp [volumeEntries, hz])).elim
    · exact (only_one h h' (k := "volume_label_unicode_offset") (e := ("volume_label_unicode_offset", NatAt 4 i (o + 16)))
        (by simp [volumeEntries, hk, hz]) (by simp [volumeEntries, hz'])).elim
    · have s4 := both_nat h h' "volume_label_unicode_offset" i i' (o + 16) (by simp [volumeEntries, hk, hz])
        (by simp [volumeEntries, hk', hz'])
      refine ⟨s4, fun _ => ?_⟩
      have e16 : u4 i (o + 16) = u4 i' (o + 16) := u4_bytes s4 (by omega) (by omega)
      obtain ⟨v, hv, hv'⟩ := both h h' (k := "volume_label_unicode") (P := Wide (i.drop (o + u4 i (o + 16))))
        (P' := Wide (i'.drop (o + u4 i' (o + 16)))) (by simp [volumeEntries, hk, hz]) (by simp [volumeEntries, hk', hz'])
      rw [← e16] at hv'
      exact sameWide_value hv hv'
  · rename_i hk
    have hk' := e12 ▸ hk
    obtain ⟨v, ⟨k, k1, k2⟩, ⟨k', k1', k2'⟩⟩ := both h h' (k := "volume_label") (P := fun v => ∃ k, uAt 4 i (o + 12) = some k ∧
        if k = 0x14 then v = .none else Narrow tp (i.drop (o + k)) v) (P' := fun v => ∃ k, uAt 4 i' (o + 12) = some k ∧
        if k = 0x14 then v = .none else Narrow tp (i'.drop (o + k)) v) (by simp [volumeEntries]) (by simp [volumeEntries])
    have x := u4_eq k1
    have x' := u4_eq k1'
    subst x x'
    rw [← e12] at k2'
    rw [if_neg hk] at k2 k2'
    exact sameNarrow_value k2 k2'

theorem volume_eq {tp : TextProc} {i i' : Bytes} {o : Nat} (h : EqualVolume tp i i' o) : volumeEntries tp i o = volumeEntries tp i' o := by
  obtain ⟨hs, h⟩ := h
  have w : ∀ k, k + 4 ≤ 16 → uAt 4 i (o + k) = uAt 4 i' (o + k) := fun k hk => bytes_word hs (by omega) (by omega)
  have w0 : uAt 4 i o = uAt 4 i' o := w 0 (by omega)
  have e12 : u4 i (o + 12) = u4 i' (o + 12) := u4_bytes hs (by omega) (by omega)
  have hl : (fun v => ∃ k, uAt 4 i (o + 12) = some k ∧ if k = 0x14 then v = .none else Narrow tp (i.drop (o + k)) v) =
      fun v => ∃ k, uAt 4 i' (o + 12) = some k ∧ if k = 0x14 then v = .none else Narrow tp (i'.drop (o + k)) v := by
    funext v
    rw [← w 12 (by omega)]
    refine propext ⟨fun ⟨k, k1, k2⟩ => ⟨k, k1, ?_⟩, fun ⟨k, k1, k2⟩ => ⟨k, k1, ?_⟩⟩
    all_goals
      have hk := u4_eq k1
      subst hk
      split at k2
      · rw [if_pos ‹_›]
        exact k2
      · rw [if_neg ‹_›] at h
        rw [if_neg ‹_›]
        first
          | rw [← narrow_eq h]
            exact k2
          | rw [narrow_eq h]
            exact k2
  unfold volumeEntries
  rw [hl]
  unfold NatAt HexAt
  rw [← w0, ← w 4 (by omega), ← w 8 (by omega), ← w 12 (by omega), ← e12]
  congr 1
  by_cases hk : u4 i (o + 12) = 0x14
  · rw [if_pos hk] at h
    have e16 : u4 i (o + 16) = u4 i' (o + 16) := u4_bytes h.1 (by omega) (by omega)
    rw [← e16, ← bytes_word h.1 (by omega) (by omega)]
    by_cases hz : u4 i (o + 16) = 0
    · rw [if_neg (by simp [hz]), if_neg (by simp [hz])]
    · rw [if_pos ⟨hk, hz⟩, if_pos ⟨hk, hz⟩, wide_eq (h.2 hz)]
  · rw [if_neg (by simp [hk]), if_neg (by simp [hk])]

theorem network_told {tp : TextProc} {i i' : Bytes} {o : Nat} {d : Dict}
    (h28 : 0x14 < u4 i (o + 8) → o + 28 ≤ i.length) (h28' : 0x14 < u4 i' (o + 8) → o + 28 ≤ i'.length) (h : NetworkReport tp i o d) (h' : NetworkReport tp i' o d) :
    EqualNetwork tp i i' o := by
  have word : ∀ {x : Bytes} {es : Entries} {k : String} {P : PyVal → Prop}, (networkNumbers x o).find? (·.1 = k) = some (k, P) →
      (networkNumbers x o ++ es).find? (·.1 = k) = some (k, P) := by
    intro x es k P hf
    rw [List.find?_append, hf]
    rfl
  obtain ⟨es, hes⟩ : ∃ es, Fits d (networkNumbers i o ++ es) := by
    unfold NetworkReport at h
    split at h
    · rw [List.append_assoc] at h
      exact ⟨_, h⟩
    · obtain ⟨_, _, -, -, h⟩ := h
      rw [List.append_assoc] at h
      exact ⟨_, h⟩
  obtain ⟨es', hes'⟩ : ∃ es, Fits d (networkNumbers i' o ++ es) := by
    unfold NetworkReport at h'
    split at h'
    · rw [List.append_assoc] at h'
      exact ⟨_, h'⟩
    · obtain ⟨_, _, -, -, h⟩ := h'
      rw [List.append_assoc] at h
      exact ⟨_, h⟩
  have s0 := both_nat hes hes' "common_network_relative_link_size" i i' o (word (by simp [networkNumbers])) (word (by simp [networkNumbers]))
  have s1 := both_nat hes hes' "common_network_relative_link_flags" i i' (o + 4) (word (by simp [networkNumbers]))
    (word (by simp [networkNumbers]))
  have s2 := both_nat hes hes' "net_name_offset" i i' (o + 8) (word (by simp [networkNumbers])) (word (by simp [networkNumbers]))
  have s3 := both_nat hes hes' "device_name_offset" i i' (o + 12) (word (by simp [networkNumbers])) (word (by simp [networkNumbers]))
  have s4 := both_hex hes hes' "r_network_provider_type" i i' (o + 16) (word (by simp [networkNumbers])) (word (by simp [networkNumbers]))
  have hs : SameBytes i i' o (o + 20) := sameBytes_append (sameBytes_append (sameBytes_append (sameBytes_append s0 s1) s2) s3) s4
  clear hes hes'
  refine ⟨hs, ?_⟩
  have e8 : u4 i (o + 8) = u4 i' (o + 8) := u4_bytes hs (by omega) (by omega)
  have e12 : u4 i (o + 12) = u4 i' (o + 12) := u4_bytes hs (by omega) (by omega)
  unfold NetworkReport at h h'
  rw [← e8, ← e12] at h'
  have none' : ∀ (x : Bytes) {k : String}, k ∈ ["net_name_offset_unicode", "device_name_offset_unicode"] →
      (networkNumbers x o).find? (·.1 = k) = none := by
    intro x k hk
    unfold networkNumbers
    simp only [List.mem_cons, List.not_mem_nil, or_false] at hk
    split <;> rcases hk with rfl | rfl <;> simp
  split
  · rename_i hk
    have hk' := e8 ▸ hk
    rw [if_pos hk] at h h'
    have sb : ∀ {a : Nat}, a + 4 ≤ 28 → (u4 i (o + a) = 0 → u4 i' (o + a) = 0 → SameBytes i i' (o + a) (o + a + 4)) := fun ha =>
      zero_bytes (by have := h28 hk; omega) (by have := h28' hk'; omega)
    have n1 : SameBytes i i' (o + 20) (o + 24) ∧ (u4 i (o + 20) ≠ 0 → SameWide i i' (o + u4 i (o + 20))) := by
      by_cases hz : u4 i (o + 20) = 0 <;> by_cases hz' : u4 i' (o + 20) = 0
      · exact ⟨sb (by omega) hz hz', fun hn => absurd hz hn⟩
      · refine (only_one h' h (k := "net_name_offset_unicode") (e := ("net_name_offset_unicode", NatAt 4 i' (o + 20))) ?_ ?_).elim
        · rw [List.find?_append, List.find?_append, none' _ (by simp), if_neg hz']
          simp
        · rw [List.find?_append, List.find?_append, none' _ (by simp), if_pos hz]
          split <;> simp
      · refine (only_one h h' (k := "net_name_offset_unicode") (e := ("net_name_offset_unicode", NatAt 4 i (o + 20))) ?_ ?_).elim
        · rw [List.find?_append, List.find?_append, none' _ (by simp), if_neg hz]
          simp
        · rw [List.find?_append, List.find?_append, none' _ (by simp), if_pos hz']
          split <;> simp
      · have s := both_nat h h' "net_name_offset_unicode" i i' (o + 20)
          (by rw [List.find?_append, List.find?_append, none' _ (by simp), if_neg hz]; simp)
          (by rw [List.find?_append, List.find?_append, none' _ (by simp), if_neg hz']; simp)
        refine ⟨s, fun _ => ?_⟩
        have e : u4 i (o + 20) = u4 i' (o + 20) := u4_bytes s (by omega) (by omega)
        obtain ⟨v, hv, hv'⟩ := both h h' (k := "net_name_unicode") (P := Wide (i.drop (o + u4 i (o + 20))))
          (P' := Wide (i'.drop (o + u4 i' (o + 20))))
          (by rw [List.find?_append, List.find?_append, numbers_none _ _ (by simp), if_neg hz]; simp)
          (by rw [List.find?_append, List.find?_append, numbers_none _ _ (by simp), if_neg hz']; simp)
        rw [← e] at hv'
        exact sameWide_value hv hv'
    have n2 : SameBytes i i' (o + 24) (o + 28) ∧ (u4 i (o + 24) ≠ 0 → SameWide i i' (o + u4 i (o + 24))) := by
      by_cases hz : u4 i (o + 24) = 0 <;> by_cases hz' : u4 i' (o + 24) = 0
      · exact ⟨sb (by omega) hz hz', fun hn => absurd hz hn⟩
      · refine (only_one h' h (k := "device_name_offset_unicode") (e := ("device_name_offset_unicode", NatAt 4 i' (o + 24))) ?_ ?_).elim
        · rw [List.find?_append, List.find?_append, none' _ (by simp), if_neg hz']
          split <;> simp
        · rw [List.find?_append, List.find?_append, none' _ (by simp), if_pos hz]
          split <;> simp
      · refine (only_one h h' (k := "device_name_offset_unicode") (e := ("device_name_offset_unicode", NatAt 4 i (o + 24))) ?_ ?_).elim
        · rw [List.find?_append, List.find?_append, none' _ (by simp), if_neg hz]
          split <;> simp
        · rw [List.find?_append, List.find?_append, none' _ (by simp), if_pos hz']
          split <;> simp
      · have s := both_nat h h' "device_name_offset_unicode" i i' (o + 24)
          (by rw [List.find?_append, List.find?_append, none' _ (by simp), if_neg hz]; split <;> simp)
          (by rw [List.find?_append, List.find?_append, none' _ (by simp), if_neg hz']; split <;> simp)
        refine ⟨s, fun _ => ?_⟩
        have e : u4 i (o + 24) = u4 i' (o + 24) := u4_bytes s (by omega) (by omega)
        obtain ⟨v, hv, hv'⟩ := both h h' (k := "device_name_unicode") (P := Wide (i.drop (o + u4 i (o + 24))))
          (P' := Wide (i'.drop (o + u4 i' (o + 24))))
          (by rw [List.find?_append, List.find?_append, numbers_none _ _ (by simp), if_neg hz]; split <;> simp)
          (by rw [List.find?_append, List.find?_append, numbers_none _ _ (by simp), if_neg hz']; split <;> simp)
        rw [← e] at hv'
        exact sameWide_value hv hv'
    exact ⟨sameBytes_append n1.1 n2.1, n1.2, n2.2⟩
  · rename_i hk
    rw [if_neg hk] at h h'
    obtain ⟨name, device, h1, h2, h3⟩ := h
    obtain ⟨name', device', h1', h2', h3'⟩ := h'
    have get : ∀ {x : Bytes} {n v : Str}, Fits d (networkNumbers x o ++ (if n = [] then [] else [("net_name", fun w => w = PyVal.str n)]) ++
        if v = [] then [] else [("device_name", fun w => w = PyVal.str v)]) →
        Dict.get? d "net_name" = (if n = [] then none else some (.str n)) ∧
        Dict.get? d "device_name" = (if v = [] then none else some (.str v)) := by
      intro x n v h3
      constructor
      · have := fits_get h3 "net_name"
        rw [List.find?_append, List.find?_append, numbers_none _ _ (by simp)] at this
        by_cases hn : n = [] <;> by_cases hn' : v = [] <;> simpa [hn, hn'] using this
      · have := fits_get h3 "device_name"
        rw [List.find?_append, List.find?_append, numbers_none _ _ (by simp)] at this
        by_cases hn : n = [] <;> by_cases hn' : v = [] <;> simpa [hn, hn'] using this
    have same : ∀ {a b : Str}, (if a = [] then none else some (PyVal.str a)) = (if b = [] then none else some (PyVal.str b)) → a = b := by
      intro a b hab
      by_cases ha : a = [] <;> by_cases hb : b = [] <;> simp_all
    obtain ⟨g1, g2⟩ := get h3
    obtain ⟨g1', g2'⟩ := get h3'
    obtain rfl := same (g1.symm.trans g1')
    obtain rfl := same (g2.symm.trans g2')
    exact ⟨sameNarrow_value (v := .str name) ⟨_, h1, rfl⟩ ⟨_, h1', rfl⟩, sameNarrow_value (v := .str device) ⟨_, h2, rfl⟩ ⟨_, h2', rfl⟩⟩

theorem network_eq {tp : TextProc} {i i' : Bytes} {o : Nat} (h : EqualNetwork tp i i' o) : NetworkReport tp i o = NetworkReport tp i' o := by
  obtain ⟨hs, h⟩ := h
  have w : ∀ k, k + 4 ≤ 20 → uAt 4 i (o + k) = uAt 4 i' (o + k) := fun k hk => bytes_word hs (by omega) (by omega)
  have w0 : uAt 4 i o = uAt 4 i' o := w 0 (by omega)
  have u : ∀ k, k + 4 ≤ 20 → u4 i (o + k) = u4 i' (o + k) := fun k hk => u4_bytes hs (by omega) (by omega)
  have hn : networkNumbers i o = networkNumbers i' o := by
    unfold networkNumbers NatAt HexAt
    rw [w0, w 4 (by omega), w 8 (by omega), w 12 (by omega), w 16 (by omega), u 4 (by omega), u 16 (by omega)]
  funext d
  unfold NetworkReport
  rw [hn, ← u 8 (by omega), ← u 12 (by omega)]
  split
  · rename_i hk
    rw [if_pos hk] at h
    obtain ⟨hb, h1, h2⟩ := h
    have e20 : u4 i (o + 20) = u4 i' (o + 20) := u4_bytes hb (by omega) (by omega)
    have e24 : u4 i (o + 24) = u4 i' (o + 24) := u4_bytes hb (by omega) (by omega)
    unfold NatAt
    rw [← e20, ← e24, ← bytes_word (off := o + 20) hb (by omega) (by omega), ← bytes_word (off := o + 24) hb (by omega) (by omega)]
    by_cases hz : u4 i (o + 20) = 0 <;> by_cases hz' : u4 i (o + 24) = 0
    · rw [if_pos hz, if_pos hz', if_pos hz, if_pos hz']
    · rw [if_pos hz, if_neg hz', if_pos hz, if_neg hz', wide_eq (h2 hz')]
    · rw [if_neg hz, if_pos hz', if_neg hz, if_pos hz', wide_eq (h1 hz)]
    · rw [if_neg hz, if_neg hz', if_neg hz, if_neg hz', wide_eq (h1 hz), wide_eq (h2 hz')]
  · rename_i hk
    rw [if_neg hk] at h
    simp only [h.1 _, h.2 _]

theorem info_same {tp : TextProc} {kind : String} {i i' : Bytes} {d : Dict} (hr : InfoReadable kind i) (hr' : InfoReadable kind i')
    (h : Fits d (infoEntries tp i kind)) (h' : Fits d (infoEntries tp i' kind)) : EqualInfo tp kind i i' := by
  have word : ∀ {x : Bytes} {off : Nat}, off + 4 ≤ x.length → uAt 4 x off = some (u4 x off) := by
    intro x off hx
    obtain ⟨n, hn⟩ := LnkInfo.uAt_exists hx
    rw [u4_eq hn, hn]
  have s0 := both_nat h h' "link_info_size" i i' 0 (by simp [infoEntries]) (by simp [infoEntries])
  have s1 := both_nat h h' "link_info_header_size" i i' 4 (by simp [infoEntries]) (by simp [infoEntries])
  have s2 := both_nat h h' "link_info_flags" i i' 8 (by simp [infoEntries]) (by simp [infoEntries])
  have s3 := both_nat h h' "volume_id_offset" i i' 12 (by simp [infoEntries]) (by simp [infoEntries])
  have s4 := both_nat h h' "local_base_path_offset" i i' 16 (by simp [infoEntries]) (by simp [infoEntries])
  have s5 := both_nat h h' "common_network_relative_link_offset" i i' 20 (by simp [infoEntries]) (by simp [infoEntries])
  have s6 := both_nat h h' "common_path_suffix_offset" i i' 24 (by simp [infoEntries]) (by simp [infoEntries])
  have hs : SameBytes i i' 0 28 := sameBytes_append (sameBytes_append (sameBytes_append (sameBytes_append (sameBytes_append
    (sameBytes_append s0 s1) s2) s3) s4) s5) s6
  have u : ∀ k, k + 4 ≤ 28 → u4 i k = u4 i' k := fun k hk => u4_bytes hs (by omega) (by omega)
  have find : ∀ {x : Bytes} {k : String} {P : PyVal → Prop},
      ((if u4 x 16 = 0 then [] else [("local_base_path", Narrow tp (x.drop (u4 x 16)))]) ++
        (if u4 x 24 = 0 then [] else [("common_path_suffix", Narrow tp (x.drop (u4 x 24)))]) ++
        (if u4 x 4 < 0x24 ∨ u4 x 28 = 0 then [] else
          [("local_base_path_offset_unicode", NatAt 4 x 28), ("local_base_path_unicode", Wide (x.drop (u4 x 28)))]) ++
        (if u4 x 4 < 0x24 ∨ u4 x 32 = 0 then [] else
          [("common_path_suffix_offset_unicode", NatAt 4 x 32), ("common_path_suffix_unicode", Wide (x.drop (u4 x 32 + 4)))]) ++
        [("location_info", fun v => ∃ d, v = PyVal.dict d ∧
          if kind = "Local" then Fits d (volumeEntries tp x (u4 x 12)) else NetworkReport tp x (u4 x 20) d), ("location", Is kind)]).find?
        (·.1 = k) = some (k, P) → k ∈ ["local_base_path", "common_path_suffix", "local_base_path_offset_unicode", "local_base_path_unicode",
          "common_path_suffix_offset_unicode", "common_path_suffix_unicode", "location_info"] →
      (infoEntries tp x kind).find? (·.1 = k) = some (k, P) := by
    intro x k P hf hk
    unfold infoEntries
    simp only [List.append_assoc] at hf ⊢
    rw [List.find?_append, hf]
    simp only [List.mem_cons, List.not_mem_nil, or_false] at hk
    rcases hk with rfl | rfl | rfl | rfl | rfl | rfl | rfl <;> simp
  have gone : ∀ {x : Bytes} {k : String}, (k = "local_base_path_offset_unicode" ∧ u4 x 28 = 0 ∨
      k = "common_path_suffix_offset_unicode" ∧ u4 x 32 = 0) → (infoEntries tp x kind).find? (·.1 = k) = none := by
    intro x k hk
    unfold infoEntries
    rcases hk with ⟨rfl, hz⟩ | ⟨rfl, hz⟩ <;> by_cases h1 : u4 x 16 = 0 <;> by_cases h2 : u4 x 24 = 0 <;>
      by_cases h3 : u4 x 4 < 0x24 ∨ u4 x 28 = 0 <;> by_cases h4 : u4 x 4 < 0x24 ∨ u4 x 32 = 0 <;> simp [h1, h2, h3, h4, hz]
  refine ⟨hs, fun hz => ?_, fun hz => ?_, fun hz => ?_, ?_⟩
  · have hz' := u 16 (by omega) ▸ hz
    obtain ⟨v, hv, hv'⟩ := both h h' (k := "local_base_path") (P := Narrow tp (i.drop (u4 i 16))) (P' := Narrow tp (i'.drop (u4 i' 16)))
      (find (by rw [if_neg hz]; simp) (by simp)) (find (by rw [if_neg hz']; simp) (by simp))
    rw [← u 16 (by omega)] at hv'
    exact sameNarrow_value hv hv'
  · have hz' := u 24 (by omega) ▸ hz
    obtain ⟨v, hv, hv'⟩ := both h h' (k := "common_path_suffix") (P := Narrow tp (i.drop (u4 i 24))) (P' := Narrow tp (i'.drop (u4 i' 24)))
      (find (by rw [if_neg hz]; split <;> simp) (by simp)) (find (by rw [if_neg hz']; split <;> simp) (by simp))
    rw [← u 24 (by omega)] at hv'
    exact sameNarrow_value hv hv'
  · have hz' := u 4 (by omega) ▸ hz
    have l1 := hr.2.1 _ (word (by have := hr.1; omega)) hz
    have l2 := hr'.2.1 _ (word (by have := hr'.1; omega)) hz'
    have hn : ¬ u4 i 4 < 0x24 := by omega
    have hn' : ¬ u4 i' 4 < 0x24 := by omega
    have n1 : SameBytes i i' 28 32 ∧ (u4 i 28 ≠ 0 → SameWide i i' (u4 i 28)) := by
      by_cases h0 : u4 i 28 = 0 <;> by_cases h0' : u4 i' 28 = 0
      · exact ⟨zero_bytes (by omega) (by omega) h0 h0', fun h => absurd h0 h⟩
      · refine (only_one h' h (k := "local_base_path_offset_unicode") (e := ("local_base_path_offset_unicode", NatAt 4 i' 28))
          (find ?_ (by simp)) (gone (.inl ⟨rfl, h0⟩))).elim
        by_cases x1 : u4 i' 16 = 0 <;> by_cases x2 : u4 i' 24 = 0 <;> simp [x1, x2, h0', hn']
      · refine (only_one h h' (k := "local_base_path_offset_unicode") (e := ("local_base_path_offset_unicode", NatAt 4 i 28))
          (find ?_ (by simp)) (gone (.inl ⟨rfl, h0'⟩))).elim
        by_cases x1 : u4 i 16 = 0 <;> by_cases x2 : u4 i 24 = 0 <;> simp [x1, x2, h0, hn]
      · have s := both_nat h h' "local_base_path_offset_unicode" i i' 28
          (find (by by_cases x1 : u4 i 16 = 0 <;> by_cases x2 : u4 i 24 = 0 <;> simp [x1, x2, h0, hn]) (by simp))
          (find (by by_cases x1 : u4 i' 16 = 0 <;> by_cases x2 : u4 i' 24 = 0 <;> simp [x1, x2, h0', hn']) (by simp))
        refine ⟨s, fun _ => ?_⟩
        have e : u4 i 28 = u4 i' 28 := u4_bytes s (by omega) (by omega)
        obtain ⟨v, hv, hv'⟩ := both h h' (k := "local_base_path_unicode") (P := Wide (i.drop (u4 i 28))) (P' := Wide (i'.drop (u4 i' 28)))
          (find (by by_cases x1 : u4 i 16 = 0 <;> by_cases x2 : u4 i 24 = 0 <;> simp [x1, x2, h0, hn]) (by simp))
          (find (by by_cases x1 : u4 i' 16 = 0 <;> by_cases x2 : u4 i' 24 = 0 <;> simp [x1, x2, h0', hn']) (by simp))
        rw [← e] at hv'
        exact sameWide_value hv hv'
    have n2 : SameBytes i i' 32 36 ∧ (u4 i 32 ≠ 0 → SameWide i i' (u4 i 32 + 4)) := by
      by_cases h0 : u4 i 32 = 0 <;> by_cases h0' : u4 i' 32 = 0
      · exact ⟨zero_bytes (by omega) (by omega) h0 h0', fun h => absurd h0 h⟩
      · refine (only_one h' h (k := "common_path_suffix_offset_unicode") (e := ("common_path_suffix_offset_unicode", NatAt 4 i' 32))
          (find ?_ (by simp)) (gone (.inr ⟨rfl, h0⟩))).elim
        by_cases x1 : u4 i' 16 = 0 <;> by_cases x2 : u4 i' 24 = 0 <;> by_cases x3 : u4 i' 28 = 0 <;> simp [x1, x2, x3, h0', hn']
      · refine (only_one h h' (k := "common_path_suffix_offset_unicode") (e := ("common_path_suffix_offset_unicode", NatAt 4 i 32))
          (find ?_ (by simp)) (gone (.inr ⟨rfl, h0'⟩))).elim
        by_cases x1 : u4 i 16 = 0 <;> by_cases x2 : u4 i 24 = 0 <;> by_cases x3 : u4 i 28 = 0 <;> simp [x1, x2, x3, h0, hn]
      · have s := both_nat h h' "common_path_suffix_offset_unicode" i i' 32
          (find (by by_cases x1 : u4 i 16 = 0 <;> by_cases x2 : u4 i 24 = 0 <;> by_cases x3 : u4 i 28 = 0 <;> simp [x1, x2, x3, h0, hn])
            (by simp))
          (find (by by_cases x1 : u4 i' 16 = 0 <;> by_cases x2 : u4 i' 24 = 0 <;> by_cases x3 : u4 i' 28 = 0 <;> simp [x1, x2, x3, h0', hn'])
            (by simp))
        refine ⟨s, fun _ => ?_⟩
        have e : u4 i 32 = u4 i' 32 := u4_bytes s (by omega) (by omega)
        obtain ⟨v, hv, hv'⟩ := both h h' (k := "common_path_suffix_unicode") (P := Wide (i.drop (u4 i 32 + 4)))
          (P' := Wide (i'.drop (u4 i' 32 + 4)))
          (find (by by_cases x1 : u4 i 16 = 0 <;> by_cases x2 : u4 i 24 = 0 <;> by_cases x3 : u4 i 28 = 0 <;> simp [x1, x2, x3, h0, hn])
            (by simp))
          (find (by by_cases x1 : u4 i' 16 = 0 <;> by_cases x2 : u4 i' 24 = 0 <;> by_cases x3 : u4 i' 28 = 0 <;> simp [x1, x2, x3, h0', hn'])
            (by simp))
        rw [← e] at hv'
        exact sameWide_value hv hv'
    exact ⟨sameBytes_append n1.1 n2.1, n1.2, n2.2⟩
  · have loc : ∀ x : Bytes, (infoEntries tp x kind).find? (·.1 = "location_info") = some ("location_info", fun v => ∃ d, v = .dict d ∧
        if kind = "Local" then Fits d (volumeEntries tp x (u4 x 12)) else NetworkReport tp x (u4 x 20) d) := by
      intro x
      refine find ?_ (by simp)
      by_cases x1 : u4 x 16 = 0 <;> by_cases x2 : u4 x 24 = 0 <;> by_cases x3 : u4 x 4 < 0x24 ∨ u4 x 28 = 0 <;>
        by_cases x4 : u4 x 4 < 0x24 ∨ u4 x 32 = 0 <;> simp [x1, x2, x3, x4]
    obtain ⟨v, ⟨c, rfl, hv⟩, ⟨c', e, hv'⟩⟩ := both h h' (loc i) (loc i')
    cases e
    have q := hr.2.2
    have q' := hr'.2.2
    rw [← u 12 (by omega), ← u 20 (by omega)] at hv'
    by_cases hk : kind = "Local"
    · rw [if_pos hk] at hv hv' q q' ⊢
      obtain ⟨a, a2⟩ := q _ (word (by have := hr.1; omega))
      obtain ⟨a', a2'⟩ := q' _ (word (by have := hr'.1; omega))
      rw [← u 12 (by omega)] at a' a2'
      exact volume_told (fun e => a2 (by rw [word (by omega), e])) (fun e => a2' (by rw [word (by omega), e])) hv hv'
    · rw [if_neg hk] at hv hv' q q' ⊢
      obtain ⟨a, a2⟩ := q _ (word (by have := hr.1; omega))
      obtain ⟨a', a2'⟩ := q' _ (word (by have := hr'.1; omega))
      rw [← u 20 (by omega)] at a' a2'
      exact network_told (fun e => a2 _ (word (by omega)) e) (fun e => a2' _ (word (by omega)) e) hv hv'

theorem info_eq {tp : TextProc} {kind : String} {i i' : Bytes} (h : EqualInfo tp kind i i') : infoEntries tp i kind = infoEntries tp i' kind := by
  obtain ⟨hs, h1, h2, h3, h4⟩ := h
  have w : ∀ k, k + 4 ≤ 28 → uAt 4 i k = uAt 4 i' k := fun k hk => bytes_word hs (by omega) (by omega)
  have u : ∀ k, k + 4 ≤ 28 → u4 i k = u4 i' k := fun k hk => u4_bytes hs (by omega) (by omega)
  unfold infoEntries
  congr 1
  · congr 1
    · congr 1
      · congr 1
        · congr 1
          · unfold NatAt
            rw [w 0 (by omega), w 4 (by omega), w 8 (by omega), w 12 (by omega), w 16 (by omega), w 20 (by omega), w 24 (by omega)]
          · rw [← u 16 (by omega)]
            by_cases hz : u4 i 16 = 0
            · rw [if_pos hz, if_pos hz]
            · rw [if_neg hz, if_neg hz, narrow_eq (h1 hz)]
        · rw [← u 24 (by omega)]
          by_cases hz : u4 i 24 = 0
          · rw [if_pos hz, if_pos hz]
          · rw [if_neg hz, if_neg hz, narrow_eq (h2 hz)]
      · rw [← u 4 (by omega)]
        by_cases hk : u4 i 4 < 0x24
        · rw [if_pos (.inl hk), if_pos (.inl hk)]
        · obtain ⟨b, c, -⟩ := h3 (by omega)
          have e : u4 i 28 = u4 i' 28 := u4_bytes b (by omega) (by omega)
          unfold NatAt
          rw [← e, bytes_word (off := 28) b (by omega) (by omega)]
          by_cases hz : u4 i 28 = 0
          · rw [if_pos (.inr hz), if_pos (.inr hz)]
          · rw [if_neg (by omega), if_neg (by omega), wide_eq (c hz)]
    · rw [← u 4 (by omega)]
      by_cases hk : u4 i 4 < 0x24
      · rw [if_pos (.inl hk), if_pos (.inl hk)]
      · obtain ⟨b, -, c⟩ := h3 (by omega)
        have e : u4 i 32 = u4 i' 32 := u4_bytes b (by omega) (by omega)
        unfold NatAt
        rw [← e, bytes_word (off := 32) b (by omega) (by omega)]
        by_cases hz : u4 i 32 = 0
        · rw [if_pos (.inr hz), if_pos (.inr hz)]
        · rw [if_neg (by omega), if_neg (by omega), wide_eq (c hz)]
  · rw [← u 12 (by omega), ← u 20 (by omega)]
    by_cases hk : kind = "Local"
    · simp only [if_pos hk] at h4 ⊢
      rw [volume_eq h4]
    · simp only [if_neg hk] at h4 ⊢
      rw [network_eq h4]

end InfoTold

open InfoTold Ends in
/-- C105: the reports of two files say the same about the link info exactly if neither has link info, or both have link info of the same
kind with the same numbers and the same texts. -/
theorem info_told (env : Env) (cp : Option String) (hcp : UsableCodePage (TextProc.mk' env cp)) (allow allow' : Bool) (src src' : Source)
    (f f' : LnkFile) (hf : (LnkFile.init env cp allow src).res = .ok f) (hf' : (LnkFile.init env cp allow' src').res = .ok f') (j j' : Dict)
    (hj : (f.getJson true).res = .ok j) (hj' : (f'.getJson true).res = .ok j') :
    ∃ L L', layout src.bytes = some L ∧ layout src'.bytes = some L' ∧
      (Dict.get? j "link_info" = Dict.get? j' "link_info" ↔ EqualInfoAt (TextProc.mk' env cp) src.bytes src'.bytes L L') := by
  have key : ∀ (allow : Bool) (src : Source) (f : LnkFile) (j : Dict), (LnkFile.init env cp allow src).res = .ok f →
      (f.getJson true).res = .ok j → ∃ L, layout src.bytes = some L ∧
        (∀ kind, infoKind src.bytes L = some kind → InfoReadable kind (src.bytes.drop L.infoAt)) ∧
        ∃ d, Dict.get? j "link_info" = some (.dict d) ∧ Fits d (match infoKind src.bytes L with
          | none => []
          | some kind => infoEntries (TextProc.mk' env cp) (src.bytes.drop L.infoAt) kind) := by
    intro allow src f j hf hj
    obtain ⟨L, l, last, hL, hc, hv⟩ := report_values env cp hcp allow src f hf
    obtain ⟨L1, l1, last1, hL1, hc1, hr⟩ := report_returns env cp hcp allow src f hf
    rw [hL] at hL1
    cases hL1
    obtain ⟨-, -, hr, -⟩ := (hr true).1 ⟨j, hj⟩
    refine ⟨L, hL, fun kind hk => ?_, ?_⟩
    · unfold infoKind at hk
      split at hk
      · exact hr ‹_› kind hk
      · cases hk
    · obtain ⟨v, h1, d, rfl, h2⟩ := value_at (k := "link_info") (P := fun v => ∃ d, v = .dict d ∧ Fits d
          (match infoKind src.bytes L with
          | none => []
          | some kind => infoEntries (TextProc.mk' env cp) (src.bytes.drop L.infoAt) kind)) (hv j hj) (by
        unfold reportEntries infoKind
        cases L.flags.testBit 0 <;> simp <;> rfl)
      exact ⟨d, h1, h2⟩
  obtain ⟨L, hL, hr, d, hd, hfit⟩ := key allow src f j hf hj
  obtain ⟨L', hL', hr', d', hd', hfit'⟩ := key allow' src' f' j' hf' hj'
  refine ⟨L, L', hL, hL', ?_⟩
  rw [hd, hd']
  simp only [Option.some.injEq, PyVal.dict.injEq]
  unfold EqualInfoAt
  rcases hk : infoKind src.bytes L with _ | kind <;> rcases hk' : infoKind src'.bytes L' with _ | kind' <;> rw [hk] at hfit <;> rw [hk'] at hfit' <;>
    dsimp only at hfit hfit'
  · refine ⟨fun _ => ⟨rfl, fun _ h => (by cases h)⟩, fun _ => ?_⟩
    exact fits_sole soles_nil hfit hfit'
  · refine ⟨fun e => ?_, fun h => (by cases h.1)⟩
    subst e
    exact (only_one hfit' hfit (k := "link_info_size") (e := ("link_info_size", NatAt 4 (src'.bytes.drop L'.infoAt) 0)) (by simp [infoEntries]) rfl).elim
  · refine ⟨fun e => ?_, fun h => (by cases h.1)⟩
    subst e
    exact (only_one hfit hfit' (k := "link_info_size") (e := ("link_info_size", NatAt 4 (src.bytes.drop L.infoAt) 0)) (by simp [infoEntries]) rfl).elim
  · constructor
    · rintro rfl
      have hkk : kind = kind' := by
        have loc : ∀ (x : Bytes) (kind : String), (infoEntries (TextProc.mk' env cp) x kind).find? (·.1 = "location") = some ("location", Is kind) := by
          intro x kind
          unfold infoEntries
          by_cases x1 : u4 x 16 = 0 <;> by_cases x2 : u4 x 24 = 0 <;> by_cases x3 : u4 x 4 < 0x24 ∨ u4 x 28 = 0 <;>
            by_cases x4 : u4 x 4 < 0x24 ∨ u4 x 32 = 0 <;> simp [x1, x2, x3, x4]
        obtain ⟨v, h1, h2⟩ := both hfit hfit' (loc _ _) (loc _ _)
        unfold Is at h1 h2
        rw [h1] at h2
        exact String.toList_inj.1 (PyVal.str.inj h2)
      subst hkk
      refine ⟨rfl, fun _ h => ?_⟩
      cases h
      exact info_same (hr _ hk) (hr' _ hk') hfit hfit'
    · rintro ⟨e, h⟩
      cases e
      have := info_eq (h _ rfl)
      rw [← this] at hfit'
      exact fits_sole (soles_info _ _ _) hfit hfit'

/-- `sharedText` with another name, or with another serial number of the volume. -/
def otherName (serial : Nat) (name : Bytes) : Bytes :=
  le 4 76 ++ shellLinkCLSID.encode ++ le 4 6 ++ List.replicate 52 0 ++
    (le 4 48 ++ le 4 28 ++ le 4 1 ++ le 4 28 ++ le 4 44 ++ le 4 0 ++ le 4 0 ++ le 4 20 ++ le 4 3 ++ le 4 serial ++ le 4 16 ++ [67, 58, 92, 0]) ++
    (le 2 name.length ++ name) ++ (le 4 9 ++ le 4 0xA0000042 ++ [5]) ++ le 4 0

example : otherName 7 [72, 105] = sharedText := rfl

/-- Another name of the same length: the same is said about the link info. -/
example (tp : TextProc) : EqualInfoAt tp sharedText (otherName 7 [72, 111]) ⟨76, 6, 76, 124, 128⟩ ⟨76, 6, 76, 124, 128⟩ := by
  have hk : infoKind sharedText ⟨76, 6, 76, 124, 128⟩ = some "Local" := by decide +kernel
  have hk' : infoKind (otherName 7 [72, 111]) ⟨76, 6, 76, 124, 128⟩ = some "Local" := by decide +kernel
  have take : (sharedText.drop 76).take 48 = ((otherName 7 [72, 111]).drop 76).take 48 := by decide +kernel
  have bytes : ∀ a c, c ≤ 48 → SameBytes (sharedText.drop 76) ((otherName 7 [72, 111]).drop 76) a c := by
    intro a c hc k _ h
    rw [← List.getElem?_take_of_lt (show k < 48 by omega), take, List.getElem?_take_of_lt (by omega)]
  have text : SameNarrow tp (sharedText.drop 76) ((otherName 7 [72, 111]).drop 76) 44 := by
    have e : ((sharedText.drop 76).drop 44).takeWhile (fun x => decide (x ≠ 0)) =
        (((otherName 7 [72, 111]).drop 76).drop 44).takeWhile (fun x => decide (x ≠ 0)) := by decide +kernel
    intro s
    unfold NarrowText
    rw [e]
  refine ⟨hk.trans hk'.symm, fun kind h => ?_⟩
  rw [hk] at h
  cases h
  have u16 : u4 (sharedText.drop 76) 16 = 44 := by decide +kernel
  have u40 : u4 (sharedText.drop 76) (28 + 12) = 16 := by decide +kernel
  have u12 : u4 (sharedText.drop 76) 12 = 28 := by decide +kernel
  refine ⟨bytes _ _ (by omega), fun _ => ?_, fun h => absurd ?_ h, fun h => absurd h ?_, ?_⟩
  · rw [u16]
    exact text
  · decide +kernel
  · decide +kernel
  · rw [if_pos rfl, u12]
    refine ⟨bytes _ _ (by omega), ?_⟩
    rw [if_neg (by rw [u40]; omega), u40]
    exact text

/-- Another serial number: something else is said. -/
example (tp : TextProc) : ¬ EqualInfoAt tp sharedText (otherName 8 [72, 105]) ⟨76, 6, 76, 124, 128⟩ ⟨76, 6, 76, 124, 128⟩ := by
  intro h
  have hk : infoKind sharedText ⟨76, 6, 76, 124, 128⟩ = some "Local" := by decide +kernel
  have := (h.2 _ hk).2.2.2.2
  rw [if_pos rfl, show u4 (sharedText.drop 76) 12 = 28 by decide +kernel] at this
  have := this.1 36 (by omega) (by omega)
  revert this
  decide +kernel

end Verif.Props
