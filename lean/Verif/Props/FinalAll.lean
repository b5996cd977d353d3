import Verif.Spec.Discerning
import Verif.Props.Final
import Verif.Props.Values
import Verif.Props.Warnings
import Verif.Props.Outcome
import Verif.Props.OtherCodePage
import Verif.Lemmas.ValuesUnique

/-
C104: whether anything of a file changes with the bytes that follow it, for files with link info too.
-/

namespace Verif.Props

open Spec Py Log Trailer Verif.Values

namespace Ends

/-! ### texts that go on -/

/-- Two bytes more are one character more. -/
theorem lenient_snoc {y : Bytes} {s : Str} (h : Utf16Lenient y s) (hy : y.length % 2 = 0) {c : Char} (hc : c.toNat < 0x80) :
    Utf16Lenient (y ++ le 2 c.toNat) (s ++ [c]) := by
  have h1 : Utf16Lenient (le 2 c.toNat) [c] := by
    have := Utf16Lenient.char c .nil
    rwa [utf16Char, if_pos (by omega), List.append_nil] at this
  have l2 : ∀ n, (le 2 n).length = 2 := fun n => by simp [le2_pair]
  induction h with
  | nil => exact h1
  | char d hb ih =>
    rw [List.append_assoc]
    refine .char d (ih ?_)
    rw [List.length_append] at hy
    unfold utf16Char at hy
    split at hy
    · rw [l2] at hy; omega
    · rw [List.length_append, l2, l2] at hy; omega
  | odd x => simp at hy
  | low u hu hb ih =>
    rw [List.append_assoc]
    refine .low u hu (ih ?_)
    rw [List.length_append, l2] at hy; omega
  | @highEnd u b hu hb =>
    rw [List.length_append, l2] at hy
    have : b = [] := List.eq_nil_of_length_eq_zero (by omega)
    subst this
    have hn : (UInt16.ofNat c.toNat).toNat = c.toNat := by simp; omega
    have := Utf16Lenient.high (b := []) (s := [c]) u (UInt16.ofNat c.toNat) hu (by unfold LowUnit; omega) (by rw [hn, List.append_nil]; exact h1)
    rw [hn, List.append_nil] at this
    rw [List.append_nil]
    exact this
  | high u v hu hv hb ih =>
    rw [List.append_assoc, List.append_assoc]
    refine .high u v hu hv ?_
    rw [← List.append_assoc]
    refine ih ?_
    rw [List.length_append, l2] at hy; omega

/-- The same text cannot be there whatever follows, unless there is a zero. -/
theorem wide_pinned {i : Bytes} {off : Nat} {v : PyVal} (h : ∀ t, Wide ((i ++ t).drop off) v) : WideEnds i off := by
  obtain ⟨us, hus, ⟨tail, ht, e⟩ | ⟨rest, e⟩⟩ := unit_cases (i.drop off)
  · exfalso
    obtain ⟨pad, vs, hvs, hp⟩ : ∃ (pad : Bytes) (vs : List UInt16), 0 ∉ vs ∧ i.drop off ++ pad = units vs := by
      match tail, ht with
      | [], _ => exact ⟨[], us, hus, by rw [e]; simp⟩
      | [x], _ =>
        obtain ⟨u, hu⟩ := le2_surj (b := [x, 1]) rfl
        refine ⟨[1], us ++ [u], ?_, ?_⟩
        · rw [List.mem_append, not_or]
          refine ⟨hus, fun h0 => ?_⟩
          obtain rfl := List.mem_singleton.1 h0
          have := congrArg (fun l : Bytes => l[1]?) hu
          simp [le2_pair] at this
        · rw [e, units_append, List.append_assoc]
          congr 1
          simp [units, hu]
    obtain ⟨s0, hs0, -⟩ := wide_lenient_unique (units vs)
    have hev : (units vs).length % 2 = 0 := by
      clear hp hvs hs0
      induction vs with
      | nil => rfl
      | cons u vs ih => simp only [units, List.flatMap_cons, List.length_append, le2_pair] at ih ⊢; simp
    have key : ∀ c : Char, c.toNat < 0x80 → c.toNat ≠ 0 → v = .str (s0 ++ [c]) := by
      intro c hc hc0
      obtain ⟨s, hs, rfl⟩ := h (List.replicate (off - i.length) 0 ++ pad ++ le 2 c.toNat)
      have hn : (UInt16.ofNat c.toNat).toNat = c.toNat := by simp; omega
      have hd : (i ++ (List.replicate (off - i.length) 0 ++ pad ++ le 2 c.toNat)).drop off = units (vs ++ [UInt16.ofNat c.toNat]) := by
        rw [List.drop_append, List.append_assoc, List.drop_append]
        simp only [List.length_replicate, Nat.sub_self, List.drop_zero, List.drop_replicate, List.replicate_zero, List.nil_append]
        rw [← List.append_assoc, hp, units_append]
        simp [units, hn]
      rw [hd] at hs
      have hw : WideText (units (vs ++ [UInt16.ofNat c.toNat])) (s0 ++ [c]) := by
        refine ⟨vs ++ [UInt16.ofNat c.toNat], ?_, .inl ⟨[], by simp, by simp, ?_⟩⟩
        · rw [List.mem_append, not_or]
          refine ⟨hvs, fun h0 => ?_⟩
          have := congrArg UInt16.toNat (List.mem_singleton.1 h0)
          rw [hn] at this
          exact hc0 this.symm
        · rw [units_append]
          have := lenient_snoc hs0 hev hc
          simpa [units, hn] using this
      rw [wideText_unique hs hw]
    have h1 := key 'A' (by decide) (by decide)
    have h2 := key 'B' (by decide) (by decide)
    rw [h1] at h2
    simp at h2
  · exact ⟨us, rest, by rw [e]; rfl⟩

theorem lenient_table {t : ByteTable} {a : Bytes} {s : Str} (h : ByTableLenient t a s) {x : UInt8} {c : Char} (hx : t x = some c) :
    ByTableLenient t (a ++ [x]) (s ++ [c]) := by
  induction h with
  | nil => exact .char hx .nil
  | char h1 _ ih => exact .char h1 ih
  | bad h1 _ ih => exact .bad h1 ih

theorem strict_table {t : ByteTable} {a : Bytes} {s : Str} (h : ByTable t a s) {x : UInt8} {c : Char} (hx : t x = some c) :
    ByTable t (a ++ [x]) (s ++ [c]) := by
  induction h with
  | nil => exact .char hx .nil
  | char h1 _ ih => exact .char h1 ih

theorem narrow_pinned {tp : TextProc} (hd : Lettered tp) {i : Bytes} {off : Nat} {s : Str} (h : ∀ t, NarrowText tp ((i ++ t).drop off) s) :
    NarrowEnds i off := by
  unfold NarrowEnds
  by_contra h0
  obtain ⟨c, t, hr, ht, hA, hB⟩ := hd
  generalize ha : i.drop off = a at h0
  have key : ∀ x : UInt8, x ≠ 0 → c.strict (a ++ [x]) = .ok s ∨
      c.strict (a ++ [x]) = .error .unicodeDecode ∧ (a ++ [x] = utf8 s ∨ c.replace (a ++ [x]) = .ok s) := by
    intro x hx
    have := h (List.replicate (off - i.length) 0 ++ [x])
    have e : (i ++ (List.replicate (off - i.length) 0 ++ [x])).drop off = a ++ [x] := by
      rw [List.drop_append, ha, List.drop_append]
      simp
    have e' : (a ++ [x]).takeWhile (fun x => decide (x ≠ 0)) = a ++ [x] := by
      have := List.takeWhile_append_of_pos (p := fun x : UInt8 => decide (x ≠ 0)) (l₁ := a ++ [x]) (l₂ := []) ?_
      · simpa using this
      intro y hy
      simp only [ne_eq, decide_eq_true_eq]
      rintro rfl
      rcases List.mem_append.1 hy with hy | hy
      · exact h0 hy
      · exact hx (List.mem_singleton.1 hy).symm
    unfold NarrowText at this
    dsimp only at this
    rw [e, e'] at this
    rcases this with ⟨h1, -⟩ | ⟨-, c', hc', h1 | ⟨h1, h2 | ⟨-, h2⟩⟩⟩
    · simp at h1
    all_goals
      rw [hr] at hc'
      cases hc'
    · exact .inl h1
    · exact .inr ⟨h1, .inl h2⟩
    · exact .inr ⟨h1, .inr h2⟩
  have kA := key 0x41 (by decide)
  have kB := key 0x42 (by decide)
  obtain ⟨s0, hs0⟩ := Tables.exists_lenient t a
  have rA := ht.replace _ _ (lenient_table hs0 hA)
  have rB := ht.replace _ _ (lenient_table hs0 hB)
  have uA : ∀ x : Str, utf8 (x ++ ['A']) = utf8 x ++ [0x41] := fun x => by unfold utf8; rw [List.flatMap_append]; rfl
  have uB : ∀ x : Str, utf8 (x ++ ['B']) = utf8 x ++ [0x42] := fun x => by unfold utf8; rw [List.flatMap_append]; rfl
  rcases Tables.cases t a with ⟨s1, hs1⟩ | ⟨x, hx, hn⟩
  · have sA := ht.strict _ _ (strict_table hs1 hA)
    have sB := ht.strict _ _ (strict_table hs1 hB)
    rw [sA] at kA
    rw [sB] at kB
    simp only [Except.ok.injEq, reduceCtorEq, false_and, or_false] at kA kB
    rw [← kA] at kB
    simp at kB
  · have eA := ht.undefined (a ++ [0x41]) ⟨x, List.mem_append_left _ hx, hn⟩
    have eB := ht.undefined (a ++ [0x42]) ⟨x, List.mem_append_left _ hx, hn⟩
    rw [eA, rA] at kA
    rw [eB, rB] at kB
    simp only [Except.ok.injEq, reduceCtorEq, true_and, false_or] at kA kB
    rcases kA with kA | kA <;> rcases kB with kB | kB
    · rw [← kA] at kB
      simp at kB
    · rw [← kB, uB] at kA
      have := congrArg List.getLast? kA
      simp at this
    · rw [← kA, uA] at kB
      have := congrArg List.getLast? kB
      simp at this
    · rw [← kA] at kB
      simp at kB

/-! ### the report -/

theorem u4_more {i : Bytes} {off : Nat} (t : Bytes) (h : off + 4 ≤ i.length) : u4 (i ++ t) off = u4 i off := by
  unfold u4
  rw [uAt_more t h]

theorem value_at {d : Dict} {es : Entries} (h : Fits d es) {k : String} {P : PyVal → Prop} (hf : es.find? (·.1 = k) = some (k, P)) :
    ∃ v, Dict.get? d k = some v ∧ P v := by
  have := fits_get h k
  rw [hf] at this
  exact this

/-- The same value whatever follows. -/
theorem pinned {d : Dict} {k : String} {P : Bytes → PyVal → Prop} {es : Bytes → Entries} (h : ∀ t, Fits d (es t))
    (hf : ∀ t, (es t).find? (·.1 = k) = some (k, P t)) : ∃ v, ∀ t, P t v := by
  obtain ⟨v, hv, -⟩ := value_at (h []) (hf [])
  refine ⟨v, fun t => ?_⟩
  obtain ⟨w, hw, hp⟩ := value_at (h t) (hf t)
  rw [hv] at hw
  cases hw
  exact hp

theorem narrow_pinned' {tp : TextProc} (hd : Lettered tp) {i : Bytes} {off : Nat} {v : PyVal} (h : ∀ t, Narrow tp ((i ++ t).drop off) v) :
    NarrowEnds i off := by
  obtain ⟨s, -, rfl⟩ := h []
  refine narrow_pinned hd (s := s) fun t => ?_
  obtain ⟨s', hs', e⟩ := h t
  cases e
  exact hs'

theorem volume_pinned {tp : TextProc} (hd : Lettered tp) {i : Bytes} {o : Nat} {d : Dict} (h16 : o + 16 ≤ i.length)
    (h20 : u4 i (o + 12) = 0x14 → o + 20 ≤ i.length) (h : ∀ t, Fits d (volumeEntries tp (i ++ t) o)) : VolumeComplete i o := by
  refine ⟨h16, ?_⟩
  have e12 : ∀ t, u4 (i ++ t) (o + 12) = u4 i (o + 12) := fun t => u4_more t (by omega)
  split
  · rename_i hk
    have h20 := h20 hk
    have e16 : ∀ t, u4 (i ++ t) (o + 16) = u4 i (o + 16) := fun t => u4_more t (by omega)
    refine ⟨h20, fun hn => ?_⟩
    obtain ⟨v, hv⟩ := pinned (k := "volume_label_unicode") (P := fun t => Wide ((i ++ t).drop (o + u4 i (o + 16)))) h fun t => by
      unfold volumeEntries
      rw [e12, e16, if_pos ⟨hk, hn⟩]
      simp
    exact wide_pinned hv
  · rename_i hk
    obtain ⟨v, hv⟩ := pinned (k := "volume_label") (P := fun t v => ∃ k, uAt 4 (i ++ t) (o + 12) = some k ∧
        if k = 0x14 then v = .none else Narrow tp ((i ++ t).drop (o + k)) v) h fun t => by
      unfold volumeEntries
      simp
    refine narrow_pinned' hd (v := v) fun t => ?_
    obtain ⟨k, hk1, hk2⟩ := hv t
    have := u4_eq hk1
    rw [e12] at this
    rw [this] at hk ⊢
    rwa [if_neg hk] at hk2

theorem numbers_none (i : Bytes) (o : Nat) {k : String} (hk : k ∈ ["net_name", "device_name", "net_name_unicode", "device_name_unicode"]) :
    (networkNumbers i o).find? (·.1 = k) = none := by
  unfold networkNumbers
  simp only [List.mem_cons, List.not_mem_nil, or_false] at hk
  split <;> rcases hk with rfl | rfl | rfl | rfl <;> simp

theorem network_pinned {tp : TextProc} (hd : Lettered tp) {i : Bytes} {o : Nat} {d : Dict} (h20 : o + 20 ≤ i.length)
    (h28 : 0x14 < u4 i (o + 8) → o + 28 ≤ i.length) (h : ∀ t, NetworkReport tp (i ++ t) o d) : NetworkComplete i o := by
  refine ⟨h20, ?_⟩
  have e8 : ∀ t, u4 (i ++ t) (o + 8) = u4 i (o + 8) := fun t => u4_more t (by omega)
  have e12 : ∀ t, u4 (i ++ t) (o + 12) = u4 i (o + 12) := fun t => u4_more t (by omega)
  unfold NetworkReport at h
  simp only [e8, e12] at h
  split
  · rename_i hk
    have h28 := h28 hk
    simp only [if_pos hk] at h
    have e20 : ∀ t, u4 (i ++ t) (o + 20) = u4 i (o + 20) := fun t => u4_more t (by omega)
    have e24 : ∀ t, u4 (i ++ t) (o + 24) = u4 i (o + 24) := fun t => u4_more t (by omega)
    simp only [e20, e24] at h
    refine ⟨h28, fun hn => ?_, fun hn => ?_⟩
    · obtain ⟨v, hv⟩ := pinned (k := "net_name_unicode") (P := fun t => Wide ((i ++ t).drop (o + u4 i (o + 20)))) h fun t => by
        rw [if_neg hn, List.find?_append, List.find?_append, numbers_none _ _ (by simp)]
        simp
      exact wide_pinned hv
    · obtain ⟨v, hv⟩ := pinned (k := "device_name_unicode") (P := fun t => Wide ((i ++ t).drop (o + u4 i (o + 24)))) h fun t => by
        rw [if_neg hn, List.find?_append, List.find?_append, numbers_none _ _ (by simp)]
        split <;> simp
      exact wide_pinned hv
  · rename_i hk
    simp only [if_neg hk] at h
    have key : ∀ t, ∃ name device, NarrowText tp ((i ++ t).drop (o + u4 i (o + 8))) name ∧
        NarrowText tp ((i ++ t).drop (o + u4 i (o + 12))) device ∧
        Dict.get? d "net_name" = (if name = [] then none else some (.str name)) ∧
        Dict.get? d "device_name" = (if device = [] then none else some (.str device)) := by
      intro t
      obtain ⟨name, device, h1, h2, h3⟩ := h t
      refine ⟨name, device, h1, h2, ?_, ?_⟩
      · have := fits_get h3 "net_name"
        rw [List.find?_append, List.find?_append, numbers_none _ _ (by simp)] at this
        by_cases hn : name = [] <;> by_cases hn' : device = [] <;> simpa [hn, hn'] using this
      · have := fits_get h3 "device_name"
        rw [List.find?_append, List.find?_append, numbers_none _ _ (by simp)] at this
        by_cases hn : name = [] <;> by_cases hn' : device = [] <;> simpa [hn, hn'] using this
    have same : ∀ {a b : Str}, (if a = [] then none else some (PyVal.str a)) = (if b = [] then none else some (PyVal.str b)) → a = b := by
      intro a b hab
      by_cases ha : a = [] <;> by_cases hb : b = [] <;> simp_all
    obtain ⟨name, device, -, -, hn, hdv⟩ := key []
    refine ⟨narrow_pinned hd (s := name) fun t => ?_, narrow_pinned hd (s := device) fun t => ?_⟩
    · obtain ⟨n', d', h1, -, h3, -⟩ := key t
      rw [hn] at h3
      rwa [same h3]
    · obtain ⟨n', d', -, h2, -, h4⟩ := key t
      rw [hdv] at h4
      rwa [same h4]

theorem info_pinned {tp : TextProc} (hd : Lettered tp) {i : Bytes} {kind : String} {d : Dict} (hr : InfoReadable kind i)
    (h : ∀ t, Fits d (infoEntries tp (i ++ t) kind)) : InfoComplete i kind := by
  obtain ⟨h28, h36, hloc⟩ := hr
  have some4 : ∀ {off}, off + 4 ≤ i.length → uAt 4 i off = some (u4 i off) := by
    intro off ho
    unfold u4
    rcases hu : uAt 4 i off with _ | n
    · have := uAt_eq_none_iff.1 hu
      omega
    · rfl
  have e4 : ∀ t, u4 (i ++ t) 4 = u4 i 4 := fun t => u4_more t (by omega)
  have e12 : ∀ t, u4 (i ++ t) 12 = u4 i 12 := fun t => u4_more t (by omega)
  have e16 : ∀ t, u4 (i ++ t) 16 = u4 i 16 := fun t => u4_more t (by omega)
  have e20 : ∀ t, u4 (i ++ t) 20 = u4 i 20 := fun t => u4_more t (by omega)
  have e24 : ∀ t, u4 (i ++ t) 24 = u4 i 24 := fun t => u4_more t (by omega)
  refine ⟨h28, fun hn => ?_, fun hn => ?_, fun hn => ?_, ?_⟩
  · obtain ⟨v, hv⟩ := pinned (k := "local_base_path") (P := fun t => Narrow tp ((i ++ t).drop (u4 i 16))) h fun t => by
      unfold infoEntries
      rw [e16, if_neg hn]
      simp
    exact narrow_pinned' hd hv
  · obtain ⟨v, hv⟩ := pinned (k := "common_path_suffix") (P := fun t => Narrow tp ((i ++ t).drop (u4 i 24))) h fun t => by
      unfold infoEntries
      rw [e24, if_neg hn]
      by_cases h1 : u4 (i ++ t) 16 = 0 <;> simp [h1]
    exact narrow_pinned' hd hv
  · have h36 := h36 _ (some4 (by omega)) hn
    have e28 : ∀ t, u4 (i ++ t) 28 = u4 i 28 := fun t => u4_more t (by omega)
    have e32 : ∀ t, u4 (i ++ t) 32 = u4 i 32 := fun t => u4_more t (by omega)
    refine ⟨h36, fun hn' => ?_, fun hn' => ?_⟩
    · obtain ⟨v, hv⟩ := pinned (k := "local_base_path_unicode") (P := fun t => Wide ((i ++ t).drop (u4 i 28))) h fun t => by
        unfold infoEntries
        rw [e28, e4, if_neg (c := _ ∨ u4 i 28 = 0) (by omega)]
        by_cases h1 : u4 (i ++ t) 16 = 0 <;> by_cases h2 : u4 (i ++ t) 24 = 0 <;> simp [h1, h2]
      exact wide_pinned hv
    · obtain ⟨v, hv⟩ := pinned (k := "common_path_suffix_unicode") (P := fun t => Wide ((i ++ t).drop (u4 i 32 + 4))) h fun t => by
        unfold infoEntries
        rw [e28, e32, e4, if_neg (c := _ ∨ u4 i 32 = 0) (by omega)]
        by_cases h1 : u4 (i ++ t) 16 = 0 <;> by_cases h2 : u4 (i ++ t) 24 = 0 <;> by_cases h3 : u4 i 4 < 0x24 ∨ u4 i 28 = 0 <;>
          simp [h1, h2, h3]
      exact wide_pinned hv
  · obtain ⟨v, hv⟩ := pinned (k := "location_info") (P := fun t v => ∃ d, v = .dict d ∧
        if kind = "Local" then Fits d (volumeEntries tp (i ++ t) (u4 i 12)) else NetworkReport tp (i ++ t) (u4 i 20) d) h fun t => by
      unfold infoEntries
      rw [e12, e20]
      by_cases h1 : u4 (i ++ t) 16 = 0 <;> by_cases h2 : u4 (i ++ t) 24 = 0 <;>
        by_cases h3 : u4 (i ++ t) 4 < 0x24 ∨ u4 (i ++ t) 28 = 0 <;> by_cases h4 : u4 (i ++ t) 4 < 0x24 ∨ u4 (i ++ t) 32 = 0 <;>
          simp [h1, h2, h3, h4]
    obtain ⟨d', rfl, -⟩ := hv []
    have hv' : ∀ t, if kind = "Local" then Fits d' (volumeEntries tp (i ++ t) (u4 i 12)) else NetworkReport tp (i ++ t) (u4 i 20) d' := by
      intro t
      obtain ⟨d'', e, h⟩ := hv t
      cases e
      exact h
    by_cases hk : kind = "Local"
    · rw [if_pos hk] at hloc ⊢
      simp only [if_pos hk] at hv'
      obtain ⟨h16, h20⟩ := hloc _ (some4 (by omega))
      exact volume_pinned hd h16 (fun e => h20 (by rw [some4 (by omega), e])) hv'
    · rw [if_neg hk] at hloc ⊢
      simp only [if_neg hk] at hv'
      obtain ⟨h20', h28'⟩ := hloc _ (some4 (by omega))
      exact network_pinned hd h20' (fun e => h28' _ (some4 (by omega)) e) hv'

/-- What comes before the link info stays where it is. -/
theorem before_info {b : Bytes} {L L' : Layout} {t : Bytes} (h : layout b = some L) (h' : layout (b ++ t) = some L') :
    L'.flags = L.flags ∧ L'.infoAt = L.infoAt := by
  unfold layout at h h'
  rcases h0 : uAt 4 b 0 with _ | hs
  · rw [h0] at h; cases h
  rw [h0] at h
  rw [uAt_some_more t h0] at h'
  dsimp only at h h'
  rcases h1 : uAt 4 (b.take hs) 20 with _ | flags
  · rw [h1] at h; cases h
  rw [h1] at h
  rw [List.take_append, uAt_some_more _ h1] at h'
  dsimp only at h h'
  rcases h2 : (if flags.testBit 0 then (uAt 2 b hs).map fun n => hs + 2 + n else some hs) with _ | infoAt
  · rw [h2] at h; cases h
  rw [h2] at h
  have h2' : (if flags.testBit 0 then (uAt 2 (b ++ t) hs).map fun n => hs + 2 + n else some hs) = some infoAt := by
    rw [← h2]
    split
    · rename_i hb
      rw [if_pos hb] at h2
      obtain ⟨n, hn, -⟩ := Option.map_eq_some_iff.1 h2
      rw [uAt_some_more t hn, hn]
    · rfl
  rw [h2'] at h'
  dsimp only at h h'
  cases h
  cases h'
  exact ⟨rfl, rfl⟩

end Ends

open Ends in
/-- C104: with terminal blocks not allowed, nothing said about a file that can be reported depends on the bytes behind it exactly if it is
complete. -/
theorem final_iff (env : Env) (cp : Option String) (hd : Lettered (TextProc.mk' env cp)) (b : Bytes) (f : LnkFile)
    (hf : (LnkFile.init env cp false (.indata b)).res = .ok f) (j : Dict) (hj : (f.getJson true).res = .ok j) (L : Layout)
    (hL : layout b = some L) (l : List Piece) (last : Bytes) (hc : Cut (b.drop L.extraAt) l last) :
    (∀ t, ∃ g, LnkFile.init env cp false (.indata (b ++ t)) = ⟨(LnkFile.init env cp false (.indata b)).warns, .ok g⟩ ∧ g.size = f.size ∧
      g.lnkCommand = f.lnkCommand ∧ ∀ all, g.getJson all = f.getJson all ∧ g.printJson all = f.printJson all ∧
        g.niceJson all = f.niceJson all) ↔ Complete b L l last := by
  have hcp : UsableCodePage (TextProc.mk' env cp) := by
    obtain ⟨c, t, hr, ht, -⟩ := hd
    exact (table_usable _ c t hr ht).1
  have ht := tame_usable hcp
  constructor
  · intro h
    have hi : infoAnnounced L.flags = true → L.infoAt + 12 ≤ b.length := by
      intro ha
      by_contra hn
      obtain ⟨L1, l1, last1, x1, hL1, -, -, hw1⟩ := construction_warnings env cp hcp false (.indata b) f hf
      simp only [Source.bytes] at hL1
      rw [hL] at hL1
      cases hL1
      have m1 : Warn.infoClass ∈ (LnkFile.init env cp false (.indata b)).warns := by
        rw [hw1, if_pos (c := _ ∧ _) ⟨ha, uAt_eq_none_iff.2 (by simp only [Source.bytes]; omega)⟩]
        simp
      obtain ⟨g, hg, -⟩ := h (List.replicate (L.infoAt + 12) 0)
      obtain ⟨L2, l2, last2, x2, hL2, -, hx2, hw2⟩ := construction_warnings env cp hcp false
        (.indata (b ++ List.replicate (L.infoAt + 12) 0)) g (by rw [hg])
      obtain ⟨e1, e2⟩ := before_info hL hL2
      have hs : ¬ uAt 4 (Source.indata (b ++ List.replicate (L.infoAt + 12) 0)).bytes (L2.infoAt + 8) = none := by
        rw [uAt_eq_none_iff, e2]
        simp only [Source.bytes, List.length_append, List.length_replicate]
        omega
      rw [hg] at hw2
      rw [hw2, if_neg (c := _ ∧ _) fun hh => hs hh.2] at m1
      simp only [List.mem_append, List.append_nil, List.mem_replicate] at m1
      rcases m1 with (((m | m) | m) | m) | m
      · split at m <;> simp at m
      · obtain ⟨s, hs⟩ := hx2 _ m
        cases hs
      · split at m <;> simp at m
      · simp at m
      · split at m <;> simp at m
    obtain ⟨h4, hsg⟩ := (size_final_iff env cp ht b f hf L hL l last hc hi).1 fun t => by
      obtain ⟨g, hg, hs, -⟩ := h t
      exact ⟨g, by rw [hg], hs⟩
    refine ⟨hL, hc, h4, hsg, fun ha => ⟨hi ha, fun kind hk => ?_⟩⟩
    have hlen : L.extraAt + 4 ≤ b.length := by
      have := congrArg List.length (ExtraData.cut_flatten hc)
      rw [List.length_append, List.length_drop] at this
      omega
    have hnc := not_cut L.flags b stringLimits L.stringsAt (by rw [← layout_extra hL]; omega)
    obtain ⟨L1, l1, last1, hL1, hc1, hr⟩ := report_returns env cp hcp false (.indata b) f hf
    simp only [Source.bytes] at hL1 hc1 hr
    rw [hL] at hL1
    cases hL1
    obtain ⟨-, -, hr, -⟩ := (hr true).1 ⟨j, hj⟩
    have key : ∀ t, ∃ v, Dict.get? j "link_info" = some v ∧ ∃ d, v = .dict d ∧
        Fits d (infoEntries (TextProc.mk' env cp) (b.drop L.infoAt ++ t) kind) := by
      intro t
      obtain ⟨g, hg, -, -, hgj⟩ := h t
      obtain ⟨L2, l2, last2, hL2, -, hv⟩ := report_values env cp hcp false (.indata (b ++ t)) g (by rw [hg])
      obtain ⟨hLt, -, -, -, hlt⟩ := layout_more t hL (by omega) hnc hi
      simp only [Source.bytes] at hL2 hv
      rw [hLt] at hL2
      cases hL2
      have := value_at (k := "link_info") (P := fun v => ∃ d, v = .dict d ∧ Fits d
        (infoEntries (TextProc.mk' env cp) (b.drop L.infoAt ++ t) kind)) (hv j (by rw [(hgj true).1]; exact hj)) (by
          unfold reportEntries
          rw [if_pos ha, hlt ha, hk, List.drop_append_of_le_length (by have := hi ha; omega)]
          cases L.flags.testBit 0 <;> simp)
      exact this
    obtain ⟨v, hv, d, rfl, -⟩ := key []
    refine info_pinned (d := d) hd (hr ha kind hk) fun t => ?_
    obtain ⟨w, hw, d', rfl, hd'⟩ := key t
    rw [hv] at hw
    cases hw
    exact hd'
  · intro hC t
    obtain ⟨h1, -, h3⟩ := trailing_bytes_ignored env cp ht b t L l last hC (.indata b) (.indata (b ++ t)) rfl rfl
    obtain ⟨g, hg, h⟩ := h3 f hf
    refine ⟨g, ?_, h⟩
    rw [← h1, ← hg]

/-- The default code page tells letters apart. -/
theorem lettered_default (env : Env) : Lettered (TextProc.mk' env none) := by
  obtain ⟨t, h1, h2⟩ := default_table
  exact ⟨cp1252, t, rfl, h1, (h2 _ _).2 (.inl (by decide)), (h2 _ _).2 (.inl (by decide))⟩

/-- `sharedText` (path and volume label are the same bytes): nothing of it changes, whatever follows. -/
example (env : Env) (f : LnkFile) (hf : (LnkFile.init env none false (.indata sharedText)).res = .ok f) (j : Dict)
    (hj : (f.getJson true).res = .ok j) (t : Bytes) :
    ∃ g, (LnkFile.init env none false (.indata (sharedText ++ t))).res = .ok g ∧ (g.getJson true).res = .ok j := by
  obtain ⟨g, hg, -, -, h⟩ := (final_iff env none (lettered_default env) sharedText f hf j hj _ sharedText_complete.layout _ _
    sharedText_complete.cut).2 sharedText_complete t
  exact ⟨g, by rw [hg], by rw [(h true).1]; exact hj⟩

/-- `dangling` (the path is said to start where the file ends) is accepted and reported, its size stays the same whatever follows, but not
everything does. -/
example (env : Env) : ∃ f j, (LnkFile.init env none false (.indata dangling)).res = .ok f ∧ (f.getJson true).res = .ok j ∧
    (∀ t, ∃ g, (LnkFile.init env none false (.indata (dangling ++ t))).res = .ok g ∧ g.size = f.size) ∧
    ¬ ∀ t, ∃ g, LnkFile.init env none false (.indata (dangling ++ t)) = ⟨(LnkFile.init env none false (.indata dangling)).warns, .ok g⟩ ∧
      g.size = f.size ∧ g.lnkCommand = f.lnkCommand ∧ ∀ all, g.getJson all = f.getJson all ∧ g.printJson all = f.printJson all ∧
        g.niceJson all = f.niceJson all := by
  have hL : layout dangling = some ⟨76, 2, 76, 124, 124⟩ := by decide +kernel
  have hc : Cut (dangling.drop 124) [] (le 4 0) := .stop (b := le 4 0) (by decide +kernel)
  have hu := usable_default env
  obtain ⟨f, hf⟩ := (constructor_outcome env none hu false (.indata dangling)).1.2
    ⟨(layout_isSome _).1 ⟨_, hL⟩, fun L l last h1 h2 p hp _ => by
      simp only [Source.bytes] at h1 h2
      rw [hL] at h1
      cases h1
      obtain ⟨rfl, -⟩ := cut_unique h2 hc
      cases hp⟩
  obtain ⟨L, l, last, h1, h2, hr⟩ := report_returns env none hu false (.indata dangling) f hf
  simp only [Source.bytes] at h1 h2 hr
  rw [hL] at h1
  cases h1
  obtain ⟨rfl, rfl⟩ := cut_unique h2 hc
  have hk : infoLocation dangling 76 = some "Local" := by decide +kernel
  obtain ⟨j, hj⟩ := (hr true).2 ⟨⟨by decide, by decide +kernel⟩, by decide +kernel, fun _ kind h => by
    rw [hk] at h
    cases h
    refine ⟨by decide +kernel, fun n hn h' => ?_, ?_⟩
    · have : uAt 4 (dangling.drop 76) 4 = some 28 := by decide +kernel
      rw [this] at hn
      cases hn
      omega
    · rw [if_pos rfl]
      intro v hv
      have : uAt 4 (dangling.drop 76) 12 = some 28 := by decide +kernel
      rw [this] at hv
      cases hv
      refine ⟨by decide +kernel, fun h => absurd h ?_⟩
      decide +kernel, fun p hp => by cases hp⟩
  refine ⟨f, j, hf, hj, ?_, ?_⟩
  · exact (size_final_iff env none (tame_usable hu) dangling f hf _ hL _ _ hc fun _ => by decide +kernel).2 ⟨by decide, by simp⟩
  · rw [final_iff env none (lettered_default env) dangling f hf j hj _ hL _ _ hc]
    intro h
    have := ((h.info (by decide)).2 _ hk).2.1
    revert this
    unfold NarrowEnds
    decide +kernel

end Verif.Props
