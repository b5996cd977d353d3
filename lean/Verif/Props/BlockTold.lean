import Verif.Spec.BlockTold
import Verif.Props.InfoTold
import Mathlib.Tactic.FinCases

/-
C106: what the report tells about a block of extra data.
-/

namespace Verif.Props

open Spec Py Verif.Values

namespace BlockTold

open InfoTold Ends

/-- The same dictionary fits both lists, entry by entry. -/
theorem each {d : Dict} {es es' : Entries} (h : Fits d es) (h' : Fits d es') : List.Forall₂ (fun e e' => ∃ v, e.2 v ∧ e'.2 v) es es' := by
  induction d generalizing es es' with
  | nil =>
    cases es <;> cases es' <;> simp_all [Fits]
  | cons kv d ih =>
    cases es with
    | nil => simp [Fits] at h
    | cons e es =>
      cases es' with
      | nil => simp [Fits] at h'
      | cons e' es' => exact .cons ⟨kv.2, h.2.1, h'.2.1⟩ (ih h.2.2 h'.2.2)

theorem num_bytes {b b' : Bytes} {n off k : Nat} (h : uAt n b off = some k) (h' : uAt n b' off = some k) : SameBytes b b' off (off + n) := by
  obtain ⟨l1, e1⟩ := uAt_eq_some_iff.1 h
  obtain ⟨l2, e2⟩ := uAt_eq_some_iff.1 h'
  have : slice b off (off + n) = slice b' off (off + n) := leNat_inj (by simp; omega) (e1.trans e2.symm)
  intro k h1 h2
  rw [← slice_at b off n k h1 h2, this, slice_at b' off n k h1 h2]

theorem slice_same {b b' : Bytes} {off n : Nat} (h : SameBytes b b' off (off + n)) : slice b off (off + n) = slice b' off (off + n) := by
  refine List.ext_getElem? fun k => ?_
  by_cases hk : k < n
  · have h1 := slice_at b off n (off + k) (by omega) (by omega)
    have h2 := slice_at b' off n (off + k) (by omega) (by omega)
    rw [Nat.add_sub_cancel_left] at h1 h2
    rw [h1, h2]
    exact h _ (by omega) (by omega)
  · rw [List.getElem?_eq_none (by simp; omega), List.getElem?_eq_none (by simp; omega)]

theorem bytes_num {b b' : Bytes} {n off : Nat} (hn : 0 < n) (h : SameBytes b b' off (off + n)) : uAt n b off = uAt n b' off := by
  have key : ∀ {x y : Bytes} {k : Nat}, SameBytes x y off (off + n) → uAt n x off = some k → uAt n y off = some k := by
    intro x y k h hx
    obtain ⟨l1, e1⟩ := uAt_eq_some_iff.1 hx
    refine uAt_eq_some_iff.2 ⟨?_, by rw [← slice_same h, e1]⟩
    have h3 := h (off + n - 1) (by omega) (by omega)
    rw [List.getElem?_eq_getElem (by omega)] at h3
    have := (List.getElem?_eq_some_iff.1 h3.symm).1
    omega
  rcases hx : uAt n b off with _ | k
  · rcases hy : uAt n b' off with _ | m
    · rfl
    · rw [key (fun k h1 h2 => (h k h1 h2).symm) hy] at hx
      cases hx
  · exact (key h hx).symm

theorem nat_same {n : Nat} {b b' : Bytes} {off : Nat} (h : ∃ v, NatAt n b off v ∧ NatAt n b' off v) : SameBytes b b' off (off + n) := by
  obtain ⟨v, ⟨k, hk, rfl⟩, ⟨m, hm, e⟩⟩ := h
  simp only [PyVal.int.injEq, Nat.cast_inj] at e
  subst e
  exact num_bytes hk hm

theorem int_same {b b' : Bytes} {off : Nat} (h : ∃ v, IntAt 2 b off v ∧ IntAt 2 b' off v) : SameBytes b b' off (off + 2) := by
  obtain ⟨v, ⟨k, hk, rfl⟩, ⟨m, hm, e⟩⟩ := h
  simp only [PyVal.int.injEq] at e
  subst e
  unfold sAt at hk hm
  obtain ⟨x, hx, ex⟩ := Option.map_eq_some_iff.1 hk
  obtain ⟨y, hy, ey⟩ := Option.map_eq_some_iff.1 hm
  have lx := uAt_lt hx
  have ly := uAt_lt hy
  have : x = y := by
    rw [← ey] at ex
    split at ex <;> split at ex <;> omega
  subst this
  exact num_bytes hx hy

theorem guid_same {b b' : Bytes} {off : Nat} (h : ∃ v, GuidAt b off v ∧ GuidAt b' off v) : SameBytes b b' off (off + 16) := by
  obtain ⟨v, ⟨g, hg, rfl⟩, ⟨g', hg', e⟩⟩ := h
  simp only [PyVal.str.injEq, text_inj] at e
  subst e
  have : slice b off (off + 16) = slice b' off (off + 16) := hg.trans hg'.symm
  intro k h1 h2
  rw [← slice_at b off 16 k h1 h2, this, slice_at b' off 16 k h1 h2]

theorem narrow_same {tp : TextProc} {x y : Bytes} (h : ∃ v, Narrow tp x v ∧ Narrow tp y v) (s : Str) : NarrowText tp x s ↔ NarrowText tp y s := by
  obtain ⟨v, ⟨t, ht, rfl⟩, ⟨t', ht', e⟩⟩ := h
  cases e
  exact ⟨fun hs => narrowText_unique ht hs ▸ ht', fun hs => narrowText_unique ht' hs ▸ ht⟩

theorem wide_same {x y : Bytes} (h : ∃ v, Wide x v ∧ Wide y v) (s : Str) : WideText x s ↔ WideText y s := by
  obtain ⟨v, ⟨t, ht, rfl⟩, ⟨t', ht', e⟩⟩ := h
  cases e
  exact ⟨fun hs => wideText_unique ht hs ▸ ht', fun hs => wideText_unique ht' hs ▸ ht⟩

theorem nat_eq {n : Nat} {b b' : Bytes} {off : Nat} (hn : 0 < n) (h : SameBytes b b' off (off + n)) : NatAt n b off = NatAt n b' off := by
  unfold NatAt
  rw [bytes_num hn h]

theorem int_eq {n : Nat} {b b' : Bytes} {off : Nat} (hn : 0 < n) (h : SameBytes b b' off (off + n)) : IntAt n b off = IntAt n b' off := by
  unfold IntAt sAt
  rw [bytes_num hn h]

theorem guid_eq {b b' : Bytes} {off : Nat} (h : SameBytes b b' off (off + 16)) : GuidAt b off = GuidAt b' off := by
  unfold GuidAt
  rw [show between b off (off + 16) = between b' off (off + 16) from slice_same h]

theorem narrowAll_eq {tp : TextProc} {x y : Bytes} (h : ∀ s, NarrowText tp x s ↔ NarrowText tp y s) : Narrow tp x = Narrow tp y := by
  funext v
  unfold Narrow
  simp only [h _]

theorem wideAll_eq {x y : Bytes} (h : ∀ s, WideText x s ↔ WideText y s) : Wide x = Wide y := by
  funext v
  unfold Wide
  simp only [h _]

theorem between_rest {b : Bytes} {n : Nat} (h : b.length ≤ n) : between b 8 n = b.drop 8 := by
  unfold between
  rw [List.take_of_length_le (by simp; omega)]

/-- The fields of two blocks of one kind are the same. -/
theorem fields_told {tp : TextProc} {s : Nat} {b b' : Bytes} {d : Dict} (h : blockFields tp s b d) (h' : blockFields tp s b' d)
    {parts : List SeenPart} (hp : seenParts s (max b.length b'.length) = some parts) : ∀ x ∈ parts, SamePart tp b b' x := by
  unfold seenParts at hp
  split at hp <;> cases hp
  · have := each h h'
    simp only [List.forall₂_cons, List.Forall₂.nil, and_true] at this
    intro x hx
    fin_cases hx
    · exact narrow_same this.1
    · exact wide_same this.2
  · have := each h h'
    simp only [List.forall₂_cons, List.Forall₂.nil, and_true] at this
    obtain ⟨h1, h2, h3, h4, h5, h6, h7, h8, h9, h10, h11, h12, h13, h14, h15, h16, h17, h18, h19, h20, h21⟩ := this
    have a1 := nat_same h1
    have a2 := nat_same h2
    have a3 := int_same h3
    have a4 := int_same h4
    have a5 := int_same h5
    have a6 := int_same h6
    have a7 := int_same h7
    have a8 := int_same h8
    have a9 := nat_same h9
    have a10 := nat_same h10
    have a11 := nat_same h11
    have a13 := nat_same h13
    have a14 := nat_same h14
    have a15 := nat_same h15
    have a16 := nat_same h16
    have a17 := nat_same h17
    have a18 := nat_same h18
    have a19 := nat_same h19
    have a20 := nat_same h20
    have a21 := nat_same h21
    intro x hx
    fin_cases hx
    · exact sameBytes_append a1 <| sameBytes_append a2 <| sameBytes_append a3 <| sameBytes_append a4 <| sameBytes_append a5 <|
        sameBytes_append a6 <| sameBytes_append a7 a8
    · exact sameBytes_append a9 <| sameBytes_append a10 a11
    · exact wide_same h12
    · exact sameBytes_append a13 <| sameBytes_append a14 <| sameBytes_append a15 <| sameBytes_append a16 <| sameBytes_append a17 <|
        sameBytes_append a18 <| sameBytes_append a19 <| sameBytes_append a20 a21
  · have := each h h'
    simp only [List.forall₂_cons, List.Forall₂.nil, and_true] at this
    obtain ⟨h1, h2, h3, h4, h5, h6, h7⟩ := this
    have a1 := nat_same h1
    have a2 := nat_same h2
    have a4 := guid_same h4
    have a5 := guid_same h5
    have a6 := guid_same h6
    have a7 := guid_same h7
    intro x hx
    fin_cases hx
    · exact sameBytes_append a1 a2
    · exact narrow_same h3
    · exact sameBytes_append a4 <| sameBytes_append a5 <| sameBytes_append a6 a7
  · have := each h h'
    simp only [List.forall₂_cons, List.Forall₂.nil, and_true] at this
    have a1 := nat_same this
    intro x hx
    fin_cases hx
    exact a1
  · have := each h h'
    simp only [List.forall₂_cons, List.Forall₂.nil, and_true] at this
    have a1 := nat_same this.1
    have a2 := nat_same this.2
    intro x hx
    fin_cases hx
    exact sameBytes_append a1 a2
  · obtain ⟨s, hs, h⟩ := h
    obtain ⟨s', hs', h'⟩ := h'
    have := each h h'
    simp only [descriptorEntries, List.forall₂_cons, List.Forall₂.nil, and_true] at this
    obtain ⟨h1, ⟨v, e, e'⟩, -⟩ := this
    rw [e] at e'
    cases e'
    intro x hx
    fin_cases hx
    · exact narrow_same h1
    · exact fun t => ⟨fun ht => wideText_unique hs ht ▸ hs', fun ht => wideText_unique hs' ht ▸ hs⟩
  · have := each h h'
    simp only [List.forall₂_cons, List.Forall₂.nil, and_true] at this
    intro x hx
    fin_cases hx
    · exact narrow_same this.1
    · exact wide_same this.2
  · have := each h h'
    simp only [List.forall₂_cons, List.Forall₂.nil, and_true] at this
    intro x hx
    fin_cases hx
    simp only [SamePart]
    rw [between_rest (by omega), between_rest (by omega)]
    exact narrow_same this
  · have := each h h'
    simp only [List.forall₂_cons, List.Forall₂.nil, and_true] at this
    have a1 := guid_same this.1
    have a2 := nat_same this.2
    intro x hx
    fin_cases hx
    exact sameBytes_append a1 a2

/-- Blocks with the same parts have the same fields. -/
theorem fields_eq {tp : TextProc} {s : Nat} {b b' : Bytes} {parts : List SeenPart} (hp : seenParts s (max b.length b'.length) = some parts)
    (h : ∀ x ∈ parts, SamePart tp b b' x) : blockFields tp s b = blockFields tp s b' := by
  unfold seenParts at hp
  split at hp <;> cases hp <;> simp only [List.forall_mem_cons, List.not_mem_nil, IsEmpty.forall_iff, implies_true, and_true, SamePart] at h <;> funext d <;> unfold blockFields
  · rw [if_pos (by decide), if_pos (by decide), narrowAll_eq h.1, wideAll_eq h.2]
  · obtain ⟨h1, h2, h3, h4⟩ := h
    have n2 : ∀ off, 8 ≤ off → off + 2 ≤ 24 → NatAt 2 b off = NatAt 2 b' off := fun off _ _ =>
      nat_eq (by omega) (sameBytes_sub h1 (by omega) (by omega))
    have i2 : ∀ off, 8 ≤ off → off + 2 ≤ 24 → IntAt 2 b off = IntAt 2 b' off := fun off _ _ =>
      int_eq (by omega) (sameBytes_sub h1 (by omega) (by omega))
    have n4 : ∀ off, 32 ≤ off → off + 4 ≤ 44 → NatAt 4 b off = NatAt 4 b' off := fun off _ _ =>
      nat_eq (by omega) (sameBytes_sub h2 (by omega) (by omega))
    have m4 : ∀ off, 108 ≤ off → off + 4 ≤ 144 → NatAt 4 b off = NatAt 4 b' off := fun off _ _ =>
      nat_eq (by omega) (sameBytes_sub h4 (by omega) (by omega))
    rw [if_neg (by decide), if_pos (by decide), if_neg (by decide), if_pos (by decide), wideAll_eq h3, n2 8 (by omega) (by omega),
      n2 10 (by omega) (by omega), i2 12 (by omega) (by omega), i2 14 (by omega) (by omega), i2 16 (by omega) (by omega),
      i2 18 (by omega) (by omega), i2 20 (by omega) (by omega), i2 22 (by omega) (by omega), n4 32 (by omega) (by omega),
      n4 36 (by omega) (by omega), n4 40 (by omega) (by omega), m4 108 (by omega) (by omega), m4 112 (by omega) (by omega),
      m4 116 (by omega) (by omega), m4 120 (by omega) (by omega), m4 124 (by omega) (by omega), m4 128 (by omega) (by omega),
      m4 132 (by omega) (by omega), m4 136 (by omega) (by omega), m4 140 (by omega) (by omega)]
  · obtain ⟨h1, h2, h3⟩ := h
    have g : ∀ off, 32 ≤ off → off + 16 ≤ 96 → GuidAt b off = GuidAt b' off := fun off _ _ =>
      guid_eq (sameBytes_sub h3 (by omega) (by omega))
    rw [if_neg (by decide), if_neg (by decide), if_pos (by decide), if_neg (by decide), if_neg (by decide), if_pos (by decide),
      nat_eq (off := 8) (by omega) (sameBytes_sub h1 (by omega) (by omega)),
      nat_eq (off := 12) (by omega) (sameBytes_sub h1 (by omega) (by omega)), narrowAll_eq h2, g 32 (by omega) (by omega),
      g 48 (by omega) (by omega), g 64 (by omega) (by omega), g 80 (by omega) (by omega)]
  · simp only [show ¬ (0xA0000004 = 0xA0000001 ∨ 0xA0000004 = 0xA0000007) by decide, if_false]
    simp only [Nat.reduceEqDiff, if_false, if_true, nat_eq (n := 4) (off := 8) (by omega) h]
  · simp only [show ¬ (0xA0000005 = 0xA0000001 ∨ 0xA0000005 = 0xA0000007) by decide, if_false]
    simp only [Nat.reduceEqDiff, if_false, if_true, nat_eq (n := 4) (off := 8) (by omega) (sameBytes_sub h (by omega) (by omega)),
      nat_eq (n := 4) (off := 12) (by omega) (sameBytes_sub h (by omega) (by omega))]
  · simp only [show ¬ (0xA0000006 = 0xA0000001 ∨ 0xA0000006 = 0xA0000007) by decide, if_false]
    simp only [Nat.reduceEqDiff, if_false, if_true, h.2 _, narrowAll_eq h.1]
  · rw [if_pos (by decide), if_pos (by decide), narrowAll_eq h.1, wideAll_eq h.2]
  · rw [between_rest (by omega), between_rest (by omega)] at h
    simp only [show ¬ (0xA0000008 = 0xA0000001 ∨ 0xA0000008 = 0xA0000007) by decide, if_false]
    simp only [Nat.reduceEqDiff, if_false, if_true, narrowAll_eq h]
  · simp only [show ¬ (0xA000000B = 0xA0000001 ∨ 0xA000000B = 0xA0000007) by decide, if_false]
    simp only [Nat.reduceEqDiff, if_false, if_true, guid_eq (off := 8) (sameBytes_sub h (by omega) (by omega)),
      nat_eq (n := 4) (off := 24) (by omega) (sameBytes_sub h (by omega) (by omega))]

end BlockTold

open BlockTold Ends in
/-- C106: two files with a block of one kind with fields at fixed places: what their reports say of the last one that can be reported is the
same exactly if the declared sizes and the parts that are looked at are the same. -/
theorem block_told (env : Env) (cp : Option String) (hcp : UsableCodePage (TextProc.mk' env cp)) (allow allow' : Bool) (src src' : Source)
    (f f' : LnkFile) (hf : (LnkFile.init env cp allow src).res = .ok f) (hf' : (LnkFile.init env cp allow' src').res = .ok f') (j j' : Dict)
    (hj : (f.getJson true).res = .ok j) (hj' : (f'.getJson true).res = .ok j') :
    ∃ L l last L' l' last' E E', layout src.bytes = some L ∧ Cut (src.bytes.drop L.extraAt) l last ∧
      layout src'.bytes = some L' ∧ Cut (src'.bytes.drop L'.extraAt) l' last' ∧
      Dict.get? j "extra" = some (.dict E) ∧ Dict.get? j' "extra" = some (.dict E') ∧
      ∀ name p p' s parts, LastReadable name l p → LastReadable name l' p' → p.signature = some s → p'.signature = some s →
        seenParts s (max p.bytes.length p'.bytes.length) = some parts →
        (Dict.get? E name = Dict.get? E' name ↔ p.declared = p'.declared ∧ ∀ x ∈ parts, SamePart (TextProc.mk' env cp) p.bytes p'.bytes x) := by
  have key : ∀ (allow : Bool) (src : Source) (f : LnkFile) (j : Dict), (LnkFile.init env cp allow src).res = .ok f →
      (f.getJson true).res = .ok j → ∃ L l last E, layout src.bytes = some L ∧ Cut (src.bytes.drop L.extraAt) l last ∧
        Dict.get? j "extra" = some (.dict E) ∧ ExtraReport (TextProc.mk' env cp) allow l last E := by
    intro allow src f j hf hj
    obtain ⟨L, l, last, hL, hc, hv⟩ := report_values env cp hcp allow src f hf
    obtain ⟨v, h1, E, rfl, h2⟩ := value_at (k := "extra") (P := fun v => ∃ d, v = .dict d ∧ ExtraReport (TextProc.mk' env cp) allow l last d)
      (hv j hj) (by
        unfold reportEntries
        cases L.flags.testBit 0 <;> simp)
    exact ⟨L, l, last, E, hL, hc, h1, h2⟩
  obtain ⟨L, l, last, E, hL, hc, hE, hx⟩ := key allow src f j hf hj
  obtain ⟨L', l', last', E', hL', hc', hE', hx'⟩ := key allow' src' f' j' hf' hj'
  refine ⟨L, l, last, L', l', last', E, E', hL, hc, hL', hc', hE, hE', ?_⟩
  rintro name p p' s parts ⟨pre, post, e1, e2, e3⟩ ⟨pre', post', e1', e2', e3'⟩ hs hs' hp
  have hn : name ≠ "UNKNOWN_BLOCK" := by
    obtain ⟨s0, h0, rfl, -⟩ := e2
    rw [hs] at h0
    cases h0
    unfold seenParts at hp
    split at hp <;> first
      | decide
      | cases hp
  obtain ⟨d, hd, r, rfl, hr⟩ := hx.named name pre p post s hn e1 e2 hs e3
  obtain ⟨d', hd', r', rfl, hr'⟩ := hx'.named name pre' p' post' s hn e1' e2' hs' e3'
  rw [hd, hd']
  simp only [Option.some.injEq, PyVal.dict.injEq, List.cons.injEq, Prod.mk.injEq, true_and, PyVal.int.injEq, Nat.cast_inj]
  refine and_congr_right fun _ => ⟨?_, fun h => ?_⟩
  · rintro rfl
    exact fields_told hr hr' hp
  · rw [← fields_eq hp h] at hr'
    exact block_unique hr hr'

/-- A tracker block, with what stands behind the zero of the machine's name, and the last byte of the last identifier. -/
def trackerOf (rest : Bytes) (last : UInt8) : Bytes :=
  le 4 96 ++ le 4 0xA0000003 ++ le 4 88 ++ le 4 0 ++ ([112, 99, 0] ++ rest) ++ List.replicate 63 1 ++ [last]

/-- Such a block is the last that can be reported under its name, whatever follows. -/
example (last : UInt8) : LastReadable "DISTRIBUTED_LINK_TRACKER_BLOCK" [⟨96, trackerOf (List.replicate 13 0) last, some 0xA0000003⟩]
    ⟨96, trackerOf (List.replicate 13 0) last, some 0xA0000003⟩ := by
  refine ⟨[], [], rfl, ⟨0xA0000003, rfl, by decide +kernel, ?_⟩, by simp⟩
  unfold BlockReadable
  simp only [Nat.reduceEqDiff, if_false, if_true]
  simp [trackerOf]

/-- What stands behind the name of the machine does not count. -/
example (tp : TextProc) : ∀ x ∈ [SeenPart.bytes 8 16, .narrow 16 32, .bytes 32 96],
    SamePart tp (trackerOf (List.replicate 13 0) 1) (trackerOf (List.replicate 13 9) 1) x := by
  intro x hx
  fin_cases hx
  · exact fun k _ h => by
      revert h k
      decide +kernel
  · intro s
    have e : (between (trackerOf (List.replicate 13 0) 1) 16 32).takeWhile (fun x => decide (x ≠ 0)) =
        (between (trackerOf (List.replicate 13 9) 1) 16 32).takeWhile (fun x => decide (x ≠ 0)) := by decide +kernel
    unfold NarrowText
    rw [e]
  · exact fun k _ h => by
      revert h k
      decide +kernel

/-- The last byte of an identifier does. -/
example (tp : TextProc) : ¬ SamePart tp (trackerOf (List.replicate 13 0) 1) (trackerOf (List.replicate 13 0) 2) (.bytes 32 96) := by
  intro h
  have := h 95 (by omega) (by omega)
  revert this
  decide +kernel

end Verif.Props
