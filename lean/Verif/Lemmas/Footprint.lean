import Verif.Lemmas.StoreGaps
import Verif.Lemmas.TextGaps
import Verif.Lemmas.OpenEnd
import Verif.Spec.Footprint

/-
Files that are the same wherever they are looked at.
-/

namespace Verif

open Spec Py Gaps

namespace Footprint

/-- The same bytes in all stretches of a list. -/
def Same (b b' : Bytes) (l : List (Nat × Nat)) : Prop := ∀ r ∈ l, slice b r.1 r.2 = slice b' r.1 r.2

variable {b b' : Bytes}

theorem same_inside {o n : Nat} {l : List (Nat × Nat)} (h : Same b b' (inside o n l)) : Same (slice b o (o + n)) (slice b' o (o + n)) l := by
  intro r hr
  rw [Gaps.slice_slice, Gaps.slice_slice]
  exact h _ (List.mem_map.2 ⟨r, hr, rfl⟩)

theorem drop_eq_slice (x : Bytes) (o : Nat) : x.drop o = slice x o (o + (x.length - o)) := by
  unfold slice
  rw [Nat.add_sub_cancel_left, List.take_of_length_le (by rw [List.length_drop])]

theorem same_drop {o : Nat} {l : List (Nat × Nat)} (hl : b.length = b'.length) (h : Same b b' (inside o (b.length - o) l)) :
    Same (b.drop o) (b'.drop o) l := by
  have := same_inside h
  rw [drop_eq_slice b, drop_eq_slice b', ← hl]
  exact this

theorem same_whole (hl : b.length = b'.length) (h : slice b 0 b.length = slice b' 0 b.length) : b' = b := by
  unfold slice at h
  rw [List.drop_zero, List.drop_zero, Nat.sub_zero, List.take_length, List.take_of_length_le (by omega)] at h
  exact h.symm

theorem size_zero {t : Bytes} (h : uAt 2 t 0 = some 0) : ∃ r, t = 0 :: 0 :: r := by
  obtain ⟨h1, h2⟩ := uAt_eq_some_iff.1 h
  match t, h1 with
  | x :: y :: r, _ =>
    simp [slice, leNat] at h2
    have z : ∀ u : UInt8, u.toNat = 0 → u = 0 := fun u h => UInt8.toNat_inj.1 h
    exact ⟨r, by rw [z x h2.1, z y h2.2]⟩

theorem item_split {t : Bytes} {n : Nat} (h : uAt 2 t 0 = some n) (h3 : 3 ≤ n) (hn : n ≤ t.length) :
    ∃ c body, t = itemBytes (c :: body) ++ t.drop n ∧ (c :: body).length + 2 = n ∧ (t.drop 2).take n = c :: body ++ (t.drop n).take 2 := by
  obtain ⟨h1, h2⟩ := uAt_eq_some_iff.1 h
  have e2 : t.take 2 = le 2 n := by
    rw [← h2, ← le_leNat (t.take 2)]
    simp only [slice, List.drop_zero, Nat.zero_add, Nat.sub_zero, List.length_take, Nat.min_eq_left h1]
  have hb : (slice t 2 n).length + 2 = n := by
    simp only [slice, List.length_take, List.length_drop]
    omega
  obtain ⟨c, body, hp⟩ : ∃ c body, slice t 2 n = c :: body := by
    cases hs : slice t 2 n with
    | nil => rw [hs] at hb; simp at hb; omega
    | cons c body => exact ⟨c, body, rfl⟩
  refine ⟨c, body, ?_, by rw [← hp]; exact hb, ?_⟩
  · rw [← hp, itemBytes, hb, ← e2]
    unfold slice
    have := List.take_append_drop 2 t
    have h4 := List.take_append_drop (n - 2) (t.drop 2)
    rw [List.drop_drop, show 2 + (n - 2) = n by omega] at h4
    rw [List.append_assoc, h4, this]
  · rw [← hp]
    unfold slice
    have h4 : t.drop n = (t.drop 2).drop (n - 2) := by
      rw [List.drop_drop, show 2 + (n - 2) = n by omega]
    rw [h4]
    conv_lhs => rw [show n = (n - 2) + 2 by omega]
    rw [List.take_add]

theorem list_head {t t' : Bytes} (hl : t.length = t'.length) (hu : Same t t' (listUsed t)) : t'.take 2 = t.take 2 := by
  rw [listUsed] at hu
  split at hu
  · rw [same_whole hl (hu _ (.head _))]
  · split at hu
    · exact (hu (0, 2) (.head _)).symm
    · split at hu
      · rw [same_whole hl (hu _ (.head _))]
      · exact (hu (0, 2) (.head _)).symm

/-- A list of shell items. -/
theorem list_gap (tp : TextProc) (t t' : Bytes) (hl : t.length = t'.length) (hu : Same t t' (listUsed t)) :
    LnkTargets.asListLoop (LnkTargets.idLists tp t') = LnkTargets.asListLoop (LnkTargets.idLists tp t) := by
  generalize hm : t.length = m
  induction m using Nat.strong_induction_on generalizing t t' with
  | _ m ih =>
    rw [listUsed] at hu
    split at hu
    · rw [same_whole hl (hu _ (.head _))]
    · rename_i n hn
      split at hu
      · rename_i h0
        subst h0
        have := TextGaps.uAt_same (n := 2) (s := 0) hl (hu (0, 2) (.head _))
        rw [hn] at this
        obtain ⟨r, rfl⟩ := size_zero hn
        obtain ⟨r', rfl⟩ := size_zero this
        rw [idLists_ends (.inr ⟨r, rfl⟩), idLists_ends (.inr ⟨r', rfl⟩)]
      · split at hu
        · rw [same_whole hl (hu _ (.head _))]
        · rename_i h3
          have h3' : 3 ≤ n ∧ n ≤ t.length := by omega
          have hn' := TextGaps.uAt_same (n := 2) (s := 0) hl (hu (0, 2) (.head _))
          rw [hn] at hn'
          obtain ⟨c, body, e1, e2, e3⟩ := item_split hn h3'.1 h3'.2
          obtain ⟨c', body', f1, f2, f3⟩ := item_split hn' h3'.1 (by omega)
          have hd : Same (t.drop n) (t'.drop n) (listUsed (t.drop n)) :=
            same_drop hl fun r hr => hu r (List.mem_append.2 (.inr hr))
          have hw : Same (slice t 2 (2 + n)) (slice t' 2 (2 + n)) (itemUsed ((t.drop 2).take n)) :=
            same_inside fun r hr => hu r (List.mem_append.2 (.inl (.tail _ hr)))
          have hs : ∀ x : Bytes, slice x 2 (2 + n) = (x.drop 2).take n := fun x => by
            unfold slice
            rw [Nat.add_sub_cancel_left]
          rw [hs, hs, e3, f3] at hw
          have hlen : (c :: body).length = (c' :: body').length := by omega
          have h2 : (t'.drop n).take 2 = (t.drop n).take 2 := by
            exact list_head (by simp [hl]) hd
          rw [h2] at hw
          have hc : c = c' := by
            have := hw _ (.head _)
            simpa [slice] using this
          subst hc
          have := item_step tp hlen (by have := uAt_lt hn; omega) h2 hw (ih _ (by rw [List.length_drop]; omega) _ _ (by simp [hl]) hd rfl)
          rw [← e1, ← f1] at this
          exact this

/-! ### the extra data -/

theorem uint_cases (c : ExtraClass) (tp : TextProc) (q : Bytes) : Extra.uint ⟨c, tp, q⟩ 0 4 = match uAt 4 q 0 with
    | some n => pure n
    | none => Py.raise .structError := ExtraData.itemSize_eq q

/-- A block, read from other bytes that are the same where it is looked at. -/
theorem piece_gap (tp : TextProc) (s : Nat) {q q' : Bytes} (hl : q.length = q'.length) (hn : ∀ n, uAt 4 q 0 = some n → q.length ≤ n)
    (hu : Same q q' (pieceUsed s q)) : Extra.asDict ⟨extraKind s, tp, q'⟩ = Extra.asDict ⟨extraKind s, tp, q⟩ := by
  unfold pieceUsed at hu
  split at hu
  · rename_i h
    subst h
    exact store_gap tp hl hu
  · split at hu
    · rename_i h
      subst h
      have k : extraKind 0xA000000C = .shellItem := by decide +kernel
      have a : slice q 0 8 = slice q' 0 8 := hu (0, 8) (.head _)
      simp only [k, Extra.asDict, Extra.size, Extra.fields, Extra.shellItemFields, Extra.shellItemIter,
        uint_same _ tp a (x := 0) (y := 4) (by omega) (by omega) (by omega), uint_cases]
      rcases hz : uAt 4 q 0 with _ | n
      · rfl
      have hd : ∀ x : Bytes, x.length ≤ n → slice x 8 n = x.drop 8 := fun x hx => by
        unfold slice
        rw [List.take_of_length_le (by rw [List.length_drop]; omega)]
      simp only [pure_res]
      rw [hd q (hn n hz), hd q' (by rw [← hl]; exact hn n hz),
        list_gap tp _ _ (by rw [List.length_drop, List.length_drop, hl]) (same_drop hl fun r hr => hu r (.tail _ hr))]
    · exact block_gap tp s hl hu

/-- Two blocks of the same size and kind about which the same is said. -/
structure Alike (tp : TextProc) (p p' : Piece) : Prop where
  declared : p.declared = p'.declared
  signature : p.signature = p'.signature
  said : ∀ s, p.signature = some s → Extra.asDict ⟨extraKind s, tp, p'.bytes⟩ = Extra.asDict ⟨extraKind s, tp, p.bytes⟩

theorem blocks_gap (tp : TextProc) (allow : Bool) (t t' : Bytes) (hl : t.length = t'.length) (hu : Same t t' (blocksUsed allow t)) :
    ∃ l l' last last', Cut t l last ∧ Cut t' l' last' ∧ List.Forall₂ (Alike tp) l l' ∧ last.length = last'.length ∧
      uAt 4 last 0 = uAt 4 last' 0 ∧ (allow = true → 4 < last.length → last = last') := by
  generalize hm : t.length = m
  induction m using Nat.strong_induction_on generalizing t t' with
  | _ m ih =>
    rw [blocksUsed] at hu
    split at hu
    · rename_i hn
      have hn' : uAt 4 t' 0 = none := by
        rw [uAt_eq_none_iff] at hn ⊢
        omega
      have := uAt_eq_none_iff.1 hn
      exact ⟨[], [], t, t', .stop (.inl hn), .stop (.inl hn'), .nil, hl, by rw [hn, hn'], fun _ h => by omega⟩
    · rename_i n hn
      split at hu
      · rename_i h0
        subst h0
        have h4 := ExtraData.uAt_some_length hn
        have a : slice t 0 4 = slice t' 0 4 := by
          cases allow with
          | false => exact hu (0, 4) (.head _)
          | true => rw [same_whole hl (hu (0, t.length) (.head _))]
        have hn' := TextGaps.uAt_same (n := 4) (s := 0) hl a
        rw [hn] at hn'
        refine ⟨[], [], t, t', .stop (.inr hn), .stop (.inr hn'), .nil, hl, by rw [hn, hn'], ?_⟩
        rintro rfl -
        exact (same_whole hl (hu (0, t.length) (.head _))).symm
      · rename_i h0
        have h4 := ExtraData.uAt_some_length hn
        have a : slice t 0 8 = slice t' 0 8 := hu (0, 8) (.head _)
        have hn' := TextGaps.uAt_same (n := 4) (s := 0) hl (slice_part a (by omega) (by omega) (by omega)).symm
        have hs' := TextGaps.uAt_same (n := 4) (s := 4) hl (slice_part a (by omega) (by omega) (by omega)).symm
        rw [hn] at hn'
        have hd : Same (t.drop n) (t'.drop n) (blocksUsed allow (t.drop n)) :=
          same_drop hl fun r hr => hu r (List.mem_append.2 (.inr hr))
        obtain ⟨l, l', last, last', c1, c2, c3, c4⟩ := ih _ (by rw [List.length_drop]; omega) _ _ (by simp [hl]) hd rfl
        refine ⟨_, _, last, last', .block hn h0 c1, .block hn' h0 c2, .cons ⟨rfl, hs'.symm, fun s hs => ?_⟩ c3, c4⟩
        dsimp only at hs ⊢
        refine piece_gap tp s (by simp [hl]) (fun k hk => ?_) ?_
        · have := ExtraData.uAt_some_length hk
          rw [List.length_take] at this
          rw [ExtraData.uAt_take 4 t 0 n (by omega) (by omega), hn] at hk
          cases hk
          rw [List.length_take]
          omega
        · have hp : Same t t' (inside 0 n (pieceUsed s (t.take n))) := fun r hr =>
            hu r (List.mem_append.2 (.inl (.tail _ (by rw [hs]; exact hr))))
          have := same_inside hp
          simpa [slice] using this

theorem loop_alike {xs ys : List Extra} (h : List.Forall₂ (fun x y => x.cls = y.cls ∧ y.asDict = x.asDict) xs ys) (res : Dict) :
    ExtraData.asDictLoop ys res = ExtraData.asDictLoop xs res := by
  induction h generalizing res with
  | nil => rfl
  | cons h _ ih =>
    rw [ExtraData.asDictLoop, ExtraData.asDictLoop]
    simp only [h.1, h.2, ih]

theorem objects_alike {tp : TextProc} {l l' : List Piece} (h : List.Forall₂ (Alike tp) l l') :
    List.Forall₂ (fun x y => x.cls = y.cls ∧ y.asDict = x.asDict) (ExtraData.objects tp l) (ExtraData.objects tp l') ∧
    (ExtraData.signed l).map Piece.declared = (ExtraData.signed l').map Piece.declared ∧
    (l.filterMap fun p => if p.signature = none then some Warn.extraSignature else none) =
      l'.filterMap fun p => if p.signature = none then some Warn.extraSignature else none := by
  induction h with
  | nil => exact ⟨.nil, rfl, rfl⟩
  | @cons p p' l l' h _ ih =>
    obtain ⟨i1, i2, i3⟩ := ih
    have hs := h.signature
    rcases hp : p.signature with _ | s
    · rw [hp] at hs
      refine ⟨?_, ?_, ?_⟩
      · simpa [ExtraData.objects, hp, ← hs] using i1
      · simpa [ExtraData.signed, hp, ← hs] using i2
      · simpa [hp, ← hs] using i3
    · rw [hp] at hs
      refine ⟨?_, ?_, ?_⟩
      · have := List.Forall₂.cons (R := fun x y : Extra => x.cls = y.cls ∧ y.asDict = x.asDict) (a := (⟨extraKind s, tp, p.bytes⟩ : Extra))
          (b := ⟨extraKind s, tp, p'.bytes⟩) ⟨rfl, h.said s hp⟩ i1
        simpa [ExtraData.objects, hp, ← hs] using this
      · simp only [ExtraData.signed, List.filter_cons, hp, ← hs, Option.isSome_some, if_true, List.map_cons, h.declared]
        congr 1
      · simpa [hp, ← hs] using i3

/-- The extra data. -/
theorem extras_gap (tp : TextProc) (allow : Bool) {t t' : Bytes} (hl : t.length = t'.length) (hu : Same t t' (blocksUsed allow t)) :
    ∃ w xs ys, ExtraData.init tp allow t = ⟨w, .ok ⟨xs⟩⟩ ∧ ExtraData.init tp allow t' = ⟨w, .ok ⟨ys⟩⟩ ∧
      ExtraData.size ⟨ys⟩ = ExtraData.size ⟨xs⟩ ∧ ExtraData.asDict ⟨ys⟩ = ExtraData.asDict ⟨xs⟩ := by
  obtain ⟨l, l', last, last', c1, c2, c3, c4, c5, c6⟩ := blocks_gap tp allow t t' hl hu
  obtain ⟨o1, o2, o3⟩ := objects_alike c3
  have hT : (if allow = true ∧ 4 < last'.length then [(⟨.terminal, tp, last'⟩ : Extra)] else []) =
      if allow = true ∧ 4 < last.length then [⟨.terminal, tp, last⟩] else [] := by
    rw [← c4]
    split
    · rename_i h
      rw [c6 h.1 h.2]
    · rfl
  refine ⟨_, _, ExtraData.objects tp l' ++ if allow = true ∧ 4 < last'.length then [⟨.terminal, tp, last'⟩] else [], ExtraData.init_cut c1, ?_, ?_, ?_⟩
  · rw [ExtraData.init_cut c2]
    unfold ExtraData.cutWarns
    have : last = [] ↔ last' = [] := by rw [← List.length_eq_zero_iff, ← List.length_eq_zero_iff, c4]
    rw [o3, c5]
    simp only [ne_eq, this]
  · rw [ExtraData.size_cut c1, ExtraData.size_cut c2, o2, ← c4]
    have : ∀ l : List Piece, (∀ p ∈ ExtraData.signed l, 4 ≤ p.declared) ↔ ∀ n ∈ (ExtraData.signed l).map Piece.declared, 4 ≤ n := fun l => by simp
    simp only [this, o2]
  · rw [hT]
    refine loop_alike (List.rel_append o1 ?_) []
    exact List.forall₂_same.2 fun x _ => ⟨rfl, rfl⟩

/-! ### the sections -/

theorem take_slices (h : slice b 0 76 = slice b' 0 76) {n s e : Nat} (he : e ≤ 76) : slice (b.take n) s e = slice (b'.take n) s e := by
  have k : ∀ x : Bytes, slice (x.take n) s e = ((slice x 0 76).take (min e n)).drop s := fun x => by
    unfold slice
    rw [← List.drop_take, List.take_take, List.drop_zero, List.take_take, Nat.sub_zero, show min (min e n) 76 = min e n by omega]
  rw [k, k, h]

theorem layout_gap {L : Layout} (hlen : b.length = b'.length) (hl : layout b = some L) (h76 : slice b 0 76 = slice b' 0 76)
    (ht : L.flags.testBit 0 = true → slice b L.headerSize (L.headerSize + 2) = slice b' L.headerSize (L.headerSize + 2))
    (hi : infoAnnounced L.flags = true → uAt 4 b' L.infoAt = uAt 4 b L.infoAt ∧ infoLocation b' L.infoAt = infoLocation b L.infoAt)
    (hu : Same b b' (stringsUsed L.flags b stringLimits L.stringsAt)) : layout b' = some L := by
  unfold layout at hl
  rcases h0 : uAt 4 b 0 with _ | hs
  · rw [h0] at hl; cases hl
  rw [h0] at hl
  dsimp only at hl
  rcases h1 : uAt 4 (b.take hs) 20 with _ | flags
  · rw [h1] at hl; cases hl
  rw [h1] at hl
  dsimp only at hl
  rcases h2 : (if flags.testBit 0 then (uAt 2 b hs).map fun n => hs + 2 + n else some hs) with _ | infoAt
  · rw [h2] at hl; cases hl
  rw [h2] at hl
  dsimp only at hl
  generalize hS : (if infoAnnounced flags && (infoLocation b infoAt).isSome then infoAt + (uAt 4 b infoAt).getD 0
    else infoAt) = stringsAt at hl
  cases hl
  dsimp only at ht hi hu
  have e0 : uAt 4 b' 0 = some hs := by
    rw [← h0]
    exact TextGaps.uAt_same hlen (slice_part h76 (by omega) (by omega) (by omega)).symm
  have e1 : uAt 4 (b'.take hs) 20 = some flags := by
    rw [← h1]
    exact TextGaps.uAt_same (by simp [hlen]) (take_slices h76 (by omega))
  have e3 : (if flags.testBit 0 then (uAt 2 b' hs).map fun n => hs + 2 + n else some hs) = some infoAt := by
    rw [← h2]
    split
    · rename_i hb
      rw [TextGaps.uAt_same hlen (ht hb)]
    · rfl
  have hS' : (if infoAnnounced flags && (infoLocation b' infoAt).isSome then infoAt + (uAt 4 b' infoAt).getD 0
      else infoAt) = stringsAt := by
    cases ha : infoAnnounced flags with
    | false =>
      rw [ha] at hS
      simpa using hS
    | true =>
      obtain ⟨i1, i2⟩ := hi ha
      rw [ha, ← i1, ← i2] at hS
      exact hS
  unfold layout
  rw [e0]
  dsimp only
  rw [e1]
  dsimp only
  rw [e3]
  dsimp only
  rw [hS', TextGaps.stringsEnd_gap flags hlen _ _ hu]

/-- The object read from the other bytes. -/
def other (env : Env) (cp : Option String) (b' : Bytes) (L : Layout) (ys : List Extra) (f : LnkFile) : LnkFile :=
  { Hidden.replaced env cp b' L f with
    header := ⟨b'.take L.headerSize⟩
    extras := ⟨ys⟩ }

theorem process_gap (env : Env) (cp : Option String) (ht : Log.Tame (TextProc.mk' env cp)) (allow : Bool) {L : Layout}
    (hlen : b.length = b'.length) (hl : layout b = some L) (hl' : layout b' = some L) (h76 : slice b 0 76 = slice b' 0 76)
    (hi : infoAnnounced L.flags = true → uAt 4 b' (L.infoAt + 8) = uAt 4 b (L.infoAt + 8))
    (hu : Same b b' (stringsUsed L.flags b stringLimits L.stringsAt))
    (hx : Same (b.drop L.extraAt) (b'.drop L.extraAt) (blocksUsed allow (b.drop L.extraAt))) :
    ∃ xs ys, LnkFile.process env cp allow b' = (do
      let f ← LnkFile.process env cp allow b
      pure (other env cp b' L ys f)) ∧ ExtraData.asDict ⟨ys⟩ = ExtraData.asDict ⟨xs⟩ ∧
      ∀ f, (LnkFile.process env cp allow b).res = .ok f → f.header = ⟨b.take L.headerSize⟩ ∧ f.extras = ⟨xs⟩ := by
  obtain ⟨-, -, hfl, hex, hp⟩ := LnkFile.process_rest env cp allow b L hl
  obtain ⟨-, -, -, -, hp'⟩ := LnkFile.process_rest env cp allow b' L hl'
  have hw : (infoAnnounced L.flags = true ∧ uAt 4 b' (L.infoAt + 8) = none) ↔ (infoAnnounced L.flags = true ∧ uAt 4 b (L.infoAt + 8) = none) :=
    and_congr_right fun ha => by rw [hi ha]
  obtain ⟨w, xs, ys, e1, e2, e3, e4⟩ := extras_gap (TextProc.mk' env cp) allow (by simp [hlen]) hx
  refine ⟨xs, ys, ?_, e4, fun f hf => ?_⟩
  · rw [hp, hp']
    simp only [bind_assoc, hw]
    congr 1; funext _
    congr 1; funext _
    congr 1; funext _
    unfold LnkFile.rest
    simp only [bind_assoc, pure_bind]
    rw [header_strings (h := ⟨b.take L.headerSize⟩) (h' := ⟨b'.take L.headerSize⟩) fun s e he => take_slices h76 (by omega),
      TextGaps.init_gap hfl _ _ hlen hu]
    refine bind_congr_ok fun sd hsd => ?_
    have hz := ((StringData.init_logs hfl ht b L.stringsAt).2 sd hsd).1
    rw [hz, ← hex, e1, e2]
    simp only [bind, Py.andThen, e3]
    rcases ExtraData.size ⟨xs⟩ with ⟨w', e | n⟩
    · rfl
    · simp only [List.length_drop, hlen, pure, Py.ret]
      rfl
  · rw [hp] at hf
    obtain ⟨_, -, hf⟩ := bind_ok_iff.1 hf
    obtain ⟨_, -, hf⟩ := bind_ok_iff.1 hf
    obtain ⟨_, -, hf⟩ := bind_ok_iff.1 hf
    unfold LnkFile.rest at hf
    obtain ⟨sd, hsd, hf⟩ := bind_ok_iff.1 hf
    have hz := ((StringData.init_logs hfl ht b L.stringsAt).2 sd hsd).1
    obtain ⟨ex, hx', hf⟩ := bind_ok_iff.1 hf
    obtain ⟨_, -, hf⟩ := bind_ok_iff.1 hf
    rw [hz, ← hex, e1] at hx'
    cases hx'
    cases hf
    exact ⟨rfl, rfl⟩

end Footprint

end Verif
