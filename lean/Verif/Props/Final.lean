import Verif.Props.Trailer
import Verif.Props.OpenEnd

/-
C102: whether the size of a file is the same whatever bytes follow it.
-/

namespace Verif.Props

open Spec Log Trailer

namespace Final

/-- The bytes the blocks of extra data are counted as, with the terminal block. -/
def counted (l : List Piece) (n : Nat) : Nat :=
  ((ExtraData.signed l).map Piece.declared).sum + min (n - ((ExtraData.signed l).map Piece.declared).sum) 4

theorem counted_ge (l : List Piece) (n : Nat) : min n 4 ≤ counted l n := by
  unfold counted
  omega

theorem counted_cons {p : Piece} (hp : p.signature.isSome) (l : List Piece) (n : Nat) :
    counted (p :: l) n = p.declared + counted l (n - p.declared) := by
  unfold counted ExtraData.signed
  rw [List.filter_cons_of_pos (p := fun p : Piece => p.signature.isSome) hp]
  simp only [List.map_cons, List.sum_cons]
  omega

/-- Fewer than eight bytes have no signed block. -/
theorem short_unsigned {b : Bytes} {l : List Piece} {last : Bytes} (h : Cut b l last) (hb : b.length < 8) : ExtraData.signed l = [] := by
  induction h with
  | stop h => rfl
  | @block b n l last h hn hl ih =>
    have := ih (by rw [List.length_drop]; omega)
    have h8 : uAt 4 b 4 = none := uAt_eq_none_iff.2 (by omega)
    unfold ExtraData.signed at this ⊢
    rw [List.filter_cons_of_neg (by simp [h8]), this]

/-- Without a terminal block, or with a block that has no signature, zeros behind the extra data count. -/
theorem zeros_count {b : Bytes} {l : List Piece} {last : Bytes} (h : Cut b l last) (ho : ¬ (4 ≤ last.length ∧ ∀ p ∈ l, p.signature.isSome)) :
    ∃ N, ∀ M, N ≤ M → ∀ l' last', Cut (b ++ List.replicate M 0) l' last' → counted l b.length < counted l' (b.length + M) := by
  induction h with
  | @stop b h =>
    have hb : b.length < 4 := by
      refine Decidable.byContradiction fun hn => ho ⟨by omega, by simp⟩
    refine ⟨4, fun M hM l' last' hc => ?_⟩
    have h1 := counted_ge l' (b.length + M)
    have h2 : counted [] b.length = b.length := by
      unfold counted ExtraData.signed
      simp
      omega
    omega
  | @block b n l last h hn hl ih =>
    rcases hu : uAt 4 b 4 with _ | s
    · have h8 := uAt_eq_none_iff.1 hu
      have h4 := ExtraData.uAt_some_length h
      have hs := short_unsigned (Cut.block h hn hl) (by omega)
      refine ⟨n + 8, fun M hM l' last' hc => ?_⟩
      have h1 : counted (⟨n, b.take n, uAt 4 b 4⟩ :: l) b.length ≤ 4 := by
        unfold counted
        rw [hs]
        simp
      rw [hu] at h1
      cases hc with
      | stop h' =>
        rw [uAt_some_more _ h] at h'
        simp [hn] at h'
      | @block _ m l' _ h' hm hl' =>
        rw [uAt_some_more _ h] at h'
        cases h'
        have hsig : (uAt 4 (b ++ List.replicate M 0) 4).isSome := by
          rcases hv : uAt 4 (b ++ List.replicate M 0) 4 with _ | v
          · have := uAt_eq_none_iff.1 hv
            simp at this
            omega
          · rfl
        rw [counted_cons (p := ⟨n, _, uAt 4 (b ++ List.replicate M 0) 4⟩) hsig]
        have := counted_ge l' (b.length + M - n)
        dsimp only
        omega
    · have hs8 := ExtraData.uAt_some_length hu
      rw [hu] at ho
      by_cases hnb : n ≤ b.length
      · obtain ⟨N, ih⟩ := ih fun hx => ho ⟨hx.1, by simpa using hx.2⟩
        refine ⟨N, fun M hM l' last' hc => ?_⟩
        cases hc with
        | stop h' =>
          rw [uAt_some_more _ h] at h'
          simp [hn] at h'
        | @block _ m l' _ h' hm hl' =>
          rw [uAt_some_more _ h] at h'
          cases h'
          rw [List.drop_append_of_le_length hnb] at hl'
          have := ih M hM _ _ hl'
          rw [List.length_drop] at this
          rw [counted_cons (by rfl), counted_cons (by rw [uAt_some_more _ hu]; rfl)]
          dsimp only
          rw [show b.length + M - n = b.length - n + M by omega]
          omega
      · refine ⟨n + 4, fun M hM l' last' hc => ?_⟩
        have he : b.drop n = [] := List.drop_eq_nil_of_le (by omega)
        rw [he] at hl
        cases hl with
        | block h' _ _ => simp [uAt] at h'
        | stop _ =>
          cases hc with
          | stop h' =>
            rw [uAt_some_more _ h] at h'
            simp [hn] at h'
          | @block _ m l' _ h' hm hl' =>
            rw [uAt_some_more _ h] at h'
            cases h'
            rw [counted_cons (by rfl), counted_cons (by rw [uAt_some_more _ hu]; rfl)]
            have := counted_ge l' (b.length + M - n)
            have h0 : counted [] (b.length - n) = 0 := by
              unfold counted ExtraData.signed
              simp
              omega
            dsimp only
            omega

/-- A missing string begins at the end of the bytes; with room for its length the strings are longer. -/
theorem strings_grow (flags : Nat) (b t : Bytes) (fs : List (Nat × Nat)) (pos : Nat) (hc : stringsCut flags b fs pos = true) :
    b.length < stringsEnd flags b fs pos + 2 ∧
      (stringsEnd flags b fs pos + 2 ≤ (b ++ t).length → stringsEnd flags b fs pos + 2 ≤ stringsEnd flags (b ++ t) fs pos) := by
  induction fs generalizing pos with
  | nil => cases hc
  | cons p fs ih =>
    obtain ⟨bit, limit⟩ := p
    unfold stringsCut at hc
    unfold stringsEnd
    by_cases hb : flags.testBit bit = true
    · rw [if_pos hb] at hc
      rw [if_pos hb, if_pos hb]
      rcases hu : uAt 2 b pos with _ | n
      · dsimp only
        refine ⟨uAt_eq_none_iff.1 hu, fun hl => ?_⟩
        rcases hv : uAt 2 (b ++ t) pos with _ | m
        · have := uAt_eq_none_iff.1 hv
          omega
        · have := HowMany.stringsEnd_le flags (b ++ t) fs (pos + 2 + min m limit * if flags.testBit 7 then 2 else 1)
          dsimp only
          omega
      · rw [hu] at hc
        rw [uAt_some_more t hu]
        exact ih _ hc
    · rw [if_neg hb] at hc
      rw [if_neg hb, if_neg hb]
      exact ih _ hc

/-- The strings begin at the same place, whatever follows. -/
theorem layout_grow {b : Bytes} {L : Layout} (t : Bytes) (h : layout b = some L)
    (hi : infoAnnounced L.flags = true → L.infoAt + 12 ≤ b.length) :
    ∃ L', layout (b ++ t) = some L' ∧ L'.flags = L.flags ∧ L'.stringsAt = L.stringsAt := by
  unfold layout at h
  rcases h0 : uAt 4 b 0 with _ | hs
  · rw [h0] at h; cases h
  rw [h0] at h
  dsimp only at h
  rcases h1 : uAt 4 (b.take hs) 20 with _ | flags
  · rw [h1] at h; cases h
  rw [h1] at h
  dsimp only at h
  rcases h2 : (if flags.testBit 0 then (uAt 2 b hs).map fun n => hs + 2 + n else some hs) with _ | infoAt
  · rw [h2] at h; cases h
  rw [h2] at h
  dsimp only at h
  generalize hS : (if infoAnnounced flags && (infoLocation b infoAt).isSome then infoAt + (uAt 4 b infoAt).getD 0
    else infoAt) = stringsAt at h
  cases h
  dsimp only at hi ⊢
  have hloc : infoAnnounced flags = true → infoLocation (b ++ t) infoAt = infoLocation b infoAt := by
    intro ha
    unfold infoLocation
    rw [uAt_more t (by have := hi ha; omega)]
  unfold layout
  rw [uAt_some_more t h0]
  dsimp only
  rw [List.take_append, uAt_some_more _ h1]
  dsimp only
  have h2' : (if flags.testBit 0 then (uAt 2 (b ++ t) hs).map fun n => hs + 2 + n else some hs) = some infoAt := by
    rw [← h2]
    split
    · rename_i hb
      rw [if_pos hb] at h2
      obtain ⟨n, hn, -⟩ := Option.map_eq_some_iff.1 h2
      rw [uAt_some_more t hn, hn]
    · rfl
  rw [h2']
  dsimp only
  have hS' : (if infoAnnounced flags && (infoLocation (b ++ t) infoAt).isSome then infoAt + (uAt 4 (b ++ t) infoAt).getD 0
      else infoAt) = stringsAt := by
    rw [← hS]
    cases ha : infoAnnounced flags with
    | false => rfl
    | true => rw [hloc ha, uAt_more t (by have := hi ha; omega)]
  rw [hS']
  exact ⟨_, rfl, rfl, rfl⟩

/-- The size, from the places of the sections and the blocks. -/
theorem size_counted {env : Env} {cp : Option String} (ht : Tame (TextProc.mk' env cp)) {b : Bytes} {f : LnkFile}
    (hf : (LnkFile.process env cp false b).res = .ok f) {L : Layout} (hL : layout b = some L) {l : List Piece} {last : Bytes}
    (hc : Cut (b.drop L.extraAt) l last) :
    f.size = L.extraAt + counted l (b.length - L.extraAt) ∧ ∀ p ∈ ExtraData.signed l, 4 ≤ p.declared := by
  obtain ⟨L', l', last', h1, h2, hP, h4⟩ := LnkFile.parts_tame ht hf
  rw [hL] at h1
  cases h1
  obtain ⟨rfl, rfl⟩ := cut_unique hc h2
  obtain ⟨n, hn, hsz⟩ := hP.size
  simp only [Bool.false_eq_true, false_and, if_false] at hn
  refine ⟨?_, h4⟩
  unfold counted
  omega

end Final

open Final in
/-- C102: with terminal blocks not allowed, the size of an accepted file is the same whatever bytes follow it exactly if it has a terminal
block and all its blocks of extra data have a signature. -/
theorem size_final_iff (env : Env) (cp : Option String) (ht : Tame (TextProc.mk' env cp)) (b : Bytes) (f : LnkFile)
    (hf : (LnkFile.init env cp false (.indata b)).res = .ok f) (L : Layout) (hL : layout b = some L) (l : List Piece) (last : Bytes)
    (hc : Cut (b.drop L.extraAt) l last) (hi : infoAnnounced L.flags = true → L.infoAt + 12 ≤ b.length) :
    (∀ t, ∃ g, (LnkFile.init env cp false (.indata (b ++ t))).res = .ok g ∧ g.size = f.size) ↔
      4 ≤ last.length ∧ ∀ p ∈ l, p.signature.isSome := by
  replace hf := LnkFile.init_ok hf
  change (LnkFile.process env cp false b).res = .ok f at hf
  obtain ⟨hsz, hd⟩ := size_counted ht hf hL hc
  constructor
  · intro hall
    refine Decidable.byContradiction fun ho => ?_
    have key : ∃ t : Bytes, ∀ L' l' last', layout (b ++ t) = some L' → Cut ((b ++ t).drop L'.extraAt) l' last' →
        f.size < L'.extraAt + counted l' ((b ++ t).length - L'.extraAt) := by
      cases hsc : stringsCut L.flags b stringLimits L.stringsAt with
      | true =>
        refine ⟨List.replicate (L.extraAt + 2) 0, fun L' l' last' hL' hc' => ?_⟩
        obtain ⟨h1, h2⟩ := strings_grow L.flags b (List.replicate (L.extraAt + 2) 0) stringLimits L.stringsAt hsc
        obtain ⟨L'', e, e1, e2⟩ := layout_grow (List.replicate (L.extraAt + 2) 0) hL hi
        rw [hL'] at e
        cases e
        have h3 := layout_extra hL'
        rw [e1, e2] at h3
        rw [← layout_extra hL] at h1 h2
        rw [← h3] at h2
        have h2 := h2 (by simp)
        have h4 := short_unsigned hc (by rw [List.length_drop]; omega)
        have : counted l (b.length - L.extraAt) ≤ 1 := by
          unfold counted
          rw [h4]
          simp
          omega
        omega
      | false =>
        have hex : ∀ t L', layout (b ++ t) = some L' → L'.extraAt = L.extraAt := by
          intro t L' hL'
          obtain ⟨L'', e, e1, e2⟩ := layout_grow t hL hi
          rw [hL'] at e
          cases e
          rw [layout_extra hL', layout_extra hL, e1, e2, stringsEnd_more _ _ _ _ _ hsc]
        by_cases he : L.extraAt ≤ b.length
        · obtain ⟨N, hN⟩ := zeros_count hc ho
          refine ⟨List.replicate N 0, fun L' l' last' hL' hc' => ?_⟩
          rw [hex _ _ hL'] at hc' ⊢
          rw [List.drop_append_of_le_length he] at hc'
          have := hN N (Nat.le_refl _) _ _ hc'
          rw [List.length_drop] at this
          rw [List.length_append, List.length_replicate, show b.length + N - L.extraAt = b.length - L.extraAt + N by omega]
          omega
        · refine ⟨List.replicate (L.extraAt + 4) 0, fun L' l' last' hL' hc' => ?_⟩
          rw [hex _ _ hL']
          have h4 := short_unsigned hc (by rw [List.length_drop]; omega)
          have h0 : counted l (b.length - L.extraAt) = 0 := by
            unfold counted
            rw [h4]
            simp
            omega
          have := counted_ge l' ((b ++ List.replicate (L.extraAt + 4) (0 : UInt8)).length - L.extraAt)
          rw [List.length_append, List.length_replicate] at this ⊢
          omega
    obtain ⟨t, ht'⟩ := key
    obtain ⟨g, hg, hgs⟩ := hall t
    replace hg := LnkFile.init_ok hg
    change (LnkFile.process env cp false (b ++ t)).res = .ok g at hg
    obtain ⟨L', l', last', h1, h2, -⟩ := LnkFile.parts_tame ht hg
    have := ht' _ _ _ h1 h2
    have := (size_counted ht hg h1 h2).1
    omega
  · rintro ⟨h4, hsg⟩ t
    refine ⟨extended t f, ?_, rfl⟩
    have hb : b ≠ [] := by
      rintro rfl
      simp [layout, uAt] at hL
    have : LnkFile.init env cp false (.indata (b ++ t)) = LnkFile.process env cp false (b ++ t) := if_neg (by simp [hb])
    rw [this, process_more' env cp ht hL hc h4 hsg hi t]
    rcases hp : LnkFile.process env cp false b with ⟨w, e | x⟩
    · rw [hp] at hf
      cases hf
    · rw [hp] at hf
      obtain rfl := Except.ok.inj hf
      rfl

/-- C102: for a file that announces no link info, nothing changes whatever bytes follow exactly if it is complete. -/
theorem complete_iff (env : Env) (cp : Option String) (ht : Tame (TextProc.mk' env cp)) (b : Bytes) (f : LnkFile)
    (hf : (LnkFile.init env cp false (.indata b)).res = .ok f) (L : Layout) (hL : layout b = some L) (l : List Piece) (last : Bytes)
    (hc : Cut (b.drop L.extraAt) l last) (hi : infoAnnounced L.flags = false) :
    (∀ t, ∃ g, LnkFile.init env cp false (.indata (b ++ t)) = ⟨(LnkFile.init env cp false (.indata b)).warns, .ok g⟩ ∧ g.size = f.size ∧
      g.lnkCommand = f.lnkCommand ∧ ∀ all, g.getJson all = f.getJson all ∧ g.printJson all = f.printJson all ∧
        g.niceJson all = f.niceJson all) ↔ Complete b L l last := by
  constructor
  · intro h
    obtain ⟨h1, h2⟩ := (size_final_iff env cp ht b f hf L hL l last hc (by rw [hi]; simp)).1 fun t => by
      obtain ⟨g, hg, hs, -⟩ := h t
      exact ⟨g, by rw [hg], hs⟩
    exact ⟨hL, hc, h1, h2, by rw [hi]; simp⟩
  · intro hC t
    obtain ⟨h1, -, h3⟩ := trailing_bytes_ignored env cp ht b t L l last hC (.indata b) (.indata (b ++ t)) rfl rfl
    obtain ⟨g, hg, h⟩ := h3 f hf
    refine ⟨g, ?_, h⟩
    rw [← h1, ← hg]

/-- The bytes of the extra data that are not counted when the data behind the terminal block are: those of a block without signature. -/
theorem Final.covered {b : Bytes} {l : List Piece} {last : Bytes} (h : Cut b l last) :
    b.length ≤ ((ExtraData.signed l).map Piece.declared).sum + (if 4 < last.length then last.length else 0) + 7 := by
  induction h with
  | stop h =>
    split <;> omega
  | @block b n l last h hn hl ih =>
    rcases hu : uAt 4 b 4 with _ | s
    · have := uAt_eq_none_iff.1 hu
      omega
    · rw [List.length_drop] at ih
      have : ExtraData.signed (⟨n, b.take n, some s⟩ :: l) = ⟨n, b.take n, some s⟩ :: ExtraData.signed l := rfl
      rw [this]
      simp only [List.map_cons, List.sum_cons]
      omega

/-- C102: with terminal blocks allowed the size grows with the file, so it is never final: behind every file there can be bytes that change it. -/
theorem size_never_final (env : Env) (cp : Option String) (ht : Tame (TextProc.mk' env cp)) (b : Bytes) :
    (∀ f, (LnkFile.init env cp true (.indata b)).res = .ok f → b.length ≤ f.size + 7) ∧
      ∀ n, ∃ t, ∀ g, (LnkFile.init env cp true (.indata (b ++ t))).res = .ok g → n < g.size := by
  have key : ∀ (b : Bytes) f, (LnkFile.init env cp true (.indata b)).res = .ok f → b.length ≤ f.size + 7 := by
    intro b f hf
    replace hf := LnkFile.init_ok hf
    obtain ⟨L, l, last, -, hc, hP, -⟩ := LnkFile.parts_tame ht hf
    obtain ⟨n, hn, hsz⟩ := hP.size
    simp only [true_and] at hn
    have := Final.covered hc
    rw [List.length_drop] at this
    change f.size = n + min (b.length - n) 4 at hsz
    simp only [Source.bytes] at this
    omega
  refine ⟨key b, fun n => ⟨List.replicate (n + 8) 0, fun g hg => ?_⟩⟩
  have := key _ g hg
  simp at this
  omega

/-- A file with link info, a string, a block and the terminal block: its size is final. -/
example (env : Env) (cp : Option String) (ht : Tame (TextProc.mk' env cp)) (f : LnkFile)
    (hf : (LnkFile.init env cp false (.indata sharedText)).res = .ok f) :
    ∀ t, ∃ g, (LnkFile.init env cp false (.indata (sharedText ++ t))).res = .ok g ∧ g.size = f.size :=
  (size_final_iff env cp ht sharedText f hf _ sharedText_complete.layout _ _ sharedText_complete.cut fun h =>
    (sharedText_complete.info h).1).2 ⟨sharedText_complete.terminal, sharedText_complete.signed⟩

/-- A header and a block, no terminal block: some bytes behind them change the size. -/
example (env : Env) (cp : Option String) (ht : Tame (TextProc.mk' env cp)) (f : LnkFile)
    (hf : (LnkFile.init env cp false (.indata oneBlock)).res = .ok f) :
    ¬ ∀ t, ∃ g, (LnkFile.init env cp false (.indata (oneBlock ++ t))).res = .ok g ∧ g.size = f.size := by
  rw [size_final_iff env cp ht oneBlock f hf _ oneBlock_open.layout _ _ oneBlock_open.cut fun h => (oneBlock_open.info h).1]
  simp

/-- Both files are accepted. -/
example (env : Env) : (∃ f, (LnkFile.init env none false (.indata sharedText)).res = .ok f) ∧
    ∃ f, (LnkFile.init env none false (.indata oneBlock)).res = .ok f := by
  refine ⟨(constructor_outcome env none (usable_default env) false (.indata sharedText)).1.2 ?_,
    (constructor_outcome env none (usable_default env) false (.indata oneBlock)).1.2 ?_⟩
  · refine ⟨⟨76, 6, by decide +kernel, by decide +kernel, by decide +kernel, by decide +kernel⟩, ?_⟩
    intro L l last hL hc p hp hs
    simp only [Source.bytes] at hL hc
    rw [sharedText_complete.layout] at hL
    cases hL
    obtain ⟨rfl, -⟩ := cut_unique hc sharedText_complete.cut
    obtain rfl := List.mem_singleton.1 hp
    decide
  · refine ⟨⟨76, 0, by decide +kernel, by decide, by decide +kernel, by decide +kernel⟩, ?_⟩
    intro L l last hL hc p hp hs
    simp only [Source.bytes] at hL hc
    rw [oneBlock_open.layout] at hL
    cases hL
    obtain ⟨rfl, -⟩ := cut_unique hc oneBlock_open.cut
    obtain rfl := List.mem_singleton.1 hp
    decide

/-- A terminal block behind a block without signature is not enough: six zeros behind a 1. -/
example : ∃ l last, Cut ([1, 0, 0, 0, 0, 0, 0] : Bytes) l last ∧ 4 ≤ last.length ∧ ¬ ∀ p ∈ l, p.signature.isSome :=
  ⟨_, _, .block (n := 1) (by decide +kernel) (by decide) (.stop (.inr (by decide +kernel))), by decide, by
    intro h
    have := h _ List.mem_cons_self
    revert this
    decide +kernel⟩

end Verif.Props
