import Verif.Lemmas.Footprint
import Verif.Props.Hidden

/-
C100: all bytes of a file that are looked at.
-/

namespace Verif.Props

open Spec Py Log Hidden Footprint

/-- C100: bytes that are outside of all stretches listed by `fileUsed` can be anything, at any number of places at once and in any file. -/
theorem file_gaps (env : Env) (cp : Option String) (allow : Bool) (ht : Tame (TextProc.mk' env cp)) (b b' : Bytes) (L : Layout)
    (hL : Spec.layout b = some L) (hlen : b.length = b'.length)
    (hd : ∀ k, b[k]? = b'[k]? ∨ ∀ r ∈ fileUsed allow b L, k < r.1 ∨ r.2 ≤ k)
    (src src' : Source) (hs : src.bytes = b) (hs' : src'.bytes = b') : NothingSeen env cp allow src src' := by
  have hS : Same b b' (fileUsed allow b L) := by
    intro r hr
    refine List.ext_getElem? fun k => ?_
    unfold slice
    rw [List.getElem?_take, List.getElem?_take]
    split
    · rw [List.getElem?_drop, List.getElem?_drop]
      rcases hd (r.1 + k) with hk | hk
      · exact hk
      · have := hk r hr
        omega
    · rfl
  unfold fileUsed at hS
  have h76 : slice b 0 76 = slice b' 0 76 := hS (0, 76) (by simp)
  have hT : L.flags.testBit 0 = true → slice b L.headerSize (L.headerSize + 2) = slice b' L.headerSize (L.headerSize + 2) ∧
      Same b b' (inside (L.headerSize + 2) (L.infoAt - (L.headerSize + 2)) (listUsed (between b (L.headerSize + 2) L.infoAt))) := by
    intro hb
    rw [hb, if_pos rfl] at hS
    exact ⟨hS (L.headerSize, L.headerSize + 2) (by simp), fun r hr => hS r (by simp [hr])⟩
  have hI : infoAnnounced L.flags = true → slice b L.infoAt (L.infoAt + 12) = slice b' L.infoAt (L.infoAt + 12) ∧
      ∀ kind, infoLocation b L.infoAt = some kind → Same b b' (inside L.infoAt (b.length - L.infoAt) (infoUsed (b.drop L.infoAt) kind)) := by
    intro ha
    rw [ha, if_pos rfl] at hS
    refine ⟨hS (L.infoAt, L.infoAt + 12) (by simp), fun kind hk r hr => hS r ?_⟩
    rw [hk]
    simp [hr]
  have hu : Same b b' (stringsUsed L.flags b stringLimits L.stringsAt) := fun r hr => hS r (by simp [hr])
  have hx : Same (b.drop L.extraAt) (b'.drop L.extraAt) (blocksUsed allow (b.drop L.extraAt)) :=
    same_drop hlen fun r hr => hS r (by simp [hr])
  have hi : infoAnnounced L.flags = true → uAt 4 b' L.infoAt = uAt 4 b L.infoAt ∧ uAt 4 b' (L.infoAt + 8) = uAt 4 b (L.infoAt + 8) := fun ha =>
    ⟨TextGaps.uAt_same hlen (Gaps.slice_part (hI ha).1 (by omega) (by omega) (by omega)).symm,
      TextGaps.uAt_same hlen (Gaps.slice_part (hI ha).1 (by omega) (by omega) (by omega)).symm⟩
  have hloc : infoAnnounced L.flags = true → infoLocation b' L.infoAt = infoLocation b L.infoAt := fun ha => by
    unfold infoLocation
    rw [(hi ha).2]
  have hL' := layout_gap hlen hL h76 (fun hb => (hT hb).1) (fun ha => ⟨(hi ha).1, hloc ha⟩) hu
  obtain ⟨xs, ys, hp, hxy, hh⟩ := process_gap env cp ht allow hlen hL hL' h76 (fun ha => (hi ha).2) hu hx
  refine nothing_seen' (P := LnkFile.process env cp allow b) (g := id) (g' := other env cp b' L ys)
    (by rw [hs]; exact not_nil hL) (by rw [hs']; exact not_nil hL') (by rw [hs]; exact (bind_pure _).symm) (by rw [hs']; exact hp) fun f hf => ?_
  obtain ⟨L₁, l, last, h1, -, hP, -⟩ := LnkFile.parts_tame ht hf
  rw [hL] at h1
  cases h1
  obtain ⟨hh1, hh2⟩ := hh f hf
  refine ⟨rfl, Gaps.header_same (f := f) fun s e he => ?_, rfl, ?_, ?_, ?_⟩
  · rw [hh1]
    exact take_slices h76 he
  · have htg := hP.targets
    have hg : (other env cp b' L ys f).targets = if L.flags.testBit 0 then
      some ⟨TextProc.mk' env cp, b'.drop L.headerSize, slice b' (L.headerSize + 2) L.infoAt⟩ else none := rfl
    change LnkFile.jsonTarget _ = f.jsonTarget
    unfold LnkFile.jsonTarget
    rw [hg, htg]
    cases hb : L.flags.testBit 0 with
    | false => rfl
    | true =>
      obtain ⟨t1, t2⟩ := hT hb
      have e1 : slice (b'.drop L.headerSize) 0 2 = slice (b.drop L.headerSize) 0 2 := by
        rw [Gaps.slice_drop, Gaps.slice_drop]
        exact t1.symm
      have e2 : LnkTargets.asListLoop (LnkTargets.idLists (TextProc.mk' env cp) (slice b' (L.headerSize + 2) L.infoAt)) =
          LnkTargets.asListLoop (LnkTargets.idLists (TextProc.mk' env cp) (slice b (L.headerSize + 2) L.infoAt)) := by
        have := same_inside t2
        have e : ∀ x : Bytes, slice x (L.headerSize + 2) (L.headerSize + 2 + (L.infoAt - (L.headerSize + 2))) = slice x (L.headerSize + 2) L.infoAt :=
          fun x => by unfold slice; rw [Nat.add_sub_cancel_left]
        rw [e, e] at this
        exact list_gap _ _ _ (by simp [slice, hlen]) this
      simp only [if_true, LnkTargets.idListSize, LnkTargets.idListSizeOf, LnkTargets.asList, LnkTargets.iter, e1, e2]
      rfl
  · have hinf := hP.info
    have hg : (other env cp b' L ys f).info = if infoAnnounced L.flags then
      (infoLocation b' L.infoAt).map fun c => (LnkFile.classOf c, ⟨TextProc.mk' env cp, b'.drop L.infoAt⟩) else none := rfl
    have hnone : f.info = none → (other env cp b' L ys f).info = none → (other env cp b' L ys f).jsonInfo = f.jsonInfo := by
      intro h h'
      unfold LnkFile.jsonInfo
      rw [h, h']
    cases ha : infoAnnounced L.flags with
    | false =>
      rw [ha] at hinf hg
      exact hnone hinf hg
    | true =>
      rw [ha] at hinf hg
      rw [hloc ha] at hg
      rcases hk : infoLocation b L.infoAt with _ | kind
      · rw [hk] at hinf hg
        exact hnone hinf hg
      · rw [hk] at hinf hg
        exact Gaps.info_gap (TextProc.mk' env cp) (i := b.drop L.infoAt) (i' := b'.drop L.infoAt) (by simp [hlen]) (kind := kind)
          (same_drop hlen ((hI ha).2 kind hk)) f _ hinf hg
  · change ExtraData.asDict ⟨ys⟩ = f.extras.asDict
    rw [hh2, hxy]

/-! ### examples -/

private theorem differ_nil (o : Nat) (z : Bytes) (k : Nat) : z[k]? = z[k]? ∨ ∃ r ∈ ([] : List (Nat × Nat)), r.1 ≤ o + k ∧ o + k < r.2 := .inl rfl

private theorem differ_step {o : Nat} {a r r' z z' : Bytes} {S : List (Nat × Nat)} (hr : r.length = r'.length)
    (h : ∀ k, z[k]? = z'[k]? ∨ ∃ q ∈ S, q.1 ≤ o + a.length + r.length + k ∧ o + a.length + r.length + k < q.2) (k : Nat) :
    (a ++ (r ++ z))[k]? = (a ++ (r' ++ z'))[k]? ∨ ∃ q ∈ (o + a.length, o + a.length + r.length) :: S, q.1 ≤ o + k ∧ o + k < q.2 := by
  by_cases h1 : k < a.length
  · left
    rw [List.getElem?_append_left (l₂ := r ++ z) h1, List.getElem?_append_left (l₂ := r' ++ z') h1]
  by_cases h2 : k < a.length + r.length
  · exact .inr ⟨_, .head _, by dsimp only; omega⟩
  rw [List.getElem?_append_right (l₂ := r ++ z) (by omega), List.getElem?_append_right (l₂ := r' ++ z') (by omega),
    List.getElem?_append_right (l₂ := z) (by omega), List.getElem?_append_right (l₂ := z') (by omega), ← hr]
  rcases h (k - a.length - r.length) with h | ⟨q, hq, h⟩
  · exact .inl h
  · exact .inr ⟨q, .tail _ hq, by omega⟩

/-- A header of 80 bytes; an ID list with an item of an unknown type and four bytes behind the terminal id; a description of four characters
with a zero as the second one; a block with a code page and six more bytes; a terminal block; and ten more bytes. -/
def gappyFile (r1 r2 r3 r4 r5 r6 : Bytes) : Bytes :=
  (le 4 80 ++ shellLinkCLSID.encode ++ le 4 5 ++ List.replicate 52 0) ++ (r1 ++ ((le 2 14 ++ le 2 8 ++ [0x99]) ++ (r2 ++ (le 2 0 ++ (r3 ++
    ((le 2 4 ++ [0x61, 0]) ++ (r4 ++ ((le 4 18 ++ le 4 0xA0000004 ++ le 4 437) ++ (r5 ++ (le 4 0 ++ (r6 ++ [])))))))))))

/-- All of these at once. -/
example (env : Env) (r1 r2 r3 r4 r5 r6 : Bytes) (h1 : r1.length = 4) (h2 : r2.length = 5) (h3 : r3.length = 4) (h4 : r4.length = 2)
    (h5 : r5.length = 6) (h6 : r6.length = 10) :
    NothingSeen env none false
      (.indata (gappyFile (List.replicate 4 0) (List.replicate 5 0) (List.replicate 4 0) (List.replicate 2 0) (List.replicate 6 0) (List.replicate 10 0)))
      (.indata (gappyFile r1 r2 r3 r4 r5 r6)) := by
  have hL : Spec.layout (gappyFile (List.replicate 4 0) (List.replicate 5 0) (List.replicate 4 0) (List.replicate 2 0) (List.replicate 6 0)
      (List.replicate 10 0)) = some ⟨80, 5, 96, 96, 102⟩ := by decide +kernel
  have hu : fileUsed false (gappyFile (List.replicate 4 0) (List.replicate 5 0) (List.replicate 4 0) (List.replicate 2 0) (List.replicate 6 0)
      (List.replicate 10 0)) ⟨80, 5, 96, 96, 102⟩ =
      [(0, 76), (80, 82), (82, 84), (84, 85), (90, 92), (96, 98), (98, 100), (102, 110), (102, 114), (120, 124)] := by decide +kernel
  have hlen : ∀ y1 y2 y3 y4 y5 y6 : Bytes, (gappyFile y1 y2 y3 y4 y5 y6).length = 103 + y1.length + y2.length + y3.length + y4.length + y5.length + y6.length := by
    intros
    simp only [gappyFile, List.length_append, le_length, List.length_replicate, List.length_cons, List.length_nil,
      show shellLinkCLSID.encode.length = 16 by decide]
    omega
  refine file_gaps env none false (tame_usable (usable_default env)) _ (gappyFile r1 r2 r3 r4 r5 r6) _ hL
    (by rw [hlen, hlen]; simp only [List.length_replicate]; omega) (fun k => ?_) _ _ rfl rfl
  rw [hu]
  have := differ_step (o := 0) (a := le 4 80 ++ shellLinkCLSID.encode ++ le 4 5 ++ List.replicate 52 0) (r := List.replicate 4 0) (r' := r1) h1.symm
    (differ_step (a := le 2 14 ++ le 2 8 ++ [0x99]) (r := List.replicate 5 0) (r' := r2) h2.symm
    (differ_step (a := le 2 0) (r := List.replicate 4 0) (r' := r3) h3.symm
    (differ_step (a := le 2 4 ++ [0x61, 0]) (r := List.replicate 2 0) (r' := r4) h4.symm
    (differ_step (a := le 4 18 ++ le 4 0xA0000004 ++ le 4 437) (r := List.replicate 6 0) (r' := r5) h5.symm
    (differ_step (a := le 4 0) (r := List.replicate 10 0) (r' := r6) h6.symm (differ_nil _ [])))))) k
  rcases this with h | ⟨q, hq, h⟩
  · exact .inl h
  · right
    simp only [List.length_append, le_length, List.length_replicate, List.length_cons, List.length_nil,
      show shellLinkCLSID.encode.length = 16 by decide, List.mem_cons, List.not_mem_nil, or_false] at hq
    intro r hr
    simp only [List.mem_cons, List.not_mem_nil, or_false] at hr
    rcases hq with rfl | rfl | rfl | rfl | rfl | rfl <;> dsimp only at h <;>
      rcases hr with rfl | rfl | rfl | rfl | rfl | rfl | rfl | rfl | rfl | rfl <;> dsimp only <;> omega

end Verif.Props
