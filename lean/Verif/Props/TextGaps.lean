import Verif.Lemmas.TextGaps
import Verif.Props.Hidden

/-
C98: what of the strings is not looked at.
-/

namespace Verif.Props

open Spec Py Log OpenEnd Hidden

/-- C98: bytes between the ID list and the extra data that neither the texts and fields of the link info nor the counts and texts of the
strings, up to their first zeros, go over can be anything. -/
theorem string_gaps (env : Env) (cp : Option String) (allow : Bool) (ht : Tame (TextProc.mk' env cp)) (b b' : Bytes) (L : Layout)
    (hL : Spec.layout b = some L) (hlen : b.length = b'.length) (hd : ∀ k, b[k]? = b'[k]? ∨ UnreadText b L k)
    (src src' : Source) (hs : src.bytes = b) (hs' : src'.bytes = b') : NothingSeen env cp allow src src' := by
  have hE : Elsewhere b b' L.infoAt L.extraAt := by
    refine ⟨List.ext_getElem? fun k => ?_, List.ext_getElem? fun k => ?_, hlen⟩
    · rw [List.getElem?_take, List.getElem?_take]
      split
      · rcases hd k with h | h
        · exact h
        · have := h.start
          omega
      · rfl
    · rw [List.getElem?_drop, List.getElem?_drop]
      rcases hd (L.extraAt + k) with h | h
      · exact h
      · have := h.stop
        omega
  have hslice : ∀ s e, (∀ k, UnreadText b L k → k < s ∨ e ≤ k) → slice b s e = slice b' s e := by
    intro s e h
    refine List.ext_getElem? fun k => ?_
    unfold slice
    rw [List.getElem?_take, List.getElem?_take]
    split
    · rw [List.getElem?_drop, List.getElem?_drop]
      rcases hd (s + k) with hk | hk
      · exact hk
      · have := h _ hk
        omega
    · rfl
  have hu : ∀ r ∈ stringsUsed L.flags b stringLimits L.stringsAt, slice b r.1 r.2 = slice b' r.1 r.2 :=
    fun r hr => hslice _ _ fun k hk => hk.strings r hr
  have hi : infoAnnounced L.flags = true → uAt 4 b L.infoAt = uAt 4 b' L.infoAt ∧ uAt 4 b (L.infoAt + 8) = uAt 4 b' (L.infoAt + 8) := by
    intro ha
    refine ⟨(TextGaps.uAt_same hlen (hslice _ _ fun k hk => ?_)).symm, (TextGaps.uAt_same hlen (hslice _ _ fun k hk => ?_)).symm⟩ <;>
    · have := (hk.info ha).1
      omega
  have hloc : infoAnnounced L.flags = true → infoLocation b L.infoAt = infoLocation b' L.infoAt := fun ha => by
    unfold infoLocation
    rw [(hi ha).2]
  have hL' := TextGaps.layout_texts hE hL (fun ha => ⟨(hi ha).1, hloc ha⟩) hu
  refine nothing_seen (P := LnkFile.process env cp allow b) (g := id) (g' := replaced env cp b' L)
    (by rw [hs]; exact not_nil hL) (by rw [hs']; exact not_nil hL') (by rw [hs]; exact (bind_pure _).symm)
    (by rw [hs']; exact TextGaps.process_texts env cp ht allow hE hL hi hu) fun f hfr => ?_
  obtain ⟨L₁, l, last, h1, -, hP, -⟩ := LnkFile.parts_tame ht hfr
  rw [hL] at h1
  cases h1
  refine ⟨rfl, rfl, rfl, ?_, ?_, rfl⟩
  · cases hb : L.flags.testBit 0 with
    | true =>
      have h2 : L.headerSize + 2 ≤ L.infoAt := by
        unfold Spec.layout at hL
        rcases h0 : uAt 4 b 0 with _ | hs
        · rw [h0] at hL; cases hL
        rw [h0] at hL
        dsimp only at hL
        rcases h1 : uAt 4 (b.take hs) 20 with _ | flags
        · rw [h1] at hL; cases hL
        rw [h1] at hL
        dsimp only at hL
        rcases h2 : (if flags.testBit 0 then (uAt 2 b hs).map fun n => hs + 2 + n else some hs) with _ | infoAt
        · rw [h2] at hL; cases hL
        rw [h2] at hL
        cases hL
        dsimp only at hb ⊢
        rw [hb, if_pos rfl] at h2
        obtain ⟨n, -, rfl⟩ := Option.map_eq_some_iff.1 h2
        omega
      exact Hidden.target_same hE h2 hP fun _ => by rw [hE.slice (.inl (Nat.le_refl _))]
    | false =>
      have ht := hP.targets
      rw [hb] at ht
      have hg : (replaced env cp b' L f).targets = none := by
        unfold replaced
        simp [hb]
      change LnkFile.jsonTarget _ = f.jsonTarget
      unfold LnkFile.jsonTarget
      rw [hg, show f.targets = none from ht]
  · have hinf := hP.info
    have hg : (replaced env cp b' L f).info = if infoAnnounced L.flags then
      (infoLocation b' L.infoAt).map fun c => (LnkFile.classOf c, ⟨TextProc.mk' env cp, b'.drop L.infoAt⟩) else none := rfl
    have hnone : f.info = none → (replaced env cp b' L f).info = none → (replaced env cp b' L f).jsonInfo = f.jsonInfo := by
      intro h h'
      unfold LnkFile.jsonInfo
      rw [h, h']
    cases ha : infoAnnounced L.flags with
    | false =>
      rw [ha] at hinf hg
      exact hnone hinf hg
    | true =>
      rw [ha] at hinf hg
      rw [← hloc ha] at hg
      rcases hk : infoLocation b L.infoAt with _ | kind
      · rw [hk] at hinf hg
        exact hnone hinf hg
      · rw [hk] at hinf hg
        refine Gaps.info_gap (TextProc.mk' env cp) (i := b.drop L.infoAt) (i' := b'.drop L.infoAt) (by simp [hlen]) (kind := kind)
          (fun r hr => ?_) f _ hinf hg
        have : ∀ x : Bytes, slice (x.drop L.infoAt) r.1 r.2 = slice x (L.infoAt + r.1) (L.infoAt + r.2) := fun x => by
          unfold slice
          rw [List.drop_drop]
          congr 1
          omega
        rw [this, this]
        exact hslice _ _ fun k hk' => (hk'.info ha).2 kind hk r hr

/-! ### an example -/

/-- A header that announces a description and arguments in Unicode, the description of six characters, of which the second is a zero, and
arguments of one character. -/
def zeroInText (r : Bytes) : Bytes :=
  (le 4 76 ++ shellLinkCLSID.encode ++ le 4 0xA4 ++ List.replicate 52 0 ++ le 2 6 ++ [0x61, 0, 0, 0]) ++ (r ++ (le 2 1 ++ [0x62, 0] ++ le 4 0))

/-- Eight bytes behind the zero. -/
example (env : Env) (r : Bytes) (h : r.length = 8) :
    NothingSeen env none false (.indata (zeroInText (List.replicate 8 0))) (.indata (zeroInText r)) := by
  have hu : stringsUsed 0xA4 (zeroInText (List.replicate 8 0)) stringLimits 76 = [(76, 78), (78, 82), (90, 92), (92, 94)] := by decide +kernel
  refine string_gaps env none false (tame_usable (usable_default env)) (zeroInText (List.replicate 8 0)) (zeroInText r) ⟨76, 0xA4, 76, 76, 94⟩
    (by decide +kernel) (by unfold zeroInText; simp only [List.length_append, h]; rfl) (fun k => ?_) _ _ rfl rfl
  have hx : ∀ y : Bytes, zeroInText y = (zeroInText []).take 82 ++ (y ++ (le 2 1 ++ [0x62, 0] ++ le 4 0)) := fun y => rfl
  by_cases h1 : k < 82
  · left
    rw [hx r, hx (List.replicate 8 0), List.getElem?_append_left (by exact h1), List.getElem?_append_left (by exact h1)]
  by_cases h2 : k < 90
  · right
    refine ⟨by show 76 ≤ k; omega, by show k < 94; omega, fun ha => absurd ha (by decide), fun q hq => ?_⟩
    rw [show stringsUsed _ _ stringLimits _ = _ from hu] at hq
    simp only [List.mem_cons, List.not_mem_nil, or_false] at hq
    rcases hq with rfl | rfl | rfl | rfl <;> dsimp only <;> omega
  · left
    have hl : ((zeroInText []).take 82).length = 82 := by decide +kernel
    have key : ∀ y : Bytes, y.length = 8 → (zeroInText y)[k]? = (le 2 1 ++ [0x62, 0] ++ le 4 0)[k - 90]? := by
      intro y hy
      rw [hx y, List.getElem?_append_right (by omega), hl, List.getElem?_append_right (by omega), hy]
      congr 1
    rw [key _ List.length_replicate, key r h]

end Verif.Props
