import Verif.Lemmas.Reported

/-
When an extra block can be reported: the classes.
-/

namespace Verif

open Spec Py

namespace Extra

theorem when_uint (x : Extra) (a b : Nat) (h : a < b) : When (b ≤ x.raw.length) (x.uint a b) := by
  refine (when_unpackU (b - a) _).congr ?_
  simp only [slice_length]
  omega

theorem when_sint (x : Extra) (a b : Nat) (h : a < b) : When (b ≤ x.raw.length) (x.sint a b) := by
  refine (when_unpackI (b - a) _).congr ?_
  simp only [slice_length]
  omega

theorem when_uuid (x : Extra) (a : Nat) : When (a + 16 ≤ x.raw.length) (parseUuid (slice x.raw a (a + 16))) := by
  refine (when_parseUuid _).congr ?_
  simp only [slice_length]
  omega

theorem when_console (x : Extra) : When (144 ≤ x.raw.length) x.consoleFields := by
  refine (
    when_bind (when_uint x 8 10 (by omega)) fun _ _ =>
    when_bind (when_uint x 10 12 (by omega)) fun _ _ =>
    when_bind (when_sint x 12 14 (by omega)) fun _ _ =>
    when_bind (when_sint x 14 16 (by omega)) fun _ _ =>
    when_bind (when_sint x 16 18 (by omega)) fun _ _ =>
    when_bind (when_sint x 18 20 (by omega)) fun _ _ =>
    when_bind (when_sint x 20 22 (by omega)) fun _ _ =>
    when_bind (when_sint x 22 24 (by omega)) fun _ _ =>
    when_bind (when_uint x 32 36 (by omega)) fun _ _ =>
    when_bind (when_uint x 36 40 (by omega)) fun _ _ =>
    when_bind (when_uint x 40 44 (by omega)) fun _ _ =>
    when_bind (when_readUnicodeString _) fun _ _ =>
    when_bind (when_uint x 108 112 (by omega)) fun _ _ =>
    when_bind (when_uint x 112 116 (by omega)) fun _ _ =>
    when_bind (when_uint x 116 120 (by omega)) fun _ _ =>
    when_bind (when_uint x 120 124 (by omega)) fun _ _ =>
    when_bind (when_uint x 124 128 (by omega)) fun _ _ =>
    when_bind (when_uint x 128 132 (by omega)) fun _ _ =>
    when_bind (when_uint x 132 136 (by omega)) fun _ _ =>
    when_bind (when_uint x 136 140 (by omega)) fun _ _ =>
    when_bind (when_uint x 140 144 (by omega)) fun _ _ =>
    when_pure _).congr ?_
  refine ⟨fun h => ?_, fun h => ?_⟩
  · obtain ⟨-, -, -, -, -, -, -, -, -, -, -, -, -, -, -, -, -, -, -, -, h, -⟩ := h
    exact h
  · refine ⟨?_, ?_, ?_, ?_, ?_, ?_, ?_, ?_, ?_, ?_, ?_, trivial, ?_, ?_, ?_, ?_, ?_, ?_, ?_, ?_, h, trivial⟩ <;> omega

theorem when_tracker (x : Extra) (hcp : UsableCodePage x.tp) : When (96 ≤ x.raw.length) x.trackerFields := by
  refine (
    when_bind (when_mustBe _ _ _ (when_uint x 8 12 (by omega))) fun _ _ =>
    when_bind (when_mustBe _ _ _ (when_uint x 12 16 (by omega))) fun _ _ =>
    when_bind (when_readString hcp _) fun _ _ =>
    when_bind (when_uuid x 32) fun _ _ =>
    when_bind (when_uuid x 48) fun _ _ =>
    when_bind (when_uuid x 64) fun _ _ =>
    when_bind (when_uuid x 80) fun _ _ =>
    when_pure _).congr ?_
  refine ⟨fun ⟨_, _, _, _, _, _, h, _⟩ => h, fun h => ⟨?_, ?_, trivial, ?_, ?_, ?_, h, trivial⟩⟩ <;> omega

theorem when_codePage (x : Extra) : When (12 ≤ x.raw.length) x.codePageFields :=
  (when_bind (when_uint x 8 12 (by omega)) fun _ _ => when_pure _).congr (and_iff_left trivial)

theorem when_specialFolder (x : Extra) : When (16 ≤ x.raw.length) x.specialFolderFields := by
  refine (when_bind (when_uint x 8 12 (by omega)) fun _ _ => when_bind (when_uint x 12 16 (by omega)) fun _ _ => when_pure _).congr ?_
  rw [and_true]
  omega

theorem when_knownFolder (x : Extra) : When (28 ≤ x.raw.length) x.knownFolderFields := by
  refine (when_bind (when_uuid x 8) fun _ _ => when_bind (when_uint x 24 28 (by omega)) fun _ _ => when_pure _).congr ?_
  rw [and_true]
  omega

theorem extraKind_other {s : Nat} (h2 : s ≠ 0xA0000002) (h3 : s ≠ 0xA0000003) (h4 : s ≠ 0xA0000004) (h5 : s ≠ 0xA0000005)
    (h6 : s ≠ 0xA0000006) (h9 : s ≠ 0xA0000009) (hB : s ≠ 0xA000000B) (hC : s ≠ 0xA000000C) :
    extraKind s = .environment ∨ extraKind s = .icon ∨ extraKind s = .shimLayer ∨ extraKind s = .unknown := by
  unfold extraKind extraKinds
  simp only [List.lookup]
  repeat' split
  all_goals simp_all

/-- A block is reported exactly if it is readable. -/
theorem asDict_okIff {tp : TextProc} (hcp : UsableCodePage tp) {s n : Nat} {b : Bytes} (hu : uAt 4 b 0 = some n) (hl : b.length ≤ n) :
    OkIff (BlockReadable s b) (Extra.asDict ⟨extraKind s, tp, b⟩) := by
  have hsz : Extra.size ⟨extraKind s, tp, b⟩ = pure n := by
    rw [ExtraData.size_eq _ (extraKind_ne_terminal s), hu]
  suffices h : OkIff (BlockReadable s b) (Extra.fields ⟨extraKind s, tp, b⟩) by
    unfold asDict
    rw [hsz, pure_bind]
    exact (okIff_bind h fun _ _ => okIff_pure _).congr (and_iff_left trivial)
  unfold BlockReadable
  by_cases h2 : s = 0xA0000002
  · subst h2
    exact (when_console ⟨.console, tp, b⟩).okIff
  rw [if_neg h2]
  by_cases h3 : s = 0xA0000003
  · subst h3
    exact (when_tracker ⟨.distributedTracker, tp, b⟩ hcp).okIff
  rw [if_neg h3]
  by_cases h4 : s = 0xA0000004
  · subst h4
    exact (when_codePage ⟨.codePage, tp, b⟩).okIff
  rw [if_neg h4]
  by_cases h5 : s = 0xA0000005
  · subst h5
    exact (when_specialFolder ⟨.specialFolder, tp, b⟩).okIff
  rw [if_neg h5]
  by_cases h6 : s = 0xA0000006
  · subst h6
    rw [if_pos rfl]
    show OkIff (¬ ShortDescriptor b) (Extra.darwinFields ⟨.darwin, tp, b⟩)
    obtain ⟨t, ht⟩ := (when_readUnicodeString (slice b 268 (268 + 520))).ok trivial
    have hw := (wideText_iff _ _).1 ht
    have hf := darwin_fields ⟨.darwin, tp, b⟩ hcp ht
    have hshort : ShortDescriptor b ↔ ShortText t := by
      have hsl : slice b 268 (268 + 520) = (b.drop 268).take 520 := by simp [slice]
      rw [hsl] at hw ht
      refine ⟨fun ⟨t', h1, h2⟩ => ?_, fun h => ⟨t, hw, h⟩⟩
      have := (wideText_iff _ _).2 h1
      rw [ht] at this
      cases this
      exact h2
    rw [hshort]
    refine ⟨fun ⟨a, ha⟩ hc => ?_, hf.2⟩
    rw [hf.1 hc] at ha
    cases ha
  rw [if_neg h6]
  by_cases h9 : s = 0xA0000009
  · subst h9
    exact (okIff_bind (Metadata.store_okIff b) fun _ _ => okIff_pure _).congr (and_iff_left trivial)
  rw [if_neg h9]
  by_cases hB : s = 0xA000000B
  · subst hB
    exact (when_knownFolder ⟨.knownFolder, tp, b⟩).okIff
  rw [if_neg hB]
  by_cases hC : s = 0xA000000C
  · subst hC
    rw [if_pos rfl]
    show OkIff _ (Extra.shellItemFields ⟨.shellItem, tp, b⟩)
    have hit : Extra.shellItemIter ⟨.shellItem, tp, b⟩ = LnkTargets.idLists tp (b.drop 8) := by
      rw [shellItemIter_eq (n := n)]
      · congr 1
        simp only [slice]
        rw [List.take_of_length_le]
        simp
        omega
      · exact Target.leNat_slice (n := 4) (off := 0) (by omega) hu
    have hf := LnkTargets.fails_idLists hcp (b.drop 8)
    unfold shellItemFields
    rw [hit]
    refine (okIff_bind (c := listFault (b.drop 8) = none) ?_ fun _ _ => okIff_pure _).congr (and_iff_left trivial)
    rcases hlf : listFault (b.drop 8) with _ | e'
    · rw [hlf] at hf
      exact ⟨fun _ => rfl, fun _ => hf⟩
    · rw [hlf] at hf
      have hf' : (LnkTargets.asListLoop (LnkTargets.idLists tp (b.drop 8))).res = .error e' := hf
      refine ⟨fun ⟨a, ha⟩ => ?_, fun h => by cases h⟩
      rw [hf'] at ha
      cases ha
  rw [if_neg hC]
  rcases extraKind_other h2 h3 h4 h5 h6 h9 hB hC with h | h | h | h <;> rw [h]
  · exact (when_bind (when_readString hcp _) fun _ _ => when_bind (when_readUnicodeString _) fun _ _ => when_pure _).okIff.congr (by simp)
  · exact (when_bind (when_readString hcp _) fun _ _ => when_bind (when_readUnicodeString _) fun _ _ => when_pure _).okIff.congr (by simp)
  · exact (when_bind (when_readString hcp _) fun _ _ => when_pure _).okIff.congr (by simp)
  · exact okIff_pure _

end Extra

end Verif
