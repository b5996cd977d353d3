import Verif.Lemmas.Sections
import Verif.Props.Link

/-
C54: what is reported about a section depends on the bytes of that section only.
-/

namespace Verif.Props

open Spec

theorem layout_flags {b : Bytes} {L : Layout} (hl : layout b = some L) :
    uAt 4 (b.take L.headerSize) 20 = some L.flags ∧ (L.flags.testBit 0 = true → L.headerSize + 2 ≤ L.infoAt) := by
  unfold layout at hl
  rcases h0 : uAt 4 b 0 with _ | hs
  · rw [h0] at hl; simp at hl
  rw [h0] at hl
  simp only at hl
  rcases h1 : uAt 4 (b.take hs) 20 with _ | flags
  · rw [h1] at hl; simp at hl
  rw [h1] at hl
  simp only at hl
  split at hl
  · simp at hl
  · rename_i infoAt h2
    simp only [Option.some.injEq] at hl
    subst hl
    refine ⟨h1, fun hb => ?_⟩
    simp only at hb
    rw [if_pos hb] at h2
    rcases h3 : uAt 2 b hs with _ | n
    · rw [h3] at h2; simp at h2
    · rw [h3] at h2
      simp only [Option.map_some, Option.some.injEq] at h2
      simp only
      omega

/-- C54: of two files with the sections at the same places, each section is reported the same if its own bytes are the
same, whatever is in the others.  (Link info is an exception: its strings may run on, so all bytes up to the end of the
file count.) -/
theorem sections_independent (env : Env) (cp : Option String) (hcp : UsableCodePage (TextProc.mk' env cp))
    (allow all : Bool) (src src' : Source) (f f' : LnkFile) (hf : (LnkFile.init env cp allow src).res = .ok f)
    (hf' : (LnkFile.init env cp allow src').res = .ok f') (L : Layout) (hL : layout src.bytes = some L)
    (hL' : layout src'.bytes = some L) (j j' : Dict) (hj : (f.getJson all).res = .ok j)
    (hj' : (f'.getJson all).res = .ok j') :
    (between src.bytes 0 L.headerSize = between src'.bytes 0 L.headerSize → j.get? "header" = j'.get? "header") ∧
    (between src.bytes L.headerSize L.infoAt = between src'.bytes L.headerSize L.infoAt →
      j.get? "target" = j'.get? "target") ∧
    (src.bytes.drop L.infoAt = src'.bytes.drop L.infoAt → j.get? "link_info" = j'.get? "link_info") ∧
    (between src.bytes L.stringsAt L.extraAt = between src'.bytes L.stringsAt L.extraAt →
      j.get? "data" = j'.get? "data") ∧
    (src.bytes.drop L.extraAt = src'.bytes.drop L.extraAt → j.get? "extra" = j'.get? "extra") := by
  obtain ⟨L1, l, last, e1, hc, hp⟩ := constructed env cp hcp allow src f hf
  obtain ⟨L2, l', last', e2, hc', hp'⟩ := constructed env cp hcp allow src' f' hf'
  rw [hL] at e1
  rw [hL'] at e2
  cases e1
  cases e2
  obtain ⟨hd, tg, inf, ex, a1, a2, a3, a4, rfl⟩ := LnkFile.getJson_ok_iff.mp hj
  obtain ⟨hd', tg', inf', ex', b1, b2, b3, b4, rfl⟩ := LnkFile.getJson_ok_iff.mp hj'
  refine ⟨fun h => ?_, fun h => ?_, fun h => ?_, fun h => ?_, fun h => ?_⟩
  · have : f.header = f'.header := by
      rw [hp.header, hp'.header]
      simpa [between] using h
    have : hd = hd' := by
      unfold LnkFile.jsonHeader at a1 b1
      rw [this] at a1
      rw [a1] at b1
      exact Except.ok.inj b1
    rw [this]
    rfl
  · have : tg = tg' := by
      unfold LnkFile.jsonTarget at a2 b2
      rw [hp.targets, hp.targetIndex] at a2
      rw [hp'.targets, hp'.targetIndex] at b2
      cases hb : L.flags.testBit 0 with
      | false =>
        rw [hb] at a2 b2
        simp at a2 b2
        rw [← a2, ← b2]
      | true =>
        rw [hb] at a2 b2
        have h2 := (layout_flags hL).2 hb
        have e1 : slice (src.bytes.drop L.headerSize) 0 2 = slice (src'.bytes.drop L.headerSize) 0 2 := by
          have := congrArg (List.take 2) h
          unfold between at this
          rwa [List.take_take, List.take_take, Nat.min_eq_left (by omega)] at this
        have e2 : slice src.bytes (L.headerSize + 2) L.infoAt = slice src'.bytes (L.headerSize + 2) L.infoAt := by
          have := congrArg (List.drop 2) h
          unfold between at this
          rw [List.drop_take, List.drop_take, List.drop_drop, List.drop_drop] at this
          unfold slice
          rwa [show L.infoAt - (L.headerSize + 2) = L.infoAt - L.headerSize - 2 by omega]
        simp only [if_true, LnkTargets.idListSize, LnkTargets.idListSizeOf, LnkTargets.asList, LnkTargets.iter, e1, e2]
          at a2 b2
        rw [a2] at b2
        exact Except.ok.inj b2
    rw [this]
    simp only [Dict.get?, List.cons_append, List.nil_append]
    cases tg' <;> rfl
  · have hi : f.info = f'.info := by
      rw [hp.info, hp'.info, h]
      have : infoLocation src.bytes L.infoAt = infoLocation src'.bytes L.infoAt := by
        unfold infoLocation
        rw [← uAt_drop 4 _ _ _ (by omega), ← uAt_drop 4 _ _ _ (by omega), h]
      rw [this]
    have : inf = inf' := by
      unfold LnkFile.jsonInfo at a3 b3
      rw [hi] at a3
      rw [a3] at b3
      exact Except.ok.inj b3
    rw [this]
    simp only [Dict.get?, List.cons_append, List.nil_append]
    cases tg <;> cases tg' <;> rfl
  · have hflags := (layout_flags hL).1
    have hflags' := (layout_flags hL').1
    rw [show src.bytes.take L.headerSize = f.header.raw by rw [hp.header]] at hflags
    rw [show src'.bytes.take L.headerSize = f'.header.raw by rw [hp'.header]] at hflags'
    have r1 := StringData.init_take hflags (StringData.readable_of_usable hcp _) _ hp.strings
    have r2 := StringData.init_take hflags' (StringData.readable_of_usable hcp _) _ hp'.strings
    have s1 : f.stringData.size = L.extraAt - L.stringsAt := by have := hp.stringsEnd; omega
    have s2 : f'.stringData.size = L.extraAt - L.stringsAt := by have := hp'.stringsEnd; omega
    have : f.stringData = f'.stringData := by
      rw [s1] at r1
      rw [s2] at r2
      unfold between at h
      unfold StringData.init at r1 r2
      rw [h, StringData.loop_congr (LnkHeader.hasFlag_congr hflags hflags')] at r1
      rw [r1] at r2
      exact Except.ok.inj r2
    rw [this]
    simp only [Dict.get?, List.cons_append, List.nil_append]
    cases tg <;> cases tg' <;> rfl
  · have he : f.extras = f'.extras := by
      rw [h] at hc
      obtain ⟨rfl, rfl⟩ := cut_unique hc hc'
      rw [hp.extras, hp'.extras]
    have : ex = ex' := by
      rw [he, b4] at a4
      exact (Except.ok.inj a4).symm
    rw [this]
    simp only [Dict.get?, List.cons_append, List.nil_append]
    cases tg <;> cases tg' <;> rfl

/-- Another file size and icon. -/
def exampleLink' : ShellLink := { exampleLink with header := { exampleLink.header with fileSize := 99, iconIndex := 5 } }

theorem exampleLink'_valid (env : Env) : exampleLink'.Valid (TextProc.mk' env none) := by
  have h := exampleLink_valid env
  exact ⟨h.headerSize, h.hasItems, h.items, h.hasInfo, h.info, h.announced, h.strings, h.blocks⟩

/-- Two links that differ in the header: all hypotheses are met, and everything else is reported the same. -/
example (env : Env) : ∃ f f' j j', (LnkFile.init env none true (.indata exampleLink.encode)).res = .ok f ∧
    (LnkFile.init env none true (.indata exampleLink'.encode)).res = .ok f' ∧
    (f.getJson true).res = .ok j ∧ (f'.getJson true).res = .ok j' ∧
    exampleLink.encode ≠ exampleLink'.encode ∧
    Dict.get? j "target" = Dict.get? j' "target" ∧ Dict.get? j "link_info" = Dict.get? j' "link_info" ∧
    Dict.get? j "data" = Dict.get? j' "data" ∧ Dict.get? j "extra" = Dict.get? j' "extra" := by
  obtain ⟨f, h1, -, c, a, w, wc, wa, ww, -, -, -, h2⟩ := link_roundtrip env none true exampleLink (exampleLink_valid env)
    (.indata exampleLink.encode) rfl
  obtain ⟨f', h1', -, c', a', w', wc', wa', ww', -, -, -, h2'⟩ := link_roundtrip env none true exampleLink'
    (exampleLink'_valid env) (.indata exampleLink'.encode) rfl
  have l1 : layout exampleLink.encode = some ⟨76, 0xA7, 142, 213, 237⟩ := by decide +kernel
  have l2 : layout exampleLink'.encode = some ⟨76, 0xA7, 142, 213, 237⟩ := by decide +kernel
  have e1 := congrArg Py.res h1
  have e1' := congrArg Py.res h1'
  have e2 := congrArg Py.res h2
  have e2' := congrArg Py.res h2'
  obtain ⟨-, s2, s3, s4, s5⟩ := sections_independent env none (usable_default env) true true _ _ f f' e1 e1' _ l1 l2 _ _ e2 e2'
  exact ⟨f, f', _, _, e1, e1', e2, e2', by decide +kernel, s2 (by decide +kernel), s3 (by decide +kernel),
    s4 (by decide +kernel), s5 (by decide +kernel)⟩

end Verif.Props
