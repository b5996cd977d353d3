import Verif.Lemmas.Trailer
import Verif.Props.Link

/-
C89: what comes behind a complete file makes no difference, for arbitrary bytes.
-/

namespace Verif.Props

open Spec Log Trailer

/-- C89: with terminal blocks not allowed, more bytes behind a complete file change neither what the constructor says nor what it
raises; the object has the same size, gives the same command, and the same report in all its forms. -/
theorem trailing_bytes_ignored (env : Env) (cp : Option String) (ht : Tame (TextProc.mk' env cp)) (b t : Bytes) (L : Layout)
    (l : List Piece) (last : Bytes) (hC : Complete b L l last) (alone src : Source) (ha : alone.bytes = b) (hs : src.bytes = b ++ t) :
    (LnkFile.init env cp false src).warns = (LnkFile.init env cp false alone).warns ∧
    (∀ e, (LnkFile.init env cp false src).res = .error e ↔ (LnkFile.init env cp false alone).res = .error e) ∧
    ∀ f, (LnkFile.init env cp false alone).res = .ok f → ∃ g, (LnkFile.init env cp false src).res = .ok g ∧ g.size = f.size ∧
      g.lnkCommand = f.lnkCommand ∧ ∀ all, g.getJson all = f.getJson all ∧ g.printJson all = f.printJson all ∧
        g.niceJson all = f.niceJson all := by
  have hb : b ≠ [] := by
    rintro rfl
    have := hC.layout
    simp [layout, uAt] at this
  have hi : ∀ s : Source, s.bytes ≠ [] → LnkFile.init env cp false s = LnkFile.process env cp false s.bytes := by
    intro s hs
    cases s with
    | fhandle x => rfl
    | indata x => exact if_neg hs
  rw [hi alone (by rw [ha]; exact hb), hi src (by rw [hs]; simp [hb]), ha, hs, process_more env cp ht hC t]
  rcases hp : LnkFile.process env cp false b with ⟨w, e | f⟩
  · exact ⟨rfl, fun _ => Iff.rfl, fun f hf => by cases hf⟩
  · refine ⟨List.append_nil w, fun e => ⟨fun h => (by cases h), fun h => (by cases h)⟩, fun f' hf => ?_⟩
    obtain rfl := Except.ok.inj hf
    obtain ⟨L', l', last', h1, h2, hP, -⟩ := LnkFile.parts_tame ht (b := b) (f := f) (by rw [hp])
    rw [hC.layout] at h1
    cases h1
    obtain ⟨rfl, rfl⟩ := cut_unique hC.cut h2
    have hj := report_more (t := t) hC hP
    refine ⟨extended t f, rfl, rfl, rfl, fun all => ⟨hj all, ?_, ?_⟩⟩
    · unfold LnkFile.printJson
      rw [hj]
    · unfold LnkFile.niceJson
      rw [hj]
      rfl

/-- C89: the size of an object made of a complete file is where the terminal block ends. -/
theorem complete_size (env : Env) (cp : Option String) (ht : Tame (TextProc.mk' env cp)) (b : Bytes) (L : Layout) (l : List Piece)
    (last : Bytes) (hC : Complete b L l last) (src : Source) (hs : src.bytes = b) (f : LnkFile)
    (hf : (LnkFile.init env cp false src).res = .ok f) : f.size + last.length = b.length + 4 := by
  have hp := LnkFile.init_ok hf
  rw [hs] at hp
  obtain ⟨L', l', last', h1, h2, hP, -⟩ := LnkFile.parts_tame ht hp
  rw [hC.layout] at h1
  cases h1
  obtain ⟨rfl, rfl⟩ := cut_unique hC.cut h2
  obtain ⟨-, hsum⟩ := cut_more [] hC.cut hC.terminal hC.signed
  obtain ⟨n, hn, hsz⟩ := hP.size
  rw [show ExtraData.signed l = l from List.filter_eq_self.2 hC.signed, if_neg (by simp)] at hn
  rw [List.length_drop] at hsum
  have := hC.terminal
  omega

/-- C89: going through a concatenation of complete files that end with their terminal blocks and are accepted visits exactly each of
them, in order, each reported as on its own. -/
theorem walk_files (env : Env) (cp : Option String) (ht : Tame (TextProc.mk' env cp)) (files : List (Bytes × LnkFile))
    (hv : ∀ p ∈ files, (∃ L l last, Complete p.1 L l last ∧ last.length = 4) ∧
      (LnkFile.init env cp false (.indata p.1)).res = .ok p.2) :
    ∃ gs, (∀ hs, Walk env cp (files.flatMap Prod.fst) hs ↔ hs = gs) ∧
      List.Forall₂ (fun p g => g.size = p.1.length ∧ g.lnkCommand = p.2.lnkCommand ∧
        ∀ all, g.getJson all = p.2.getJson all ∧ g.printJson all = p.2.printJson all ∧ g.niceJson all = p.2.niceJson all) files gs := by
  induction files with
  | nil =>
    refine ⟨[], fun gs => ⟨fun h => h.unique .done, ?_⟩, .nil⟩
    rintro rfl
    exact .done
  | cons p ps ih =>
    obtain ⟨gs, h1, h2⟩ := ih fun x hx => hv x (List.mem_cons_of_mem _ hx)
    obtain ⟨⟨L, l, last, hC, h4⟩, hf⟩ := hv p List.mem_cons_self
    obtain ⟨-, -, h⟩ := trailing_bytes_ignored env cp ht p.1 (ps.flatMap Prod.fst) L l last hC (.indata p.1)
      (.indata (p.1 ++ ps.flatMap Prod.fst)) rfl rfl
    obtain ⟨g, hg, hsz, hr⟩ := h p.2 hf
    have hlen := complete_size env cp ht p.1 L l last hC (.indata p.1) rfl p.2 hf
    have hb : p.1 ≠ [] := by
      intro hb
      have := hC.layout
      rw [hb] at this
      simp [layout, uAt] at this
    have hs : g.size = p.1.length := by omega
    have hw : Walk env cp ((p :: ps).flatMap Prod.fst) (g :: gs) := by
      rw [List.flatMap_cons]
      refine .step _ g gs (by simp [hb]) hg ?_
      rw [hs, drop_append_exact rfl]
      exact (h1 gs).2 rfl
    refine ⟨g :: gs, fun hs => ⟨fun hh => hh.unique hw, ?_⟩, .cons ⟨hs, hr⟩ h2⟩
    rintro rfl
    exact hw

/-! ### examples -/

private theorem forall₂_right {α β : Type} {R : α → β → Prop} {xs : List α} {ys : List β} (h : List.Forall₂ R xs ys) :
    ∀ y ∈ ys, ∃ x ∈ xs, R x y := by
  induction h with
  | nil => simp
  | cons h _ ih =>
    intro y hy
    rcases List.mem_cons.1 hy with rfl | hy
    · exact ⟨_, List.mem_cons_self, h⟩
    · obtain ⟨x, hx, hr⟩ := ih y hy
      exact ⟨x, List.mem_cons_of_mem _ hx, hr⟩

/-- A header that announces link info and a name, link info whose path is the volume label, the name, a block, the terminal block. -/
def sharedText : Bytes :=
  le 4 76 ++ shellLinkCLSID.encode ++ le 4 6 ++ List.replicate 52 0 ++
    (le 4 48 ++ le 4 28 ++ le 4 1 ++ le 4 28 ++ le 4 44 ++ le 4 0 ++ le 4 0 ++ le 4 20 ++ le 4 3 ++ le 4 7 ++ le 4 16 ++ [67, 58, 92, 0]) ++
    (le 2 2 ++ [72, 105]) ++ (le 4 9 ++ le 4 0xA0000042 ++ [5]) ++ le 4 0

theorem sharedText_complete : Complete sharedText ⟨76, 6, 76, 124, 128⟩ [⟨9, le 4 9 ++ le 4 0xA0000042 ++ [5], some 0xA0000042⟩] (le 4 0) where
  layout := by decide +kernel
  cut := .block (b := sharedText.drop 128) (n := 9) (by decide +kernel) (by decide) (.stop (b := le 4 0) (by decide +kernel))
  terminal := by decide
  signed := by simp
  info _ := by
    refine ⟨by decide +kernel, fun kind hk => ?_⟩
    have : infoLocation sharedText 76 = some "Local" := by decide +kernel
    rw [this] at hk
    cases hk
    refine ⟨by decide +kernel, fun _ => ?_, fun h => absurd ?_ h, fun h => absurd h ?_, ?_⟩
    · unfold NarrowEnds
      decide +kernel
    · decide +kernel
    · decide +kernel
    · rw [if_pos rfl]
      refine ⟨by decide +kernel, ?_⟩
      rw [if_neg (by decide +kernel)]
      unfold NarrowEnds
      decide +kernel

/-- It is accepted, and followed by itself any number of times it is found again each time. -/
example (env : Env) (n : Nat) : ∃ f gs, (LnkFile.init env none false (.indata sharedText)).res = .ok f ∧
    (∀ hs, Walk env none (List.replicate n sharedText).flatten hs ↔ hs = gs) ∧ gs.length = n ∧ ∀ g ∈ gs, g.getJson true = f.getJson true := by
  have hC := sharedText_complete
  obtain ⟨f, hf⟩ := (constructor_outcome env none (usable_default env) false (.indata sharedText)).1.2
    ⟨(layout_isSome _).1 ⟨_, hC.layout⟩, fun L l last h1 h2 p hp _ => by
      have h1 : layout sharedText = some L := h1
      have h2 : Cut (sharedText.drop L.extraAt) l last := h2
      rw [hC.layout] at h1
      cases h1
      obtain ⟨rfl, -⟩ := cut_unique h2 hC.cut
      rw [List.mem_singleton.1 hp]
      decide⟩
  obtain ⟨gs, h1, h2⟩ := walk_files env none (tame_usable (usable_default env)) (List.replicate n (sharedText, f))
    (fun p hp => by
      rw [List.eq_of_mem_replicate hp]
      exact ⟨⟨_, _, _, hC, rfl⟩, hf⟩)
  refine ⟨f, gs, hf, ?_, ?_, fun g hg => ?_⟩
  · have : (List.replicate n (sharedText, f)).flatMap Prod.fst = (List.replicate n sharedText).flatten := by
      rw [List.flatMap_def, List.map_replicate]
    rw [← this]
    exact h1
  · rw [← h2.length_eq, List.length_replicate]
  · obtain ⟨p, hp, -, -, hr⟩ := forall₂_right h2 g hg
    rw [List.eq_of_mem_replicate hp] at hr
    exact (hr true).1

/-- Completeness of the link info is needed: here the path is said to start where the file ends, so it is read from what follows. -/
def dangling : Bytes :=
  le 4 76 ++ shellLinkCLSID.encode ++ le 4 2 ++ List.replicate 52 0 ++
    (le 4 48 ++ le 4 28 ++ le 4 1 ++ le 4 28 ++ le 4 52 ++ le 4 0 ++ le 4 0 ++ le 4 20 ++ le 4 3 ++ le 4 7 ++ le 4 16 ++ [67, 58, 92, 0]) ++ le 4 0

example (env : Env) :
    LnkInfo.localBasePath ⟨TextProc.mk' env none, dangling.drop 76⟩ = pure (some []) ∧
    LnkInfo.localBasePath ⟨TextProc.mk' env none, (dangling ++ [65, 66, 0]).drop 76⟩ = pure (some ['A', 'B']) := ⟨rfl, rfl⟩

end Verif.Props
