import Verif.Lemmas.Repeated
import Verif.Props.Order

/-
C96: of several blocks of one kind only the last one that can be reported counts.
-/

namespace Verif.Props

open Spec Py Log Verif.OpenEnd Verif.Order Order

/-- C96: when the blocks of unknown kinds are the same and of every other kind the last block that can be reported is the same, the
other blocks do not matter: with the same number of bytes the constructor does the same, size and command are the same, and the printed
report is the same.  Blocks for which `get_json` itself fails (C70) are excepted. -/
theorem last_block_counts (env : Env) (cp : Option String) (allow : Bool) (hcp : UsableCodePage (TextProc.mk' env cp)) (b : Bytes) (L : Layout)
    (l₀ : List Piece) (hO : OpenEnd b L l₀) (t t' last : Bytes) (l l' : List Piece) (h : WholeBlocks t l last)
    (h' : WholeBlocks t' l' last) (hlen : t.length = t'.length) (hf : ∀ p ∈ l, ∀ e, ¬ BlockFault p e) (hf' : ∀ p ∈ l', ∀ e, ¬ BlockFault p e)
    (hk : SameLast l l') (src src' : Source) (hs : src.bytes = b ++ t) (hs' : src'.bytes = b ++ t') :
    (LnkFile.init env cp allow src).warns = (LnkFile.init env cp allow src').warns ∧
    (∀ e, (LnkFile.init env cp allow src).res = .error e ↔ (LnkFile.init env cp allow src').res = .error e) ∧
    ∀ f f', (LnkFile.init env cp allow src).res = .ok f → (LnkFile.init env cp allow src').res = .ok f' →
      f.size = f'.size ∧ f.lnkCommand = f'.lnkCommand ∧ ∀ all, (f.printJson all).res = (f'.printJson all).res := by
  have ht := tame_usable hcp
  have hne : b ≠ [] := by
    rintro rfl
    have := hO.layout
    simp [Spec.layout, uAt] at this
  obtain ⟨hx, lx⟩ := Repeated.read_whole (TextProc.mk' env cp) allow h
  obtain ⟨hy, ly⟩ := Repeated.read_whole (TextProc.mk' env cp) allow h'
  have hsum : (l'.map Piece.declared).sum = (l.map Piece.declared).sum := by omega
  rw [hsum] at hy
  generalize hT : (if allow = true ∧ 4 < last.length then [(⟨.terminal, TextProc.mk' env cp, last⟩ : Extra)] else []) = T at hx hy
  obtain ⟨x, y, hx1, hy1, nx, ny, hxy⟩ := Repeated.asDict_repeated hcp h h' hf hf' hk T (by
    subst hT
    intro x hx
    split at hx
    · rw [List.mem_singleton] at hx
      rw [hx]
    · cases hx)
  generalize (l.map Piece.declared).sum + (if allow = true ∧ 4 < last.length then last.length else 0) = n at hx hy
  generalize ExtraData.objects (TextProc.mk' env cp) l ++ T = xs at hx hx1
  generalize ExtraData.objects (TextProc.mk' env cp) l' ++ T = ys at hy hy1
  have hp : LnkFile.init env cp allow src = _ := (init_process (by rw [hs]; simp [hne])).trans
    (by rw [hs, process_join env cp allow ht hO t, process_bare, hx])
  have hp' : LnkFile.init env cp allow src' = _ := (init_process (by rw [hs']; simp [hne])).trans
    (by rw [hs', process_join env cp allow ht hO t', process_bare, hy])
  rcases hq : LnkFile.process env cp allow b with ⟨w₀, e₀ | f₀⟩
  · rw [hq] at hp hp'
    rw [hp, hp']
    exact ⟨rfl, fun e => Iff.rfl, fun f f' hf _ => by cases hf⟩
  rw [hq] at hp hp'
  refine ⟨by rw [hp, hp']; rfl, fun e => by rw [hp, hp']; exact ⟨fun h => (by cases h), fun h => (by cases h)⟩, fun f f' hf1 hf2 => ?_⟩
  have hf1' := hf1
  have hf2' := hf2
  rw [hp] at hf1
  rw [hp'] at hf2
  obtain rfl := Except.ok.inj hf1
  obtain rfl := Except.ok.inj hf2
  refine ⟨?_, rfl, fun all => ?_⟩
  · unfold joined
    dsimp only
    rw [hlen]
  obtain ⟨L', l', last', h1, h2, hP, -⟩ := LnkFile.parts_tame ht (b := b) (f := f₀) (by rw [hq])
  rw [hO.layout] at h1
  cases h1
  obtain ⟨rfl, rfl⟩ := cut_unique hO.cut h2
  have hj := report_join hO t hP (h := ⟨bareHeader ++ t, ⟨bareHeader⟩, 78, none, none, ⟨[], 0⟩, ⟨xs⟩, 76 + n + min (t.length - n) 4⟩)
    rfl rfl rfl (by dsimp only; omega) all
  have hj' := report_join hO t' hP (h := ⟨bareHeader ++ t', ⟨bareHeader⟩, 78, none, none, ⟨[], 0⟩, ⟨ys⟩, 76 + n + min (t'.length - n) 4⟩)
    rfl rfl rfl (by dsimp only; omega) all
  obtain ⟨d, hd⟩ := bare_report (h := ⟨bareHeader ++ t, ⟨bareHeader⟩, 78, none, none, ⟨[], 0⟩, ⟨xs⟩, 76 + n + min (t.length - n) 4⟩)
    rfl rfl rfl
  obtain ⟨d', hd'⟩ := bare_report (h := ⟨bareHeader ++ t', ⟨bareHeader⟩, 78, none, none, ⟨[], 0⟩, ⟨ys⟩, 76 + n + min (t'.length - n) 4⟩)
    rfl rfl rfl
  rw [hd] at hj
  rw [hd'] at hj'
  have err : ∀ {g : LnkFile} {e : PyErr}, (g.getJson all).res = .error e → (g.printJson all).res = .error e := by
    intro g e he
    unfold LnkFile.printJson
    rw [Py.bind_res, he]
  rcases hr : f₀.getJson all with ⟨wr, e | r⟩
  · rw [hr] at hj hj'
    exact (err (by rw [hj]; rfl)).trans (err (by rw [hj']; rfl)).symm
  rw [hr] at hj hj'
  have hn : ∀ a, ("extra", PyVal.dict a) ∈ r → (Dict.keys a).Nodup := by
    intro a ha
    obtain ⟨hdr, tgt, inf, ext, -, -, -, hext, rfl⟩ := LnkFile.getJson_ok_iff.1 (congrArg Py.res hr)
    have : a = ext := by
      cases tgt <;> simpa using ha
    subst this
    exact (loop_neat (res := []) ⟨List.nodup_nil, fun v h => by cases h⟩ hext).1
  have k1 := congrArg Py.res hj
  have k2 := congrArg Py.res hj'
  simp only [Py.bind_res, hx1, hy1, Py.pure_res] at k1 k2
  have hS := (print_json_same env cp cp hcp hcp allow allow all all src src' _ _ hf1' hf2' _ _ k1 k2).2
    (join_shown (by rw [hlen]; rfl) rfl rfl nx ny hxy hn)
  rw [← hS]

/-! ### examples -/

/-- Two blocks that name a code page, and a terminal block. -/
private def twoPages (x : Bytes) : Bytes := le 4 12 ++ le 4 0xA0000004 ++ x ++ pageBlock ++ le 4 0

private def twoPieces (x : Bytes) : List Piece :=
  [⟨12, le 4 12 ++ le 4 0xA0000004 ++ x, some 0xA0000004⟩, ⟨12, pageBlock, some 0xA0000004⟩]

private theorem two_whole (x : Bytes) (h : x.length = 4) : WholeBlocks (twoPages x) (twoPieces x) (le 4 0) where
  cut := by
    have hl : (le 4 12 ++ le 4 0xA0000004 ++ x).length = 12 := by simp [h]
    have e : twoPages x = (le 4 12 ++ le 4 0xA0000004 ++ x) ++ (pageBlock ++ le 4 0) := by simp [twoPages]
    have u0 : uAt 4 (twoPages x) 0 = some 12 := by
      rw [e, List.append_assoc, List.append_assoc]
      exact ExtraData.uAt_le4 12 (by decide) _
    have u4 : uAt 4 (twoPages x) 4 = some 0xA0000004 := by
      rw [e]
      simp only [List.append_assoc]
      exact uAt_le (n := 4) (v := 0xA0000004) (by decide) (le 4 12) _
    have := Cut.block (b := twoPages x) u0 (by decide) (l := [⟨12, pageBlock, some 0xA0000004⟩]) (last := le 4 0) (by
      rw [e, List.drop_left' hl]
      exact .block (b := pageBlock ++ le 4 0) (n := 12) (by decide +kernel) (by decide) (.stop (b := le 4 0) (.inr (by decide +kernel))))
    rwa [u4, e, List.take_left' hl, ← e] at this
  whole := by
    intro p hp
    simp only [twoPieces, List.mem_cons, List.not_mem_nil, or_false] at hp
    rcases hp with rfl | rfl
    · simp [h]
    · decide +kernel

/-- Whatever the first of two such blocks says is not shown. -/
example (env : Env) (x x' : Bytes) (hx : x.length = 4) (hx' : x'.length = 4) (f f' : LnkFile)
    (hf : (LnkFile.init env none true (.indata (bareHeader ++ twoPages x))).res = .ok f)
    (hf' : (LnkFile.init env none true (.indata (bareHeader ++ twoPages x'))).res = .ok f') (all : Bool) :
    (f.printJson all).res = (f'.printJson all).res := by
  have nf : ∀ y : Bytes, ∀ p ∈ twoPieces y, ∀ e, ¬ BlockFault p e := by
    intro y p hp e he
    simp only [twoPieces, List.mem_cons, List.not_mem_nil, or_false] at hp
    rcases hp with rfl | rfl <;> rcases he with ⟨h, -⟩ | ⟨h, -⟩ <;> exact absurd h (by simp)
  have nm : blockName 0xA0000004 = "CONSOLE_CODEPAGE_BLOCK" := by decide +kernel
  have last : ∀ y z : Bytes, ∀ name p, LastReadable name (twoPieces y) p → LastReadable name (twoPieces z) p := by
    rintro y z name p ⟨pre, post, h1, h2, h3⟩
    have rd : ReportedAs "CONSOLE_CODEPAGE_BLOCK" ⟨12, pageBlock, some 0xA0000004⟩ :=
      ⟨0xA0000004, rfl, nm, by
        unfold BlockReadable
        simp only [Nat.reduceEqDiff, if_false, if_true]
        decide +kernel⟩
    rcases pre with _ | ⟨q, _ | ⟨q', pre⟩⟩
    · simp only [twoPieces, List.nil_append, List.cons.injEq] at h1
      obtain ⟨rfl, rfl⟩ := h1
      obtain ⟨s, hs, hk, -⟩ := h2
      cases hs
      rw [nm] at hk
      subst hk
      exact absurd rd (h3 _ (by simp))
    · simp only [twoPieces, List.cons_append, List.nil_append, List.cons.injEq] at h1
      obtain ⟨-, rfl, rfl⟩ := h1
      exact ⟨[_], [], rfl, h2, h3⟩
    · have := congrArg List.length h1
      simp [twoPieces] at this
  obtain ⟨-, -, H⟩ := last_block_counts env none true (usable_default env) bareHeader _ _ bareHeader_open (twoPages x) (twoPages x') (le 4 0)
    (twoPieces x) (twoPieces x') (two_whole x hx) (two_whole x' hx') (by simp [twoPages, hx, hx']) (nf x) (nf x')
    ⟨fun name _ p => ⟨last x x' name p, last x' x name p⟩, by simp [twoPieces, nm]⟩ (.indata _) (.indata _) rfl rfl
  exact (H f f' hf hf').2.2 all

end Verif.Props
