import Verif.Lemmas.Order
import Verif.Props.OpenEnd
import Verif.Props.Printed

/-
C94: the order of blocks of different kinds.
-/

namespace Verif.Props

open Spec Py Log Verif.OpenEnd Verif.Order

namespace Order

theorem init_process {env : Env} {cp : Option String} {allow : Bool} {s : Source} (h : s.bytes ≠ []) :
    LnkFile.init env cp allow s = LnkFile.process env cp allow s.bytes := by
  cases s with
  | fhandle x => rfl
  | indata x => exact if_neg h

/-- The report of the bytes behind a bare header. -/
theorem bare_report {h : LnkFile} (hh : h.header = ⟨bareHeader⟩) (ht : h.targets = none) (hi : h.info = none) :
    ∃ d : Dict, ∀ all, h.getJson all = (do
      let x ← h.extras.asDict
      pure ([("size", .nat h.size), ("header", .dict (if all then d else LnkFile.pruneHeader d)),
        ("link_info", .dict (if all then [] else LnkFile.pruneInfo [])), ("data", .dict h.stringData.asDict), ("extra", .dict x)] : Dict)) := by
  obtain ⟨d, hd⟩ := bare_header h hh
  refine ⟨d, fun all => ?_⟩
  unfold LnkFile.getJson
  rw [hd, show h.jsonTarget = pure none by unfold LnkFile.jsonTarget; rw [ht],
    show h.jsonInfo = pure [] by unfold LnkFile.jsonInfo; rw [hi]]
  rfl

/-- Reports that differ in the order of the added blocks. -/
theorem join_shown {r s s' : Dict} (hz : s.lookup "size" = s'.lookup "size") {d d' : Dict} (hs : s.lookup "extra" = some (.dict d))
    (hs' : s'.lookup "extra" = some (.dict d')) (hd : d.keys.Nodup) (hd' : d'.keys.Nodup) (hk : ∀ k, d.get? k = d'.get? k)
    (hr : ∀ a, ("extra", PyVal.dict a) ∈ r → (Dict.keys a).Nodup) :
    SameShown (.dict (joinReports r s)) (.dict (joinReports r s')) := by
  refine .dict (.refl _) ?_ ?_
  · unfold joinReports
    rw [List.map_map, List.map_map]
    rfl
  · unfold joinReports
    rw [List.map_map, List.map_map, List.forall₂_map_left_iff, List.forall₂_map_right_iff, List.forall₂_same]
    rintro ⟨k, v⟩ hv
    dsimp only [Function.comp]
    by_cases h1 : k = "size"
    · subst h1
      rw [hz]
      simp only [if_true, String.reduceEq, if_false]
      exact SameShown.refl _
    · by_cases h2 : k = "extra"
      · subst h2
        rw [hs, hs']
        cases v with
        | dict a =>
          simp only [if_true]
          refine shown_of_get (nodup_merge (hr a hv) hd) (nodup_merge (hr a hv) hd') fun k => ?_
          rw [get?_merge, get?_merge, hk]
        | _ => exact SameShown.refl _
      · simp only [h1, h2, if_false]
        split <;> split <;> exact SameShown.refl _

end Order

open Order

/-- C94: when the blocks of every kind are the same, in the same order, it does not matter how blocks of different kinds follow each
other: the constructor does the same, size and command are the same, and the printed report is the same; the warnings are the same, in
another order. If one report fails, so does the other. -/
theorem block_order (env : Env) (cp : Option String) (allow : Bool) (hcp : UsableCodePage (TextProc.mk' env cp)) (b : Bytes) (L : Layout)
    (l₀ : List Piece) (hO : OpenEnd b L l₀) (t t' last : Bytes) (l l' : List Piece) (h : WholeBlocks t l last)
    (h' : WholeBlocks t' l' last) (hk : SameByKind l l') (src src' : Source) (hs : src.bytes = b ++ t) (hs' : src'.bytes = b ++ t') :
    (LnkFile.init env cp allow src).warns = (LnkFile.init env cp allow src').warns ∧
    (∀ e, (LnkFile.init env cp allow src).res = .error e ↔ (LnkFile.init env cp allow src').res = .error e) ∧
    ∀ f f', (LnkFile.init env cp allow src).res = .ok f → (LnkFile.init env cp allow src').res = .ok f' →
      f.size = f'.size ∧ f.lnkCommand = f'.lnkCommand ∧ ∀ all,
        ((∃ e, (f.printJson all).res = .error e) ∧ ∃ e, (f'.printJson all).res = .error e) ∨
        ∃ text, (f.printJson all).res = .ok text ∧ (f'.printJson all).res = .ok text ∧
          (f.printJson all).warns.Perm (f'.printJson all).warns := by
  have ht := tame_usable hcp
  have hne : b ≠ [] := by
    rintro rfl
    have := hO.layout
    simp [Spec.layout, uAt] at this
  obtain ⟨w, n, xs, ys, hx, hy, hf, hlen⟩ := read_order (TextProc.mk' env cp) allow h h' hk
  have hp : LnkFile.init env cp allow src = _ := (init_process (by rw [hs]; simp [hne])).trans
    (by rw [hs, process_join env cp allow ht hO t, process_bare, hx])
  have hp' : LnkFile.init env cp allow src' = _ := (init_process (by rw [hs']; simp [hne])).trans
    (by rw [hs', process_join env cp allow ht hO t', process_bare, hy])
  rcases hq : LnkFile.process env cp allow b with ⟨w₀, e₀ | f₀⟩
  · rw [hq] at hp hp'
    rw [hp, hp']
    exact ⟨rfl, fun e => Iff.rfl, fun f f' hf _ => by cases hf⟩
  rw [hq] at hp hp'
  refine ⟨by rw [hp, hp']; rfl, fun e => by rw [hp, hp']; exact ⟨fun h => (by cases h), fun h => (by cases h)⟩, fun f f' hf1 hf2 => ?_⟩
  have hf1' := hf1
  have hf2' := hf2
  rw [hp] at hf1
  rw [hp'] at hf2
  obtain rfl := Except.ok.inj hf1
  obtain rfl := Except.ok.inj hf2
  refine ⟨?_, rfl, fun all => ?_⟩
  · unfold joined
    dsimp only
    rw [hlen]
  obtain ⟨L', l', last', h1, h2, hP, -⟩ := LnkFile.parts_tame ht (b := b) (f := f₀) (by rw [hq])
  rw [hO.layout] at h1
  cases h1
  obtain ⟨rfl, rfl⟩ := cut_unique hO.cut h2
  have hj := report_join hO t hP (h := ⟨bareHeader ++ t, ⟨bareHeader⟩, 78, none, none, ⟨[], 0⟩, ⟨xs⟩, 76 + n + min (t.length - n) 4⟩)
    rfl rfl rfl (by dsimp only; omega) all
  have hj' := report_join hO t' hP (h := ⟨bareHeader ++ t', ⟨bareHeader⟩, 78, none, none, ⟨[], 0⟩, ⟨ys⟩, 76 + n + min (t'.length - n) 4⟩)
    rfl rfl rfl (by dsimp only; omega) all
  obtain ⟨d, hd⟩ := bare_report (h := ⟨bareHeader ++ t, ⟨bareHeader⟩, 78, none, none, ⟨[], 0⟩, ⟨xs⟩, 76 + n + min (t.length - n) 4⟩)
    rfl rfl rfl
  obtain ⟨d', hd'⟩ := bare_report (h := ⟨bareHeader ++ t', ⟨bareHeader⟩, 78, none, none, ⟨[], 0⟩, ⟨ys⟩, 76 + n + min (t'.length - n) 4⟩)
    rfl rfl rfl
  rw [hd] at hj
  rw [hd'] at hj'
  have err : ∀ {g : LnkFile} {e : PyErr}, (g.getJson all).res = .error e → (g.printJson all).res = .error e := by
    intro g e he
    unfold LnkFile.printJson
    rw [Py.bind_res, he]
  have wrn : ∀ {g : LnkFile} {j : Dict}, (g.getJson all).res = .ok j → (g.printJson all).warns = (g.getJson all).warns := by
    intro g j hg
    unfold LnkFile.printJson
    rcases hh : g.getJson all with ⟨w, r⟩
    rw [hh] at hg
    dsimp only at hg
    subst hg
    exact List.append_nil _
  rcases hr : f₀.getJson all with ⟨wr, e | r⟩
  · rw [hr] at hj hj'
    exact .inl ⟨⟨e, err (by rw [hj]; rfl)⟩, ⟨e, err (by rw [hj']; rfl)⟩⟩
  rw [hr] at hj hj'
  have hn : ∀ a, ("extra", PyVal.dict a) ∈ r → (Dict.keys a).Nodup := by
    intro a ha
    obtain ⟨hdr, tgt, inf, ext, -, -, -, hext, rfl⟩ := LnkFile.getJson_ok_iff.1 (congrArg Py.res hr)
    have : a = ext := by
      cases tgt <;> simpa using ha
    subst this
    exact (loop_neat (res := []) ⟨List.nodup_nil, fun v h => by cases h⟩ hext).1
  rcases asDict_order hf with ⟨⟨e, he⟩, ⟨e', he'⟩⟩ | ⟨x, y, hx1, hy1, hw, nx, ny, hxy⟩
  · exact .inl ⟨⟨e, err (by rw [hj]; simp only [Py.bind_res, he])⟩, ⟨e', err (by rw [hj']; simp only [Py.bind_res, he'])⟩⟩
  · have k1 := congrArg Py.res hj
    have k2 := congrArg Py.res hj'
    simp only [Py.bind_res, hx1, hy1, Py.pure_res] at k1 k2
    have hS := (print_json_same env cp cp hcp hcp allow allow all all src src' _ _ hf1' hf2' _ _ k1 k2).2
      (join_shown (by rw [hlen]; rfl) rfl rfl nx ny hxy hn)
    refine .inr ⟨_, printed_of_json k1, by rw [← hS, printed_of_json k1], ?_⟩
    rw [wrn k1, wrn k2, hj, hj']
    rcases hX : ExtraData.asDict ⟨xs⟩ with ⟨wx, _⟩
    rcases hY : ExtraData.asDict ⟨ys⟩ with ⟨wy, _⟩
    rw [hX] at hx1 hw
    rw [hY] at hy1 hw
    dsimp only at hx1 hy1 hw
    subst hx1 hy1
    show (wr ++ ((wx ++ []) ++ [])).Perm (wr ++ ((wy ++ []) ++ []))
    simp only [List.append_nil]
    exact hw.append_left _

/-! ### examples -/

/-- Bytes that announce a code page. -/
def pageBlock : Bytes := le 4 12 ++ le 4 0xA0000004 ++ le 4 1252

/-- A block of an unknown kind. -/
def strangeBlock (n : Nat) : Bytes := le 4 10 ++ le 4 0xA0000042 ++ le 2 n

theorem bareHeader_open : OpenEnd bareHeader ⟨76, 0, 76, 76, 76⟩ [] where
  layout := by decide +kernel
  cut := .stop (b := []) (.inl (by decide +kernel))
  there := by decide +kernel
  strings := by decide +kernel
  whole := by simp
  info h := by cases h

private theorem whole_first : WholeBlocks (pageBlock ++ strangeBlock 1 ++ strangeBlock 2 ++ le 4 0)
    [⟨12, pageBlock, some 0xA0000004⟩, ⟨10, strangeBlock 1, some 0xA0000042⟩, ⟨10, strangeBlock 2, some 0xA0000042⟩] (le 4 0) where
  cut := .block (b := pageBlock ++ strangeBlock 1 ++ strangeBlock 2 ++ le 4 0) (n := 12) (by decide +kernel) (by decide)
    (.block (b := strangeBlock 1 ++ strangeBlock 2 ++ le 4 0) (n := 10) (by decide +kernel) (by decide)
      (.block (b := strangeBlock 2 ++ le 4 0) (n := 10) (by decide +kernel) (by decide) (.stop (b := le 4 0) (.inr (by decide +kernel)))))
  whole := by decide +kernel

private theorem whole_between : WholeBlocks (strangeBlock 1 ++ pageBlock ++ strangeBlock 2 ++ le 4 0)
    [⟨10, strangeBlock 1, some 0xA0000042⟩, ⟨12, pageBlock, some 0xA0000004⟩, ⟨10, strangeBlock 2, some 0xA0000042⟩] (le 4 0) where
  cut := .block (b := strangeBlock 1 ++ pageBlock ++ strangeBlock 2 ++ le 4 0) (n := 10) (by decide +kernel) (by decide)
    (.block (b := pageBlock ++ strangeBlock 2 ++ le 4 0) (n := 12) (by decide +kernel) (by decide)
      (.block (b := strangeBlock 2 ++ le 4 0) (n := 10) (by decide +kernel) (by decide) (.stop (b := le 4 0) (.inr (by decide +kernel)))))
  whole := by decide +kernel

private theorem same_blocks : SameByKind
    [⟨12, pageBlock, some 0xA0000004⟩, ⟨10, strangeBlock 1, some 0xA0000042⟩, ⟨10, strangeBlock 2, some 0xA0000042⟩]
    [⟨10, strangeBlock 1, some 0xA0000042⟩, ⟨12, pageBlock, some 0xA0000004⟩, ⟨10, strangeBlock 2, some 0xA0000042⟩] := by
  intro kind
  have n1 : blockName 0xA0000004 = "CONSOLE_CODEPAGE_BLOCK" := by decide +kernel
  have n2 : blockName 0xA0000042 = "UNKNOWN_BLOCK" := by decide +kernel
  simp only [List.filter_cons, List.filter_nil, Option.map_some, n1, n2, Option.some.injEq, decide_eq_true_eq]
  by_cases h1 : "CONSOLE_CODEPAGE_BLOCK" = kind
  · subst h1
    rfl
  · rw [if_neg h1, if_neg h1]

/-- A block of a known kind before and between two blocks of unknown kinds: the reports are not the same, the printed ones are. -/
example (env : Env) : ∃ f f' r r' text,
    (LnkFile.init env none false (.indata (bareHeader ++ (pageBlock ++ strangeBlock 1 ++ strangeBlock 2 ++ le 4 0)))).res = .ok f ∧
    (LnkFile.init env none false (.indata (bareHeader ++ (strangeBlock 1 ++ pageBlock ++ strangeBlock 2 ++ le 4 0)))).res = .ok f' ∧
    (f.getJson true).res = .ok r ∧ (f'.getJson true).res = .ok r' ∧ r ≠ r' ∧
    (f.printJson true).res = .ok text ∧ (f'.printJson true).res = .ok text := by
  have key : ∀ (t : Bytes) (l : List Piece) (x : Dict), WholeBlocks t l (le 4 0) →
      ExtraData.asDict ⟨ExtraData.objects (TextProc.mk' env none) l⟩ = pure x →
      ∃ f d, (LnkFile.init env none false (.indata (bareHeader ++ t))).res = .ok f ∧ (f.getJson true).res =
        .ok [("size", .nat f.size), ("header", .dict d), ("link_info", .dict []), ("data", .dict []), ("extra", .dict x)] := by
    intro t l x hw hx
    obtain ⟨w, n, xs, ys, h1, -, -, -⟩ := read_order (TextProc.mk' env none) false hw hw fun _ => rfl
    have hne : bareHeader ++ t ≠ [] := fun h => absurd (congrArg List.length h) (by
      rw [List.length_append, show bareHeader.length = 76 by decide +kernel]
      simp)
    have hi : LnkFile.init env none false (.indata (bareHeader ++ t)) = _ := (init_process (s := .indata (bareHeader ++ t)) hne).trans
      ((process_bare env none false t).trans (by rw [h1]))
    have hxs : xs = ExtraData.objects (TextProc.mk' env none) l := by
      unfold OpenEnd.read at h1
      rw [ExtraData.init_cut hw.cut] at h1
      obtain ⟨_, hq, h1⟩ := bind_ok_iff.1 (congrArg Py.res h1)
      obtain rfl := Except.ok.inj hq
      obtain ⟨_, -, h1⟩ := bind_ok_iff.1 h1
      have := congrArg (fun r : ExtraData × Nat => r.1.data) (Except.ok.inj h1)
      simpa using this.symm
    subst hxs
    obtain ⟨d, hd⟩ := bare_report (h := ⟨bareHeader ++ t, ⟨bareHeader⟩, 78, none, none, ⟨[], 0⟩,
      ⟨ExtraData.objects (TextProc.mk' env none) l⟩, 76 + n + min (t.length - n) 4⟩) rfl rfl rfl
    refine ⟨_, d, by rw [hi]; rfl, ?_⟩
    rw [hd true]
    dsimp only
    rw [hx]
    rfl
  obtain ⟨f, d, hf, hj⟩ := key _ _ [("CONSOLE_CODEPAGE_BLOCK", .dict [("size", .nat 12), ("code_page", .nat 1252)]),
    ("UNKNOWN_BLOCK", .list [.dict [("size", .nat 10), ("extra_data_sha256", .str (env.sha256hex ((strangeBlock 1).drop 4)))],
      .dict [("size", .nat 10), ("extra_data_sha256", .str (env.sha256hex ((strangeBlock 2).drop 4)))]])] whole_first (by rfl)
  obtain ⟨f', d', hf', hj'⟩ := key _ _ [("UNKNOWN_BLOCK", .list [.dict [("size", .nat 10), ("extra_data_sha256", .str (env.sha256hex ((strangeBlock 1).drop 4)))],
      .dict [("size", .nat 10), ("extra_data_sha256", .str (env.sha256hex ((strangeBlock 2).drop 4)))]]),
      ("CONSOLE_CODEPAGE_BLOCK", .dict [("size", .nat 12), ("code_page", .nat 1252)])] whole_between (by rfl)
  obtain ⟨-, -, h⟩ := block_order env none false (usable_default env) bareHeader _ _ bareHeader_open _ _ (le 4 0) _ _ whole_first
    whole_between same_blocks (.indata _) (.indata _) rfl rfl
  obtain ⟨-, -, h⟩ := h f f' hf hf'
  rcases h true with ⟨⟨e, he⟩, -⟩ | ⟨text, h1, h2, -⟩
  · rw [printed_of_json hj] at he
    cases he
  · refine ⟨f, f', _, _, text, hf, hf', hj, hj', fun h => ?_, h1, h2⟩
    simp at h

end Verif.Props
