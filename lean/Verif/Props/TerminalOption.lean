import Verif.Lemmas.Reduced
import Verif.Props.Log
import Verif.Spec.Appended

/-
C88: what `allow_terminal_blocks` changes.
-/

namespace Verif

open Spec Py

namespace TerminalOption

theorem set_new (d : Dict) (k : String) (v : PyVal) (h : k ∉ Dict.keys d) : d.set k v = d ++ [(k, v)] := by
  induction d with
  | nil => rfl
  | cons kv d ih =>
    obtain ⟨k', v'⟩ := kv
    simp only [Dict.keys, List.map_cons, List.mem_cons, not_or] at h
    rw [Dict.set, if_neg (fun e => h.1 e.symm), ih h.2]
    rfl

theorem keys_set_sub (d : Dict) (k : String) (v : PyVal) (x : String) (h : x ∈ Dict.keys (d.set k v)) : x = k ∨ x ∈ Dict.keys d := by
  induction d with
  | nil => exact .inl (by simpa [Dict.set, Dict.keys] using h)
  | cons kv d ih =>
    obtain ⟨k', v'⟩ := kv
    rw [Dict.set] at h
    split at h
    · simp only [Dict.keys, List.map_cons, List.mem_cons] at h ⊢
      exact h.imp_right .inr
    · simp only [Dict.keys, List.map_cons, List.mem_cons] at h ⊢
      rcases h with h | h
      · exact .inr (.inl h)
      · exact (ih h).imp_right .inr

/-- Only a terminal block is reported as one. -/
theorem no_terminal (xs : List Extra) (hx : ∀ x ∈ xs, x.cls ≠ .terminal) (res : Dict) (hr : "TERMINAL_BLOCK" ∉ Dict.keys res) :
    Py.Ret (fun d => "TERMINAL_BLOCK" ∉ Dict.keys d) (ExtraData.asDictLoop xs res) := by
  induction xs generalizing res with
  | nil => exact Py.ret_pure hr
  | cons x xs ih =>
    have hn : "TERMINAL_BLOCK" ≠ x.cls.name := by
      have := hx x (by simp)
      revert this
      cases x.cls <;> simp [ExtraClass.name]
    have hs : ∀ res v, "TERMINAL_BLOCK" ∉ Dict.keys res → "TERMINAL_BLOCK" ∉ Dict.keys (res.set x.cls.name v) := by
      intro res v h h'
      rcases keys_set_sub _ _ _ _ h' with h' | h'
      · exact hn h'
      · exact h h'
    have ih := fun res hr => ih (fun y hy => hx y (by simp [hy])) res hr
    unfold ExtraData.asDictLoop
    have hr' : "TERMINAL_BLOCK" ∉ Dict.keys (if x.cls = .unknown ∧ ¬ res.has x.cls.name then res.set x.cls.name (.list []) else res) := by
      split
      · exact hs _ _ hr
      · exact hr
    generalize (if x.cls = .unknown ∧ ¬ res.has x.cls.name then res.set x.cls.name (.list []) else res) = res at hr'
    refine Py.ret_bind fun r _ => ?_
    cases r with
    | error e => exact Py.ret_bind fun _ _ => ih _ hr'
    | ok d =>
      dsimp only
      split
      · exact ih _ (hs _ _ hr')
      · exact ih _ (hs _ _ hr')

theorem loop_append (xs ys : List Extra) (res : Dict) :
    ExtraData.asDictLoop (xs ++ ys) res = ExtraData.asDictLoop xs res >>= ExtraData.asDictLoop ys := by
  induction xs generalizing res with
  | nil => rw [List.nil_append, ExtraData.asDictLoop, pure_bind]
  | cons x xs ih =>
    rw [List.cons_append, ExtraData.asDictLoop, ExtraData.asDictLoop, bind_assoc]
    congr 1
    funext r
    cases r with
    | error e => simp only [ih, bind_assoc]
    | ok d =>
      simp only [ih]
      split <;> rfl

theorem asDict_terminal (tp : TextProc) (last : Bytes) (h : 4 ≤ last.length) (res : Dict) :
    ExtraData.asDictLoop [⟨.terminal, tp, last⟩] res =
      pure (res.set "TERMINAL_BLOCK" (.dict [("size", .int last.length), ("appended_data_sha256", .str (tp.env.sha256hex (last.drop 4)))])) := by
  have hd : Extra.asDict ⟨.terminal, tp, last⟩ =
      pure [("size", .nat last.length), ("appended_data_sha256", .str (tp.env.sha256hex (last.drop 4)))] := by
    unfold Extra.asDict
    rw [ExtraData.size_terminal tp last h, pure_bind]
    rfl
  rw [ExtraData.asDictLoop, hd]
  rfl

/-- Blocks before a terminal block have the bytes they declare; at most two bytes belong to none. -/
theorem sizes_before {b : Bytes} {l : List Piece} {last : Bytes} (h : Cut b l last) (hl : 4 < last.length) :
    ((ExtraData.signed l).map Piece.declared).sum + last.length ≤ b.length ∧
      b.length ≤ ((ExtraData.signed l).map Piece.declared).sum + last.length + 2 := by
  induction h with
  | stop => simp [ExtraData.signed]
  | @block b n l last h hn _ ih =>
    obtain ⟨h1, h2⟩ := ih hl
    rw [List.length_drop] at h1 h2
    unfold ExtraData.signed at h1 h2 ⊢
    rw [List.filter_cons]
    split
    · rw [List.map_cons, List.sum_cons]
      dsimp only
      omega
    · rename_i hs
      have : b.length < 8 := by
        by_contra h8
        have h9 : uAt 4 b 4 = some _ := if_pos (by omega)
        simp [h9] at hs
      omega

/-- Two objects made of the same bytes differ in nothing but the blocks and the size. -/
theorem parts_alike {env : Env} {cp : Option String} {b : Bytes} {L : Layout} {l : List Piece} {last : Bytes} {f g : LnkFile}
    {allow : Bool} (hf : LnkFile.Parts env cp allow b L l last f) (hg : LnkFile.Parts env cp false b L l last g) :
    f = { g with
      extras := ⟨g.extras.data ++ if allow = true ∧ 4 < last.length then [⟨.terminal, TextProc.mk' env cp, last⟩] else []⟩
      size := f.size } := by
  obtain ⟨i, h, ti, t, inf, sd, x, n⟩ := f
  obtain ⟨i', h', ti', t', inf', sd', x', n'⟩ := g
  have e1 := hf.indata.trans hg.indata.symm
  have e2 := hf.header.trans hg.header.symm
  have e3 := hf.targetIndex.trans hg.targetIndex.symm
  have e4 := hf.targets.trans hg.targets.symm
  have e5 := hf.info.trans hg.info.symm
  simp only at e1 e2 e3 e4 e5
  subst e1 e2 e3 e4 e5
  have e6 := hf.strings.symm.trans hg.strings
  have e7 := hf.extras
  have e8 := hg.extras
  simp only [Except.ok.injEq, Bool.false_eq_true, false_and, if_false, List.append_nil] at e6 e7 e8
  subst e6 e7 e8
  rfl

end TerminalOption

namespace Props

open Log TerminalOption

/-- C88: with and without `allow_terminal_blocks` the constructor says the same and raises the same. -/
theorem terminal_option_construction (env : Env) (cp : Option String) (ht : Tame (TextProc.mk' env cp)) (src : Source) :
    (LnkFile.init env cp true src).warns = (LnkFile.init env cp false src).warns ∧
    ∀ e, (LnkFile.init env cp true src).res = .error e ↔ (LnkFile.init env cp false src).res = .error e := by
  by_cases hb : src.bytes = []
  · have : LnkFile.init env cp true src = LnkFile.init env cp false src := by
      cases src with
      | fhandle b =>
        change b = [] at hb
        subst hb
        rfl
      | indata b =>
        change b = [] at hb
        subst hb
        rfl
    rw [this]
    exact ⟨rfl, fun e => Iff.rfl⟩
  · have h := fun w => construction_logged env cp ht true src hb w
    have h' := fun w => construction_logged env cp ht false src hb w
    rcases hT : LnkFile.init env cp true src with ⟨w, e | f⟩
    · have h1 := ((h' w).2 e).1 (((h w).2 e).2 hT)
      rw [h1]
      exact ⟨rfl, fun e => Iff.rfl⟩
    · obtain ⟨f', h1⟩ := (h' w).1.1 ((h w).1.2 ⟨f, hT⟩)
      rw [h1]
      exact ⟨rfl, fun e => by simp⟩

/-- C88: the two objects give the same command, and the same report unless data follow the terminal block; then the size is the
length of the file, and the report has one entry more.  The same is said and raised. -/
theorem terminal_option_report (env : Env) (cp : Option String) (ht : Tame (TextProc.mk' env cp)) (src : Source) (f g : LnkFile)
    (hf : (LnkFile.init env cp true src).res = .ok f) (hg : (LnkFile.init env cp false src).res = .ok g) :
    ∃ L l last, layout src.bytes = some L ∧ Cut (src.bytes.drop L.extraAt) l last ∧ f.lnkCommand = g.lnkCommand ∧
      (last.length ≤ 4 → f = g) ∧
      (4 < last.length → f.size = src.bytes.length ∧ g.size + (last.length - 4) ≤ src.bytes.length ∧
        src.bytes.length ≤ g.size + (last.length - 4) + 2 ∧ ∀ all, f.getJson all = (do
          let j ← g.getJson all
          pure (withAppended src.bytes.length last.length (env.sha256hex (last.drop 4)) j))) := by
  obtain ⟨L, l, last, hl, hc, hP, -⟩ := LnkFile.parts_tame ht (LnkFile.init_ok hf)
  obtain ⟨L', l', last', hl', hc', hP', -⟩ := LnkFile.parts_tame ht (LnkFile.init_ok hg)
  rw [hl] at hl'
  cases hl'
  obtain ⟨rfl, rfl⟩ := cut_unique hc hc'
  have hfg := parts_alike hP hP'
  obtain ⟨n, h1, h2⟩ := hP.size
  obtain ⟨m, h3, h4⟩ := hP'.size
  rw [if_neg (by simp), Nat.add_zero] at h3
  have hx := hP'.extras
  rw [if_neg (by simp), List.append_nil] at hx
  refine ⟨L, l, last, hl, hc, by rw [hfg]; rfl, fun h => ?_, fun h => ?_⟩
  · rw [if_neg (by omega), Nat.add_zero] at h1
    have : f.size = g.size := by rw [h2, h4, h1, h3]
    rw [hfg, this, if_neg (by omega), List.append_nil]
  · rw [if_pos ⟨rfl, h⟩] at h1
    obtain ⟨h5, h6⟩ := sizes_before hc h
    rw [List.length_drop] at h5 h6
    have hsz : f.size = src.bytes.length := by omega
    refine ⟨hsz, by omega, by omega, fun all => ?_⟩
    rw [hsz, if_pos ⟨rfl, h⟩] at hfg
    have hE : f.extras.asDict = g.extras.asDict >>= fun E => pure (E ++ [appendedEntry last.length (env.sha256hex (last.drop 4))]) := by
      rw [hfg]
      unfold ExtraData.asDict
      rw [loop_append]
      refine Py.bind_congr_ok fun E hE => ?_
      rw [asDict_terminal _ _ (by omega), set_new _ _ _ ((no_terminal _ ?_ _ (by simp [Dict.keys])).out E hE)]
      · rfl
      · rw [hx]
        intro x hx
        obtain ⟨p, -, hp⟩ := List.mem_filterMap.1 hx
        obtain ⟨s, -, rfl⟩ := Option.map_eq_some_iff.1 hp
        exact Extra.extraKind_ne_terminal s
    unfold LnkFile.getJson
    rw [hE, hfg]
    show (g.jsonHeader >>= fun header => g.jsonTarget >>= fun target => g.jsonInfo >>= fun info => _) = _
    simp only [bind_assoc, pure_bind]
    congr 1; funext header
    congr 1; funext target
    congr 1; funext info
    congr 1; funext E
    congr 1
    cases target <;> simp [withAppended, PyVal.nat]

/-- A header, a block of one byte, the terminal block, and two more bytes. -/
def shortTail : Bytes := le 4 76 ++ shellLinkCLSID.encode ++ List.replicate 56 0 ++ [1, 0, 0, 0, 0, 7, 8]

/-- The byte that belongs to no block is counted in one of the sizes only. -/
example (env : Env) : ∃ f g, (LnkFile.init env none true (.indata shortTail)).res = .ok f ∧
    (LnkFile.init env none false (.indata shortTail)).res = .ok g ∧ f.size = 83 ∧ g.size = 80 ∧
    ∀ all, f.getJson all = (do
      let j ← g.getJson all
      pure (withAppended 83 6 (env.sha256hex [7, 8]) j)) := by
  have hl : layout shortTail = some ⟨76, 0, 76, 76, 76⟩ := by decide +kernel
  have hc := Cut.block (b := shortTail.drop 76) (n := 1) (l := []) (last := [0, 0, 0, 0, 7, 8]) (by decide +kernel) (by decide)
    (.stop (.inr (by decide +kernel)))
  have hlen : shortTail.length = 83 := by decide +kernel
  have ha : Acceptable shortTail := by
    refine ⟨⟨76, 0, by decide +kernel, by decide +kernel, by decide +kernel⟩, fun L l last h1 h2 p hp hs => ?_⟩
    rw [hl] at h1
    cases h1
    obtain ⟨rfl, -⟩ := cut_unique h2 hc
    rw [List.mem_singleton.1 hp] at hs
    exact absurd hs (by decide +kernel)
  obtain ⟨f, hf⟩ := (constructor_outcome env none (usable_default env) true (.indata shortTail)).1.2 ha
  obtain ⟨g, hg⟩ := (constructor_outcome env none (usable_default env) false (.indata shortTail)).1.2 ha
  obtain ⟨L, l, last, h1, h2, -, -, h4⟩ := terminal_option_report env none (tame_usable (usable_default env)) _ f g hf hg
  change layout shortTail = _ at h1
  rw [hl] at h1
  cases h1
  obtain ⟨rfl, rfl⟩ := cut_unique h2 hc
  obtain ⟨h5, -, -, h6⟩ := h4 (by decide)
  change f.size = shortTail.length at h5
  obtain ⟨L, l, last, n, h1, h2, h7, h8⟩ := size_accounting env none (usable_default env) false _ g hg
  change layout shortTail = _ at h1
  rw [hl] at h1
  cases h1
  obtain ⟨rfl, rfl⟩ := cut_unique h2 hc
  refine ⟨f, g, hf, hg, by rw [h5, hlen], ?_, fun all => ?_⟩
  · rw [h8, h7]
    decide +kernel
  · have := h6 all
    change f.getJson all = (g.getJson all >>= fun j => pure (withAppended shortTail.length 6 (env.sha256hex [7, 8]) j)) at this
    rw [hlen] at this
    exact this

end Props

end Verif
