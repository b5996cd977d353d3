import Verif.Lemmas.WarnedFile
import Verif.Props.Outcome

/-
C71: which extra blocks are reported, for arbitrary bytes.
-/

namespace Verif.Props

open Spec Py

/-! ### helpers -/

namespace Blocks

variable {tp : TextProc}

theorem reportsOf_append (name : String) (a b : List Extra) : reportsOf name (a ++ b) = reportsOf name a ++ reportsOf name b := by
  simp [reportsOf]

theorem objects_cons_none {p : Piece} (h : p.signature = none) (l : List Piece) :
    ExtraData.objects tp (p :: l) = ExtraData.objects tp l := by
  simp [ExtraData.objects, h]

theorem objects_cons_some {p : Piece} {s : Nat} (h : p.signature = some s) (l : List Piece) :
    ExtraData.objects tp (p :: l) = ⟨extraKind s, tp, p.bytes⟩ :: ExtraData.objects tp l := by
  simp [ExtraData.objects, h]

/-- What is known about the pieces of a file that has been read. -/
structure Good (l : List Piece) : Prop where
  size : ∀ p ∈ l, ∀ s, p.signature = some s → uAt 4 p.bytes 0 = some p.declared
  length : ∀ p ∈ l, p.bytes.length ≤ p.declared

theorem good_cut {b : Bytes} {l : List Piece} {last : Bytes} (hc : Cut b l last) (h4 : ∀ p ∈ ExtraData.signed l, 4 ≤ p.declared) :
    Good l := by
  refine ⟨fun p hp s hs => ?_, fun p hp => (ExtraData.cut_declared hc p hp).2.2.1⟩
  have := (ExtraData.cut_declared hc p hp).2.1
  rwa [if_pos (h4 p (List.mem_filter.2 ⟨hp, by simp [hs]⟩))] at this

theorem Good.mono {l l' : List Piece} (h : Good l) (hl : ∀ p ∈ l', p ∈ l) : Good l' :=
  ⟨fun p hp => h.size p (hl p hp), fun p hp => h.length p (hl p hp)⟩

theorem Good.okIff {l : List Piece} (h : Good l) (hcp : UsableCodePage tp) {p : Piece} (hp : p ∈ l) {s : Nat} (hs : p.signature = some s) :
    OkIff (BlockReadable s p.bytes) (Extra.asDict ⟨extraKind s, tp, p.bytes⟩) :=
  Extra.asDict_okIff hcp (h.size p hp s hs) (h.length p hp)

theorem report_size {x : Extra} {n : Nat} {d : Dict} (hx : x.cls ≠ .terminal) (hu : uAt 4 x.raw 0 = some n) (hd : x.asDict.res = .ok d) :
    Dict.get? d "size" = some (.nat n) := by
  unfold Extra.asDict at hd
  rw [ExtraData.size_eq _ hx, hu, pure_bind] at hd
  obtain ⟨fs, -, h⟩ := bind_ok_iff.1 hd
  cases h
  rfl

/-- The reports under a name are those of the pieces reported under it. -/
theorem reportsOf_nil {l : List Piece} (h : Good l) (hcp : UsableCodePage tp) (name : String) (hn : ∀ p ∈ l, ¬ ReportedAs name p) :
    reportsOf name (ExtraData.objects tp l) = [] := by
  induction l with
  | nil => rfl
  | cons p l ih =>
    have ih := ih (h.mono fun q hq => List.mem_cons_of_mem _ hq) fun q hq => hn q (List.mem_cons_of_mem _ hq)
    rcases hs : p.signature with _ | s
    · rw [objects_cons_none hs, ih]
    · rw [objects_cons_some hs]
      unfold reportsOf at ih ⊢
      rw [List.filterMap_cons, ih]
      by_cases hk : (extraKind s).name = name
      · simp only [hk, if_true]
        rcases hr : (Extra.asDict ⟨extraKind s, tp, p.bytes⟩).res with e | d
        · rfl
        · exact absurd ⟨s, hs, by rw [← hk, extraKind_name], (h.okIff hcp List.mem_cons_self hs).1 ⟨d, hr⟩⟩ (hn p List.mem_cons_self)
      · simp only [hk, if_false]

theorem reportsOf_cons {l : List Piece} {p : Piece} (h : Good (p :: l)) (hcp : UsableCodePage tp) (name : String) {s : Nat}
    (hs : p.signature = some s) (hk : blockName s = name) (hr : BlockReadable s p.bytes) :
    ∃ d, (Extra.asDict ⟨extraKind s, tp, p.bytes⟩).res = .ok d ∧ Dict.get? d "size" = some (.nat p.declared) ∧
      reportsOf name (ExtraData.objects tp (p :: l)) = d :: reportsOf name (ExtraData.objects tp l) := by
  obtain ⟨d, hd⟩ := (h.okIff hcp List.mem_cons_self hs).2 hr
  refine ⟨d, hd, report_size (Extra.extraKind_ne_terminal s) (h.size p List.mem_cons_self s hs) hd, ?_⟩
  rw [objects_cons_some hs]
  unfold reportsOf
  rw [List.filterMap_cons]
  simp only [extraKind_name, hk, if_true, hd]
  rfl

theorem readable_of_unknown {s : Nat} (h : blockName s = "UNKNOWN_BLOCK") (b : Bytes) : BlockReadable s b := by
  unfold BlockReadable
  repeat' rw [if_neg]
  · trivial
  all_goals
    rintro rfl
    revert h
    decide

theorem reportsOf_unknown {l : List Piece} (h : Good l) (hcp : UsableCodePage tp) :
    (reportsOf "UNKNOWN_BLOCK" (ExtraData.objects tp l)).map (Dict.get? · "size") =
      (l.filter fun p => p.signature.map blockName == some "UNKNOWN_BLOCK").map fun p => some (PyVal.nat p.declared) := by
  induction l with
  | nil => rfl
  | cons p l ih =>
    have ih := ih (h.mono fun q hq => List.mem_cons_of_mem _ hq)
    rcases hs : p.signature with _ | s
    · rw [objects_cons_none hs, ih, List.filter_cons_of_neg (by simp [hs])]
    · by_cases hk : blockName s = "UNKNOWN_BLOCK"
      · obtain ⟨d, -, h2, h3⟩ := reportsOf_cons h hcp "UNKNOWN_BLOCK" hs hk (readable_of_unknown hk _)
        rw [h3, List.map_cons, ih, h2, List.filter_cons_of_pos (by simp [hs, hk]), List.map_cons]
      · rw [objects_cons_some hs, List.filter_cons_of_neg (by simp [hs, hk]), ← ih]
        unfold reportsOf
        rw [List.filterMap_cons]
        simp only [extraKind_name, hk, if_false]

theorem mem_objects {l : List Piece} {x : Extra} (hx : x ∈ ExtraData.objects tp l) :
    ∃ p ∈ l, ∃ s, p.signature = some s ∧ x = ⟨extraKind s, tp, p.bytes⟩ := by
  unfold ExtraData.objects at hx
  obtain ⟨p, hp, hpx⟩ := List.mem_filterMap.1 hx
  rcases hs : p.signature with _ | s
  · simp [hs] at hpx
  · rw [hs] at hpx
    exact ⟨p, hp, s, hs, by simpa using hpx.symm⟩

theorem blockName_ne_terminal (s : Nat) : blockName s ≠ "TERMINAL_BLOCK" := by
  rw [← extraKind_name]
  intro h
  exact Extra.extraKind_ne_terminal s (ExtraClass.name_inj h)

theorem caught_of_ok {e : ExtraData} {d : Dict} (h : e.asDict.res = .ok d) :
    ∀ x ∈ e.data, ∀ err, x.asDict.res = .error err → Caught err := by
  rcases ExtraData.first_or_none (fun x : Extra => ∃ err, x.asDict.res = .error err ∧ ¬ Caught err) e.data with hn | ⟨pre, x, post, hl, hpre, err, hx, hc⟩
  · intro x hx err he
    by_contra hc
    exact hn x hx ⟨err, he, hc⟩
  · obtain ⟨xs⟩ := e
    dsimp only at hl
    subst hl
    rw [extra_report_escape pre post x err (fun y hy e he => by_contra fun hc => hpre y hy ⟨e, he, hc⟩) hx hc] at h
    cases h

/-- The pieces of a file, and its blocks. -/
theorem pieces (env : Env) (cp : Option String) (hcp : UsableCodePage (TextProc.mk' env cp)) (allow : Bool) (src : Source)
    (f : LnkFile) (hf : (LnkFile.init env cp allow src).res = .ok f) :
    ∃ L l last, layout src.bytes = some L ∧ Cut (src.bytes.drop L.extraAt) l last ∧
      LnkFile.Parts env cp allow src.bytes L l last f ∧ (∀ p ∈ ExtraData.signed l, 4 ≤ p.declared) ∧ Good l := by
  have hp := LnkFile.init_ok hf
  obtain ⟨L, l, last, hL, hc, P⟩ := constructed env cp hcp allow src f hf
  have h4 : ∀ p ∈ ExtraData.signed l, 4 ≤ p.declared := by
    have h := LnkFile.process_some env cp hcp allow src.bytes L hL l last hc
    by_contra hn
    rw [if_neg hn, hp] at h
    cases h
  exact ⟨L, l, last, hL, hc, P, h4, good_cut hc h4⟩

end Blocks

/-! ### C71 -/

/-- C71: which names `extra` has, and whose report is there: of a name the last block that can be reported (and none if there is no
such block); all unknown blocks, in order; the bytes behind the terminal block iff they were asked for. -/
theorem blocks_reported (env : Env) (cp : Option String) (hcp : UsableCodePage (TextProc.mk' env cp)) (allow : Bool) (src : Source)
    (f : LnkFile) (hf : (LnkFile.init env cp allow src).res = .ok f) :
    ∃ L l last, layout src.bytes = some L ∧ Cut (src.bytes.drop L.extraAt) l last ∧
      ∀ all j, (f.getJson all).res = .ok j → ∃ E : Dict, j.get? "extra" = some (.dict E) ∧ E.keys.Nodup ∧
        (∀ name, name ≠ "UNKNOWN_BLOCK" → name ≠ "TERMINAL_BLOCK" →
          (name ∈ E.keys ↔ ∃ p ∈ l, ReportedAs name p) ∧
          ∀ pre p post, l = pre ++ p :: post → ReportedAs name p → (∀ q ∈ post, ¬ ReportedAs name q) →
            ∃ d : Dict, E.get? name = some (.dict d) ∧ d.get? "size" = some (.nat p.declared) ∧
              ∃ x ∈ f.extras.data, x.cls.name = name ∧ x.raw = p.bytes ∧ x.asDict.res = .ok d) ∧
        (if ∃ p ∈ l, p.signature.map blockName = some "UNKNOWN_BLOCK" then
          ∃ ds : List Dict, E.get? "UNKNOWN_BLOCK" = some (.list (ds.map .dict)) ∧ ds.map (·.get? "size") =
            (l.filter fun p => p.signature.map blockName == some "UNKNOWN_BLOCK").map fun p => some (.nat p.declared)
        else E.get? "UNKNOWN_BLOCK" = none) ∧
        (if allow = true ∧ 4 < last.length then
          ∃ d : Dict, E.get? "TERMINAL_BLOCK" = some (.dict d) ∧ d.get? "size" = some (.nat last.length)
        else E.get? "TERMINAL_BLOCK" = none) := by
  obtain ⟨L, l, last, hL, hc, P, h4, hg⟩ := Blocks.pieces env cp hcp allow src f hf
  refine ⟨L, l, last, hL, hc, fun all j hj => ?_⟩
  obtain ⟨header, target, info, E, -, -, -, hE, rfl⟩ := LnkFile.getJson_ok_iff.1 hj
  obtain ⟨E', hE', hn, hnamed, hunk⟩ := extra_report f.extras (Blocks.caught_of_ok hE)
  obtain rfl : E' = E := by rw [hE'] at hE; exact Except.ok.inj hE
  generalize hT : (if allow = true ∧ 4 < last.length then [(⟨.terminal, TextProc.mk' env cp, last⟩ : Extra)] else []) = T
  have hdata : f.extras.data = ExtraData.objects (TextProc.mk' env cp) l ++ T := by rw [P.extras, hT]
  have hTt : ∀ name, name ≠ "TERMINAL_BLOCK" → reportsOf name T = [] := by
    intro name h
    rw [← hT]
    split
    · unfold reportsOf
      rw [List.filterMap_cons, if_neg (fun h' => h h'.symm)]
      rfl
    · rfl
  refine ⟨E', ?_, hn, fun name h1 h2 => ?_, ?_, ?_⟩
  · cases target <;> rfl
  · have hget : E'.get? name = ((reportsOf name (ExtraData.objects (TextProc.mk' env cp) l)).getLast?).map .dict := by
      rw [hnamed name h1, hdata, Blocks.reportsOf_append, hTt name h2, List.append_nil]
    have hlast : ∀ pre p post, l = pre ++ p :: post → ReportedAs name p → (∀ q ∈ post, ¬ ReportedAs name q) →
        ∃ d : Dict, E'.get? name = some (.dict d) ∧ d.get? "size" = some (.nat p.declared) ∧
          ∃ x ∈ f.extras.data, x.cls.name = name ∧ x.raw = p.bytes ∧ x.asDict.res = .ok d := by
      rintro pre p post rfl ⟨s, hs, hk, hr⟩ hpost
      obtain ⟨d, e1, e2, e3⟩ := Blocks.reportsOf_cons (hg.mono (l' := p :: post) fun q hq => List.mem_append_right _ hq) hcp name hs hk hr
      rw [Blocks.reportsOf_nil (hg.mono fun q hq => by simp [hq]) hcp name hpost] at e3
      refine ⟨d, ?_, e2, ⟨extraKind s, TextProc.mk' env cp, p.bytes⟩, ?_, by rw [extraKind_name, hk], rfl, e1⟩
      · rw [hget, ExtraData.objects_append, Blocks.reportsOf_append, e3]
        simp
      · rw [hdata, ExtraData.objects_append, Blocks.objects_cons_some hs]
        simp
    refine ⟨⟨fun hm => ?_, fun ⟨p, hp, hr⟩ => ?_⟩, hlast⟩
    · by_contra hno
      rw [Blocks.reportsOf_nil hg hcp name (fun p hp hr => hno ⟨p, hp, hr⟩)] at hget
      exact (Dict.get?_none_iff _ _).1 hget hm
    · obtain ⟨pre, p, post, hl, hp, hpost⟩ : ∃ pre p post, l = pre ++ p :: post ∧ ReportedAs name p ∧ ∀ q ∈ post, ¬ ReportedAs name q := by
        rcases ExtraData.first_or_none (ReportedAs name) l.reverse with hn | ⟨pre, p, post, hl, hpre, hp⟩
        · exact absurd hr (hn p (by simpa using hp))
        · refine ⟨post.reverse, p, pre.reverse, ?_, hp, fun q hq => hpre q (by simpa using hq)⟩
          rw [← List.reverse_reverse l, hl]
          simp
      obtain ⟨d, hd, -⟩ := hlast pre p post hl hp hpost
      by_contra hm
      rw [(Dict.get?_none_iff _ _).2 hm] at hd
      cases hd
  · rw [hdata, Blocks.reportsOf_append, hTt _ (by decide), List.append_nil] at hunk
    have hiff : (∃ x ∈ ExtraData.objects (TextProc.mk' env cp) l ++ T, x.cls.name = "UNKNOWN_BLOCK") ↔
        ∃ p ∈ l, p.signature.map blockName = some "UNKNOWN_BLOCK" := by
      constructor
      · rintro ⟨x, hx, hk⟩
        rcases List.mem_append.1 hx with hx | hx
        · obtain ⟨p, hp, s, hs, rfl⟩ := Blocks.mem_objects hx
          exact ⟨p, hp, by rw [hs, Option.map_some, ← extraKind_name, hk]⟩
        · rw [← hT] at hx
          split at hx
          · simp only [List.mem_singleton] at hx
            subst hx
            exact absurd (show "TERMINAL_BLOCK" = "UNKNOWN_BLOCK" from hk) (by decide)
          · cases hx
      · rintro ⟨p, hp, hk⟩
        rcases hs : p.signature with _ | s
        · simp [hs] at hk
        · refine ⟨⟨extraKind s, TextProc.mk' env cp, p.bytes⟩, List.mem_append_left _ ?_, ?_⟩
          · exact List.mem_filterMap.2 ⟨p, hp, by simp [hs]⟩
          · rw [hs] at hk
            simp only [extraKind_name]
            exact Option.some.inj hk
    simp only [hiff] at hunk
    by_cases hu : ∃ p ∈ l, p.signature.map blockName = some "UNKNOWN_BLOCK"
    · rw [if_pos hu] at hunk ⊢
      exact ⟨_, hunk, Blocks.reportsOf_unknown hg hcp⟩
    · rw [if_neg hu] at hunk ⊢
      exact hunk
  · have hget := hnamed "TERMINAL_BLOCK" (by decide)
    have h0 : reportsOf "TERMINAL_BLOCK" (ExtraData.objects (TextProc.mk' env cp) l) = [] :=
      Blocks.reportsOf_nil hg hcp _ fun p _ ⟨s, _, hk, _⟩ => Blocks.blockName_ne_terminal s hk
    rw [hdata, Blocks.reportsOf_append, h0, List.nil_append, ← hT] at hget
    by_cases ha : allow = true ∧ 4 < last.length
    · rw [if_pos ha] at hget ⊢
      refine ⟨_, hget, ?_⟩
      have : 4 + (last.drop 4).length = last.length := by rw [List.length_drop]; omega
      show some (PyVal.nat (4 + (last.drop 4).length)) = _
      rw [this]
    · rw [if_neg ha] at hget ⊢
      exact hget

theorem Blocks.filterMap_silent {α : Type} {x : Py α} (h : Warned (fun w => unreportedBlock w = none) x) :
    x.warns.filterMap unreportedBlock = [] := List.filterMap_eq_nil_iff.2 h.out

/-- C71: the blocks that are missing are announced: one warning for each, in their order, and for no other block. -/
theorem blocks_announced (env : Env) (cp : Option String) (hcp : UsableCodePage (TextProc.mk' env cp)) (allow : Bool) (src : Source)
    (f : LnkFile) (hf : (LnkFile.init env cp allow src).res = .ok f) :
    ∃ L l last, layout src.bytes = some L ∧ Cut (src.bytes.drop L.extraAt) l last ∧
      ∀ all j, (f.getJson all).res = .ok j → (f.getJson all).warns.filterMap unreportedBlock = unreadableNames l := by
  obtain ⟨L, l, last, hL, hc, P, h4, hg⟩ := Blocks.pieces env cp hcp allow src f hf
  refine ⟨L, l, last, hL, hc, fun all j hj => ?_⟩
  obtain ⟨header, target, info, E, h1, h2, h3, hE, rfl⟩ := LnkFile.getJson_ok_iff.1 hj
  obtain ⟨E', hE', -, -, -⟩ := extra_report f.extras (Blocks.caught_of_ok hE)
  have hitem : ∀ w, ItemWarn w → unreportedBlock w = none := by rintro w (_ | _ | _ | _ | _ | _) <;> rfl
  have hw : (f.getJson all).warns = f.jsonHeader.warns ++ (f.jsonTarget.warns ++ (f.jsonInfo.warns ++ f.extras.asDict.warns)) := by
    unfold LnkFile.getJson
    simp only [bind_warns, h1, h2, h3, hE]
    simp
  have w1 : Warned (fun w => unreportedBlock w = none) f.jsonHeader :=
    LnkHeader.warned_jsonHeader (b := src.bytes) (by rintro w (_ | _ | _ | _ | _ | _) <;> rfl) P.header
  have w2 : Warned (fun w => unreportedBlock w = none) f.jsonTarget := by
    have ht := P.targets
    split at ht
    · exact LnkFile.warned_jsonTarget hitem ht hcp
    · unfold LnkFile.jsonTarget
      rw [ht]
      exact warned_pure _
  have w3 : Warned (fun w => unreportedBlock w = none) f.jsonInfo := LnkFile.warned_jsonInfo (fun _ => rfl) f
  rw [hw, List.filterMap_append, List.filterMap_append, List.filterMap_append, Blocks.filterMap_silent w1, Blocks.filterMap_silent w2,
    Blocks.filterMap_silent w3, List.nil_append, List.nil_append, List.nil_append, hE', P.extras]
  clear hE' hE hw w1 w2 w3 h1 h2 h3 hj
  dsimp only
  rw [List.flatMap_append, List.filterMap_append]
  have hT : ∀ g : Extra → List Warn, (∀ tp b, g ⟨.terminal, tp, b⟩ = []) →
      (if allow = true ∧ 4 < last.length then [(⟨.terminal, TextProc.mk' env cp, last⟩ : Extra)] else []).flatMap g = [] := by
    intro g hg
    split
    · simp [hg]
    · rfl
  rw [hT _ fun _ _ => rfl, List.filterMap_nil, List.append_nil]
  clear hT hc h4 P
  induction l with
  | nil => rfl
  | cons p l ih =>
    have ih := ih (hg.mono fun q hq => List.mem_cons_of_mem _ hq)
    unfold unreadableNames at ih ⊢
    rcases hs : p.signature with _ | s
    · rw [Blocks.objects_cons_none hs, ih, List.filterMap_cons, hs]
      rfl
    · rw [Blocks.objects_cons_some hs, List.flatMap_cons, List.filterMap_append, List.filterMap_append, ih, List.filterMap_cons, hs]
      have hs' : Warned (fun w => unreportedBlock w = none) (Extra.asDict ⟨extraKind s, TextProc.mk' env cp, p.bytes⟩) :=
        Extra.warned_asDict hcp p hs (by
          rintro w (_ | _ | ⟨-, h⟩ | _)
          · rfl
          · rfl
          · exact hitem w h
          · rfl)
      rw [Blocks.filterMap_silent hs', List.nil_append]
      have hok := hg.okIff hcp List.mem_cons_self hs
      simp only [Option.bind_some]
      by_cases hr : BlockReadable s p.bytes
      · obtain ⟨d, hd⟩ := hok.2 hr
        rw [hd, if_pos hr]
        rfl
      · rcases hd : (Extra.asDict ⟨extraKind s, TextProc.mk' env cp, p.bytes⟩).res with e | d
        · rw [if_neg hr, ← extraKind_name]
          rfl
        · exact absurd (hok.1 ⟨d, hd⟩) hr

/-! ### a file with a console block of twelve bytes -/

/-- A header; console properties of which the fields are missing, a code page, a block of unknown kind. -/
def shortConsole : Bytes := le 4 76 ++ List.replicate 16 7 ++ le 4 0 ++ List.replicate 52 0 ++
  (le 4 12 ++ le 4 0xA0000002 ++ le 4 1) ++ (le 4 12 ++ le 4 0xA0000004 ++ le 4 1252) ++ (le 4 9 ++ le 4 7 ++ [1]) ++ le 4 0

def shortConsolePieces : List Piece :=
  [ ⟨12, le 4 12 ++ le 4 0xA0000002 ++ le 4 1, some 0xA0000002⟩, ⟨12, le 4 12 ++ le 4 0xA0000004 ++ le 4 1252, some 0xA0000004⟩,
    ⟨9, le 4 9 ++ le 4 7 ++ [1], some 7⟩ ]

theorem shortConsole_layout : layout shortConsole = some ⟨76, 0, 76, 76, 76⟩ := by decide +kernel

theorem shortConsole_cut : Cut (shortConsole.drop 76) shortConsolePieces (le 4 0) := by
  have h1 := Cut.block (b := shortConsole.drop 100) (n := 9) (by decide +kernel) (by decide)
    (.stop (b := (shortConsole.drop 100).drop 9) (.inr (by decide +kernel)))
  have h2 := Cut.block (b := shortConsole.drop 88) (n := 12) (by decide +kernel) (by decide) h1
  have h3 := Cut.block (b := shortConsole.drop 76) (n := 12) (by decide +kernel) (by decide) h2
  have e1 : (shortConsole.drop 100).drop 9 = le 4 0 := by decide +kernel
  have e2 : (⟨9, (shortConsole.drop 100).take 9, uAt 4 (shortConsole.drop 100) 4⟩ : Piece) = ⟨9, le 4 9 ++ le 4 7 ++ [1], some 7⟩ := by
    congr 1 <;> decide +kernel
  have e3 : (⟨12, (shortConsole.drop 88).take 12, uAt 4 (shortConsole.drop 88) 4⟩ : Piece) =
      ⟨12, le 4 12 ++ le 4 0xA0000004 ++ le 4 1252, some 0xA0000004⟩ := by
    congr 1 <;> decide +kernel
  have e4 : (⟨12, (shortConsole.drop 76).take 12, uAt 4 (shortConsole.drop 76) 4⟩ : Piece) =
      ⟨12, le 4 12 ++ le 4 0xA0000002 ++ le 4 1, some 0xA0000002⟩ := by
    congr 1 <;> decide +kernel
  rw [e1, e2, e3, e4] at h3
  exact h3

theorem shortConsole_blocks : ¬ BlockReadable 0xA0000002 (le 4 12 ++ le 4 0xA0000002 ++ le 4 1) ∧
    BlockReadable 0xA0000004 (le 4 12 ++ le 4 0xA0000004 ++ le 4 1252) ∧ BlockReadable 7 (le 4 9 ++ le 4 7 ++ [1]) :=
  ⟨by simp [BlockReadable], by simp [BlockReadable], by simp [BlockReadable]⟩

/-- The object exists, and it has a report. -/
theorem shortConsole_ok (env : Env) (allow all : Bool) :
    ∃ f, (LnkFile.init env none allow (.indata shortConsole)).res = .ok f ∧ ∃ j, (f.getJson all).res = .ok j := by
  obtain ⟨f, hf⟩ := (constructor_outcome env none (usable_default env) allow (.indata shortConsole)).1.2 (by
    refine ⟨⟨76, 0, by decide, by decide, by decide, by decide⟩, ?_⟩
    intro L l last hL hc p hp hs
    simp only [Source.bytes] at hL hc
    rw [shortConsole_layout] at hL
    cases hL
    obtain ⟨rfl, -⟩ := cut_unique hc shortConsole_cut
    simp only [shortConsolePieces, List.mem_cons, List.not_mem_nil, or_false] at hp
    rcases hp with rfl | rfl | rfl <;> decide)
  refine ⟨f, hf, ?_⟩
  obtain ⟨L, l, last, hL, hc, h⟩ := report_returns env none (usable_default env) allow _ f hf
  simp only [Source.bytes] at hL hc h
  rw [shortConsole_layout] at hL
  cases hL
  obtain ⟨rfl, -⟩ := cut_unique hc shortConsole_cut
  refine (h all).2 ⟨⟨by decide, by decide⟩, by decide +kernel, fun h => absurd h (by decide), fun p hp e he => ?_⟩
  simp only [shortConsolePieces, List.mem_cons, List.not_mem_nil, or_false] at hp
  rcases hp with rfl | rfl | rfl <;> rcases he with ⟨h, -⟩ | ⟨h, -⟩ <;> exact absurd h (by decide)

/-- The console block is missing and announced; the other two are there. -/
example (env : Env) (allow all : Bool) (f : LnkFile) (hf : (LnkFile.init env none allow (.indata shortConsole)).res = .ok f)
    (j : Dict) (hj : (f.getJson all).res = .ok j) :
    (∃ E : Dict, j.get? "extra" = some (.dict E) ∧ "CONSOLE_PROPERTIES_BLOCK" ∉ E.keys ∧ "CONSOLE_CODEPAGE_BLOCK" ∈ E.keys ∧
      "UNKNOWN_BLOCK" ∈ E.keys ∧ "TERMINAL_BLOCK" ∉ E.keys) ∧
    (f.getJson all).warns.filterMap unreportedBlock = ["CONSOLE_PROPERTIES_BLOCK"] := by
  constructor
  · obtain ⟨L, l, last, hL, hc, h⟩ := blocks_reported env none (usable_default env) allow _ f hf
    simp only [Source.bytes] at hL hc
    rw [shortConsole_layout] at hL
    cases hL
    obtain ⟨rfl, rfl⟩ := cut_unique hc shortConsole_cut
    obtain ⟨E, hE, -, hn, hu, ht⟩ := h all j hj
    refine ⟨E, hE, fun hm => ?_, ?_, ?_, ?_⟩
    · obtain ⟨p, hp, s, hs, hk, hr⟩ := (hn _ (by decide) (by decide)).1.1 hm
      simp only [shortConsolePieces, List.mem_cons, List.not_mem_nil, or_false] at hp
      rcases hp with rfl | rfl | rfl <;> cases hs
      · exact shortConsole_blocks.1 hr
      · exact absurd hk (by decide)
      · exact absurd hk (by decide)
    · exact (hn _ (by decide) (by decide)).1.2 ⟨_, .tail _ (.head _), _, rfl, by decide, shortConsole_blocks.2.1⟩
    · rw [if_pos ⟨_, .tail _ (.tail _ (.head _)), by decide⟩] at hu
      obtain ⟨ds, hd, -⟩ := hu
      by_contra hm
      rw [(Dict.get?_none_iff _ _).2 hm] at hd
      cases hd
    · rw [if_neg (by simp)] at ht
      exact (Dict.get?_none_iff _ _).1 ht
  · obtain ⟨L, l, last, hL, hc, h⟩ := blocks_announced env none (usable_default env) allow _ f hf
    simp only [Source.bytes] at hL hc
    rw [shortConsole_layout] at hL
    cases hL
    obtain ⟨rfl, rfl⟩ := cut_unique hc shortConsole_cut
    rw [h all j hj]
    unfold unreadableNames shortConsolePieces
    simp only [List.filterMap_cons, List.filterMap_nil, Option.bind_some]
    rw [if_neg shortConsole_blocks.1, if_pos shortConsole_blocks.2.1, if_pos shortConsole_blocks.2.2]
    rfl

end Verif.Props
