import Verif.Lemmas.LogFile
import Verif.Lemmas.LogSole
import Verif.Props.Main
import Verif.Props.Outcome

/-
C80: everything that is said and raised, in order.
-/

namespace Verif

open Spec Py

namespace Spec.Log

theorem tame_usable {tp : TextProc} (h : UsableCodePage tp) : Tame tp := by
  intro c hc a ha
  obtain ⟨h1, s, h2⟩ := h a
  unfold decodeNamed at h1
  unfold decodeNamedReplace at h2
  rw [if_neg ha, hc] at h1 h2
  refine ⟨fun e he => .inl (h1 e he), fun e he => ?_⟩
  rw [show c.replace a = .ok s from h2] at he
  cases he

theorem tame_unknown {tp : TextProc} (h : tp.env.resolve tp.cp = none) : Tame tp := by
  intro c hc
  rw [h] at hc
  cases hc

theorem sole_tool (tp : TextProc) (target : Bool) (b : Bytes) : Sole (tool tp target b) := by
  unfold tool
  refine sole_ite (sole_fail _) (sole_andThen (sole_construction tp b) ?_)
  rintro w e w' e' ⟨L, l, last, hl, hc, h⟩ ⟨L', l', last', hl', hc', h'⟩
  rw [hl] at hl'
  cases hl'
  obtain ⟨rfl, rfl⟩ := Props.cut_unique hc hc'
  revert h h'
  cases target
  · exact sole_report _ _ _ _ _ _ _ _
  · exact sole_need _ _ _ _ _ _

end Spec.Log

namespace Py

/-- A log that is determined, in terms of the result. -/
theorem logs_result {x : Py α} {l : Log} (hs : Log.Sole l) (hx : Logs x l) (w : List Warn) :
    (l w none ↔ ∃ a, x = ⟨w, .ok a⟩) ∧ ∀ y, l w (some y) ↔ x = ⟨w, .error y⟩ := by
  rcases x with ⟨u, e | a⟩
  · constructor
    · rw [logs_iff hs hx]
      constructor
      · rintro ⟨-, h⟩; cases h
      · rintro ⟨a, h⟩; cases h
    · intro y
      rw [logs_iff hs hx]
      constructor
      · rintro ⟨rfl, h⟩; cases h; rfl
      · rintro h; cases h; exact ⟨rfl, rfl⟩
  · constructor
    · rw [logs_iff hs hx]
      constructor
      · rintro ⟨rfl, -⟩; exact ⟨a, rfl⟩
      · rintro ⟨a, h⟩; cases h; exact ⟨rfl, rfl⟩
    · intro y
      rw [logs_iff hs hx]
      constructor
      · rintro ⟨-, h⟩; cases h
      · rintro h; cases h

end Py

namespace LnkFile

theorem logs_init {env : Env} {cp : Option String} (ht : Log.Tame (TextProc.mk' env cp)) (allow : Bool) {src : Source}
    (hb : src.bytes ≠ []) : Logs (init env cp allow src) (Log.construction (TextProc.mk' env cp) src.bytes) := by
  have h := logs_process ht allow hb
  cases src with
  | fhandle b => exact h
  | indata b =>
    simp only [init]
    rw [if_neg (show b ≠ [] from hb)]
    exact h

theorem logs_printJson {f : LnkFile} {all : Bool} {l : Log} (h : Logs (f.getJson all) l) : Logs (f.printJson all) l :=
  logs_map _ h

theorem logs_niceJson {f : LnkFile} {all : Bool} {l : Log} (h : Logs (f.getJson all) l) : Logs (f.niceJson all) l := by
  unfold niceJson
  have := logs_bind (m := Log.quiet) (f := fun res => do
    let lf ← f.formatLinkFlags
    let ff ← f.formatFileFlags
    let res := atKey "header"
      (fun h => Dict.set (Dict.set (Dict.erase h "r_hotkey") "link_flags" (.str lf)) "file_flags" (.str ff)) res
    let res_json := placeholder (niceTop res [])
    let header := match Dict.get? res_json "EMPTY_LINE_PLACEHOLDERHEADER" with
      | some (.dict h) => h
      | _ => []
    (pure (Dict.update header (Dict.erase res_json "EMPTY_LINE_PLACEHOLDERHEADER")) : Py Dict)) h ?_
  · rwa [Log.andThen_quiet] at this
  · intro j hj
    obtain ⟨header, _, _, _, h1, -⟩ := getJson_ok_iff.1 hj
    obtain ⟨_, -, -, -, v, u, hv, hu, -⟩ := header_keys h1 all
    rw [(Props.flag_summary_of_raw f).1 v hv, (Props.flag_summary_of_raw f).2 u hu]
    exact logs_pure _

/-- Reading the command. -/
theorem logs_command {env : Env} {cp : Option String} (htp : Log.Tame (TextProc.mk' env cp)) {allow : Bool} {b : Bytes} {L : Layout}
    {l : List Piece} {last : Bytes} (hl : layout b = some L) {f : LnkFile} (hP : Parts env cp allow b L l last f) :
    Logs f.lnkCommand (Log.command b L) := by
  have hflags : uAt 4 f.header.raw 20 = some L.flags := by
    rw [hP.header]
    exact (Props.layout_flags hl).1
  obtain ⟨-, -, h1, h2⟩ := (StringData.init_logs hflags htp b L.stringsAt).2 _ hP.strings
  have hm := Props.command_missing f L.flags hflags
  rw [h1, h2] at hm
  unfold Log.command
  rcases hm.2 with h | ⟨c, h⟩
  · rw [h, Log.need_neg]
    · exact logs_raise _
    · rintro ⟨h3, h4⟩
      rcases hm.1.1 h with ⟨h5, h6⟩ | ⟨h5, h6⟩
      · exact h6 ⟨h5, h3 h5⟩
      · exact h6 ⟨h5, h4 h5⟩
  · rw [h, Log.need_pos]
    · exact logs_pure _
    · have hn : ¬ f.lnkCommand = Py.raise .typeError := by rw [h]; exact fun h => nomatch congrArg Py.res h
      rw [hm.1] at hn
      constructor
      · exact fun h5 h6 => hn (.inl ⟨h5, fun h7 => h7.2 h6⟩)
      · exact fun h5 h6 => hn (.inr ⟨h5, fun h7 => h7.2 h6⟩)

end LnkFile

/-- What the tool says and raises is what the computation before the output says and raises. -/
theorem Out.logs_after {x : Py α} {k : α → Out} {l m : Log} (hx : Logs x l) (hk : ∀ a, x.res = .ok a → Logs (k a).py m) :
    Logs (Out.after x k).py (Log.andThen l m) := by
  have h : (Out.after x k).py = x >>= fun a => (k a).py := by
    rcases x with ⟨w, e | a⟩ <;> rfl
  rw [h]
  exact logs_bind hx hk

namespace Props

open Log

/-- C80: what making the object says, in order, and how it ends. -/
theorem construction_logged (env : Env) (cp : Option String) (ht : Tame (TextProc.mk' env cp)) (allow : Bool) (src : Source)
    (hb : src.bytes ≠ []) (w : List Warn) :
    (construction (TextProc.mk' env cp) src.bytes w none ↔ ∃ f, LnkFile.init env cp allow src = ⟨w, .ok f⟩) ∧
    ∀ x, construction (TextProc.mk' env cp) src.bytes w (some x) ↔ LnkFile.init env cp allow src = ⟨w, .error x⟩ :=
  logs_result (sole_construction _ _) (LnkFile.logs_init ht allow hb) w

/-- C80: what the report of an object says, in order, and how it ends; `print_json` and the readable form say the same. -/
theorem report_logged (env : Env) (cp : Option String) (ht : Tame (TextProc.mk' env cp)) (allow : Bool) (src : Source) (f : LnkFile)
    (hf : (LnkFile.init env cp allow src).res = .ok f) :
    ∃ L l last, layout src.bytes = some L ∧ Cut (src.bytes.drop L.extraAt) l last ∧ ∀ all w,
      ((report (TextProc.mk' env cp) src.bytes L l w none ↔ ∃ j, f.getJson all = ⟨w, .ok j⟩) ∧
        ∀ x, report (TextProc.mk' env cp) src.bytes L l w (some x) ↔ f.getJson all = ⟨w, .error x⟩) ∧
      ((report (TextProc.mk' env cp) src.bytes L l w none ↔ ∃ t, f.printJson all = ⟨w, .ok t⟩) ∧
        ∀ x, report (TextProc.mk' env cp) src.bytes L l w (some x) ↔ f.printJson all = ⟨w, .error x⟩) ∧
      ((report (TextProc.mk' env cp) src.bytes L l w none ↔ ∃ d, f.niceJson all = ⟨w, .ok d⟩) ∧
        ∀ x, report (TextProc.mk' env cp) src.bytes L l w (some x) ↔ f.niceJson all = ⟨w, .error x⟩) := by
  obtain ⟨L, l, last, hl, hc, hP, h4⟩ := LnkFile.parts_tame ht (LnkFile.init_ok hf)
  refine ⟨L, l, last, hl, hc, fun all w => ?_⟩
  have h := LnkFile.logs_report ht hl hc hP h4 all
  have hs := sole_report (TextProc.mk' env cp) src.bytes L l
  exact ⟨logs_result hs h w, logs_result hs (LnkFile.logs_printJson h) w, logs_result hs (LnkFile.logs_niceJson h) w⟩

/-- C80: what the command-line tool says, in order, and how it ends, whatever it writes. -/
theorem tool_logged (env : Env) (dump : Dict → Str) (args : Args) (ht : Tame (TextProc.mk' env (some args.cp))) (b : Bytes)
    (w : List Warn) :
    (tool (TextProc.mk' env (some args.cp)) args.target b w none ↔ (main env dump args (some b)).py = ⟨w, .ok ()⟩) ∧
    ∀ x, tool (TextProc.mk' env (some args.cp)) args.target b w (some x) ↔ (main env dump args (some b)).py = ⟨w, .error x⟩ := by
  have key : Logs (main env dump args (some b)).py (tool (TextProc.mk' env (some args.cp)) args.target b) := by
    by_cases hb : b = []
    · subst hb
      exact ⟨rfl, rfl⟩
    · unfold tool
      rw [if_neg hb]
      have := Out.logs_after (k := fun lnk => if args.target then Out.after (lnk.printShortcutTarget args.json) Out.print
        else if args.json then Out.after (lnk.printJson args.print_all) Out.print
        else lnk.printLnkFile dump args.print_all) (LnkFile.logs_init ht true (src := .fhandle b) hb)
        (m := fun w e => ∃ L l last, layout b = some L ∧ Cut (b.drop L.extraAt) l last ∧
          (if args.target then command b L else report (TextProc.mk' env (some args.cp)) b L l) w e) ?_
      · exact this
      · intro f hf
        obtain ⟨L, l, last, hl, hc, hP, h4⟩ := LnkFile.parts_tame ht (LnkFile.init_ok hf)
        refine ⟨L, l, last, hl, hc, ?_⟩
        have hr := LnkFile.logs_report ht hl hc hP h4 args.print_all
        cases htg : args.target
        · simp only [Bool.false_eq_true, if_false]
          cases hj : args.json
          · simp only [Bool.false_eq_true, if_false]
            have := Out.logs_after (m := quiet) (k := fun new_res_json =>
              (Out.print "Windows Shortcut Information:".toList).andThen
                (Out.print (TextWrap.indent (TextWrap.replace "EMPTY_LINE_PLACEHOLDER".toList ['\n'] (dump new_res_json)) "   ".toList)))
              (LnkFile.logs_niceJson hr) (fun _ _ => ⟨rfl, rfl⟩)
            rw [andThen_quiet] at this
            exact this
          · simp only [if_true]
            have := Out.logs_after (m := quiet) (k := Out.print) (LnkFile.logs_printJson hr) (fun _ _ => ⟨rfl, rfl⟩)
            rw [andThen_quiet] at this
            exact this
        · simp only [if_true]
          have := Out.logs_after (m := quiet) (k := Out.print) (x := f.printShortcutTarget args.json)
            (logs_map _ (LnkFile.logs_command ht hl hP)) (fun _ _ => ⟨rfl, rfl⟩)
          rw [andThen_quiet] at this
          exact this
  have h := logs_result (sole_tool _ _ _) key w
  refine ⟨h.1.trans ⟨fun ⟨_, h⟩ => h, fun h => ⟨(), h⟩⟩, h.2⟩

/-- C80: what is said, and how it ends, is determined by the bytes. -/
theorem log_determined (tp : TextProc) (target : Bool) (b : Bytes) (w w' : List Warn) (e e' : Option PyErr)
    (h : tool tp target b w e) (h' : tool tp target b w' e') : w = w' ∧ e = e' :=
  sole_tool tp target b w e w' e' h h'

/-! #### a case -/

theorem all_step {l : Log} {ls : List Log} {u v : List Warn} {e : Option PyErr} (h : l u none) (h' : all ls v e) :
    all (l :: ls) (u ++ v) e := .inr ⟨u, v, rfl, h, h'⟩

theorem all_pass {l : Log} {ls : List Log} {v : List Warn} {e : Option PyErr} (h : l [] none) (h' : all ls v e) :
    all (l :: ls) v e := .inr ⟨[], v, rfl, h, h'⟩

theorem all_stop {l : Log} {ls : List Log} {w : List Warn} {x : PyErr} (h : l w (some x)) : all (l :: ls) w (some x) :=
  .inl ⟨h, fun h => nomatch h⟩

theorem room_there {n : Nat} {b : Bytes} (h : n ≤ b.length) : room n b [] none := ⟨rfl, .inl ⟨h, rfl⟩⟩

/-- A header that claims 80 bytes, and a Darwin block whose wide descriptor is half a surrogate pair. -/
def halfPair : Bytes :=
  le 4 80 ++ [1, 20, 2, 0, 0, 0, 0, 0, 0xC0, 0, 0, 0, 0, 0, 0, 0x46] ++ List.replicate 60 0 ++
    (le 4 270 ++ le 4 0xA0000006 ++ List.replicate 260 0 ++ [0x00, 0xD8])

/-- The size is announced three times, the descriptor is read twice before it turns out too short. -/
theorem halfPair_logged (tp : TextProc) :
    tool tp false halfPair [.mustBe "size" (.int 76) (.int 80), .mustBe "size" (.int 76) (.int 80),
      .mustBe "size" (.int 76) (.int 80), .decode ['\uFFFD'], .decode ['\uFFFD']] (some .indexError) := by
  have hl : layout halfPair = some ⟨80, 0, 80, 80, 80⟩ := by decide +kernel
  have hc := Cut.block (b := halfPair.drop 80) (n := 270) (l := []) (last := []) (by decide +kernel) (by decide)
    (.stop (.inl (by decide +kernel)))
  have hread : TextProc.readUnicodeString [0x00, 0xD8] = ⟨[.decode ['\uFFFD']], .ok ['\uFFFD']⟩ := by rfl
  have hw : wide [0x00, 0xD8] [.decode ['\uFFFD']] none := by
    have h := logs_wide [0x00, 0xD8]
    rw [hread] at h
    exact h
  have hsay : ∀ h : Bytes, uAt 4 h 0 = some 80 →
      say (unlessEqual "size" (.int 76) (.int (u4 h 0))) [.mustBe "size" (.int 76) (.int 80)] none := by
    intro h h0
    unfold u4
    rw [h0]
    exact ⟨rfl, rfl⟩
  have hmute : ∀ (name : String) (v k : Nat), v = k → say (unlessEqual name (.int k) (.int v)) [] none := by
    rintro name v k rfl
    exact ⟨by simp [unlessEqual], rfl⟩
  have htime : ∀ off, sAt 8 (halfPair.take 80) off = some 0 → time (halfPair.take 80) off [] none :=
    fun off h => ⟨0, h, .inr ⟨by simp, rfl, rfl⟩⟩
  unfold tool
  rw [if_neg (by decide +kernel)]
  refine .inr ⟨[.mustBe "size" (.int 76) (.int 80), .mustBe "size" (.int 76) (.int 80)], _, rfl, ?_, _, _, _, hl, hc, ?_⟩
  · unfold construction
    refine all_pass (room_there (by decide +kernel)) (all_step (hsay _ (by decide +kernel)) (all_pass (room_there (by decide +kernel))
      (all_step (hsay _ (by decide +kernel)) (all_pass ⟨rfl, .inl ⟨by rw [hl]; simp, rfl⟩⟩ (all_pass ⟨_, _, _, hl, hc, ?_⟩ ⟨rfl, rfl⟩)))))
    refine all_pass ⟨by decide +kernel, rfl⟩ (all_pass ?_ (all_pass ?_ ⟨rfl, rfl⟩))
    · exact ⟨rfl, rfl⟩
    · refine all_pass ⟨by decide +kernel, rfl⟩ (all_pass ⟨by decide, rfl⟩ (all_pass ⟨rfl, .inl ⟨?_, rfl⟩⟩ ⟨rfl, rfl⟩))
      intro p hp _
      rw [List.mem_singleton.1 hp]
      decide
  · rw [if_neg (by decide)]
    refine all_step (u := [_]) (v := [_, _]) ?_ (all_pass ?_ (all_pass ?_ (all_stop ?_)))
    · unfold header
      refine all_pass (room_there (by decide +kernel)) (all_pass ?_ (all_pass (room_there (by decide +kernel)) (all_pass (htime _ (by decide +kernel))
        (all_pass (room_there (by decide +kernel)) (all_pass (htime _ (by decide +kernel)) (all_pass (room_there (by decide +kernel))
        (all_pass (htime _ (by decide +kernel)) (all_pass (room_there (by decide +kernel)) (all_step (v := []) (hsay _ (by decide +kernel)) ?_)))))))))
      · exact ⟨shellLinkCLSID, by decide +kernel, by simp [unlessEqual], rfl⟩
      · exact all_pass (room_there (by decide +kernel)) (all_pass (hmute _ _ _ (by decide +kernel)) (all_pass (room_there (by decide +kernel))
          (all_pass (hmute _ _ _ (by decide +kernel)) (all_pass (room_there (by decide +kernel)) (all_pass (hmute _ _ _ (by decide +kernel)) ⟨rfl, rfl⟩)))))
    · rw [given_neg (by decide)]
      exact ⟨rfl, rfl⟩
    · rw [given_neg (by decide)]
      exact ⟨rfl, rfl⟩
    · refine all_stop ?_
      have hs : uAt 4 (halfPair.drop 80) 4 = some 0xA0000006 := by decide +kernel
      unfold extra
      simp only [hs]
      refine .inr ⟨?_, fun x hx => by cases hx; decide⟩
      show block tp 0xA0000006 ((halfPair.drop 80).take 270) _ _
      unfold block
      rw [if_neg (by decide), if_neg (by decide), if_neg (by decide), if_neg (by decide), if_neg (by decide), if_pos rfl]
      refine all_pass ?_ (all_stop ?_)
      · unfold narrow
        rw [show ((between ((halfPair.drop 80).take 270) 8 268).takeWhile (· ≠ 0)) = [] by decide +kernel]
        exact ⟨rfl, rfl⟩
      · rw [show between ((halfPair.drop 80).take 270) 268 788 = [0x00, 0xD8] by decide +kernel]
        refine all_step (u := [_]) (v := [_]) hw (all_step (u := [_]) (v := []) hw (all_stop ⟨rfl, .inr ⟨?_, rfl⟩⟩))
        rintro ⟨s, h1, h2⟩
        rw [← wideText_iff, hread] at h1
        cases h1
        simp at h2

example (env : Env) (dump : Dict → Str) (json all : Bool) :
    (main env dump { json := json, print_all := all } (some halfPair)).py = ⟨[.mustBe "size" (.int 76) (.int 80),
      .mustBe "size" (.int 76) (.int 80), .mustBe "size" (.int 76) (.int 80), .decode ['\uFFFD'], .decode ['\uFFFD']],
      .error .indexError⟩ :=
  ((tool_logged env dump { json := json, print_all := all } (tame_usable (usable_cp1252 rfl)) halfPair _).2 _).1 (halfPair_logged _)

end Props

end Verif
