import Verif.Model.Strict
import Verif.Props.Log
import Verif.Props.Quiet

/-
C93: warnings as errors.
-/

namespace Verif.Props

open Spec Py Spec.Log

namespace Strict

theorem strict_ok {x : Py α} {a : α} : x.strict = .ok a ↔ x = ⟨[], .ok a⟩ := by
  obtain ⟨_ | ⟨w, W⟩, e | b⟩ := x <;> simp [Py.strict]

theorem strict_raised {x : Py α} {e : PyErr} : x.strict = .error (.raised e) ↔ x = ⟨[], .error e⟩ := by
  obtain ⟨_ | ⟨w, W⟩, e' | b⟩ := x <;> simp [Py.strict]

theorem strict_warned {x : Py α} {w : Warn} : x.strict = .error (.warned w) ↔ ∃ W, x.warns = w :: W := by
  obtain ⟨_ | ⟨w', W⟩, e' | b⟩ := x <;> simp [Py.strict]

/-- What of a computation that also writes is seen under `-W error`, if all its warnings come before what it writes. -/
def cut (o : Out) : Str × Strict Unit := (if o.py.warns = [] then o.text else [], o.py.strict)

theorem cut_after (x : Py α) (k : α → Out) : cut (Out.after x k) = Strict.after x.strict fun a => cut (k a) := by
  obtain ⟨_ | ⟨w, W⟩, e | a⟩ := x
  · rfl
  · rfl
  · rfl
  · rfl

end Strict

open Props.Strict

/-- C93: raising the first warning instead of issuing it is what each part of a program does with its parts: the outcome of a
computation under `-W error` is put together from the outcomes of its parts under `-W error`. -/
theorem strict_parts {α β : Type} :
    (∀ a : α, (pure a : Py α).strict = .ok a) ∧ (∀ e, (Py.raise e : Py α).strict = .error (.raised e)) ∧
    (∀ w, (Py.warn w).strict = .error (.warned w)) ∧
    (∀ (x : Py α) (f : α → Py β), (x >>= f).strict = x.strict >>= fun a => (f a).strict) ∧
    (∀ (x : Py α) handles (h : PyErr → Py α), (Py.tryExcept x handles h).strict = Strict.tryExcept x.strict handles fun e => (h e).strict) ∧
    ∀ (x : Py α) handles, (Py.attempt x handles).strict = Strict.attempt x.strict handles := by
  refine ⟨fun _ => rfl, fun _ => rfl, fun _ => rfl, ?_, ?_, ?_⟩
  · rintro ⟨_ | ⟨w, W⟩, e | a⟩ f <;> rfl
  · rintro ⟨_ | ⟨w, W⟩, e | a⟩ handles h
    · by_cases hh : handles e <;> simp [Py.tryExcept, Strict.tryExcept, Py.strict, hh]
    · rfl
    · by_cases hh : handles e <;> simp [Py.tryExcept, Strict.tryExcept, Py.strict, hh]
    · rfl
  · rintro ⟨_ | ⟨w, W⟩, e | a⟩ handles
    · by_cases hh : handles e <;> simp [Py.attempt, Strict.attempt, Py.strict, hh]
    · rfl
    · by_cases hh : handles e <;> simp [Py.attempt, Strict.attempt, Py.strict, hh]
    · rfl

/-- C93: under `-W error` the tool does the same as otherwise if it has nothing to warn about.  Otherwise it writes nothing to standard
output and ends with its first warning, even if an exception were to follow. -/
theorem strict_tool (env : Env) (dump : Dict → Str) (args : Args) (content : Option Bytes) :
    ((main env dump args content).py.warns = [] → (mainStrict env dump args content).1 = (main env dump args content).text ∧
      (∀ e, (mainStrict env dump args content).2 = .error (.raised e) ↔ (main env dump args content).py.res = .error e) ∧
      ((mainStrict env dump args content).2 = .ok () ↔ (main env dump args content).py.res = .ok ())) ∧
    ∀ w W, (main env dump args content).py.warns = w :: W → mainStrict env dump args content = ([], .error (.warned w)) := by
  have h : mainStrict env dump args content = cut (main env dump args content) := by
    unfold main mainStrict
    cases content with
    | none => rfl
    | some b =>
      rw [cut_after]
      show _ = cut (Out.after _ _)
      rw [cut_after]
      show Strict.after _ _ = Strict.after _ _
      congr 1
      funext lnk
      split
      · rw [cut_after]; rfl
      · split
        · rw [cut_after]; rfl
        · unfold LnkFile.printLnkFileStrict LnkFile.printLnkFile
          rw [cut_after]
          rfl
  rw [h]
  obtain ⟨text, W, r⟩ := main env dump args content
  constructor
  · rintro (rfl : W = [])
    cases r <;> simp [cut, Py.strict]
  · rintro w W' (rfl : W = _)
    simp [cut, Py.strict]

/-- C93: how it ends, read off the file: what the first entry in the list of all that is said and raised is. -/
theorem strict_outcome (env : Env) (dump : Dict → Str) (args : Args) (ht : Tame (TextProc.mk' env (some args.cp))) (b : Bytes) :
    ((mainStrict env dump args (some b)).2 = .ok () ↔ tool (TextProc.mk' env (some args.cp)) args.target b [] none) ∧
    (∀ e, (mainStrict env dump args (some b)).2 = .error (.raised e) ↔ tool (TextProc.mk' env (some args.cp)) args.target b [] (some e)) ∧
    ∀ w, (mainStrict env dump args (some b)).2 = .error (.warned w) ↔
      ∃ W e, tool (TextProc.mk' env (some args.cp)) args.target b (w :: W) e := by
  have h := tool_logged env dump args ht b
  obtain ⟨h1, h2⟩ := strict_tool env dump args (some b)
  have hlog : ∀ W e, tool (TextProc.mk' env (some args.cp)) args.target b W e → W = (main env dump args (some b)).py.warns := by
    intro W e he
    cases e with
    | none => rw [(h W).1.1 he]
    | some x => rw [((h W).2 x).1 he]
  rcases hW : (main env dump args (some b)).py.warns with _ | ⟨w, W⟩
  · obtain ⟨-, h4, h5⟩ := h1 hW
    have key : ∀ r, (main env dump args (some b)).py = ⟨[], r⟩ ↔ (main env dump args (some b)).py.res = r := by
      intro r
      rw [Py.ext_iff, hW]
      simp
    refine ⟨?_, fun e => ?_, fun w => ?_⟩
    · rw [h5, (h []).1, key]
    · rw [h4, ((h []).2 e), key]
    · constructor
      · intro hw
        rcases hr : (main env dump args (some b)).py.res with e | ⟨⟩
        · rw [(h4 e).2 hr] at hw
          cases hw
        · rw [h5.2 hr] at hw
          cases hw
      · rintro ⟨W, e, he⟩
        have := hlog _ _ he
        rw [hW] at this
        cases this
  · have h3 := h2 w W hW
    rw [h3]
    refine ⟨⟨nofun, fun h => ?_⟩, fun e => ⟨nofun, fun h => ?_⟩, fun w' => ⟨fun h' => ?_, fun ⟨W', e, he⟩ => ?_⟩⟩
    · have := hlog _ _ h
      rw [hW] at this
      cases this
    · have := hlog _ _ h
      rw [hW] at this
      cases this
    · cases h'
      rcases hr : (main env dump args (some b)).py.res with e | ⟨⟩
      · exact ⟨W, some e, ((h _).2 e).2 (by rw [Py.ext_iff]; exact ⟨hW, hr⟩)⟩
      · exact ⟨W, none, (h _).1.2 (by rw [Py.ext_iff]; exact ⟨hW, hr⟩)⟩
    · have := hlog _ _ he
      rw [hW] at this
      cases this
      rfl

/-- C93: under `-W error` a well-formed link is reported exactly if all required values are as required, all codes are known and all
times lie in the years 1 to 9999. -/
theorem strict_link (env : Env) (dump : Dict → Str) (args : Args) (htarget : args.target = false)
    (ht : Tame (TextProc.mk' env (some args.cp))) (s : ShellLink) (hv : s.Valid (TextProc.mk' env (some args.cp))) (trailer : Bytes) :
    (mainStrict env dump args (some (s.encode ++ trailer))).2 = .ok () ↔ Ordinary s := by
  obtain ⟨b, hbs⟩ : ∃ b, b = s.encode ++ trailer := ⟨_, rfl⟩
  have hb : b ≠ [] := by
    intro h
    have := congrArg List.length (hbs.symm.trans h)
    simp [ShellLink.encode, Header.encode] at this
  rw [← hbs, (strict_outcome env dump args ht b).1, htarget]
  unfold tool
  rw [if_neg hb]
  have hlog := construction_logged env (some args.cp) ht true (.fhandle b) hb
  constructor
  · rintro (⟨-, h⟩ | ⟨u, v, huv, h1, L, l, last, hL, hc, h2⟩)
    · exact absurd rfl h
    · obtain ⟨rfl, rfl⟩ := List.append_eq_nil_iff.1 huv.symm
      obtain ⟨f, hf⟩ := ((hlog []).1).1 h1
      obtain ⟨L', l', last', hL', hc', h3⟩ := report_logged env (some args.cp) ht true (.fhandle b) f (by rw [hf])
      obtain rfl : L = L' := Option.some.inj (hL.symm.trans hL')
      obtain ⟨rfl, -⟩ := cut_unique hc hc'
      obtain ⟨j, hj⟩ := ((h3 true []).1.1).1 h2
      exact silent_ordinary env (some args.cp) true true s hv trailer (.fhandle b) hbs f (by rw [hf]) (by rw [hj])
  · intro ho
    obtain ⟨f, j, hf, hj⟩ := ordinary_silent env (some args.cp) true true s hv ho trailer (.fhandle b) hbs
    obtain ⟨L, l, last, hL, hc, h3⟩ := report_logged env (some args.cp) ht true (.fhandle b) f (by rw [hf]; rfl)
    exact .inr ⟨[], [], rfl, ((hlog []).1).2 ⟨f, hf⟩, L, l, last, hL, hc, ((h3 true []).1.1).2 ⟨j, hj⟩⟩

/-- `ordinaryLink` is reported; `exampleLink`, with an item of an unknown type, is not. -/
example (env : Env) (dump : Dict → Str) (json all : Bool) :
    (mainStrict env dump ⟨false, json, "cp1252", all⟩ (some (ordinaryLink.encode ++ []))).2 = .ok () ∧
    (mainStrict env dump ⟨false, json, "cp1252", all⟩ (some (exampleLink.encode ++ []))).2 ≠ .ok () := by
  have ht : Tame (TextProc.mk' env (some (Args.mk false json "cp1252" all).cp)) := tame_usable (usable_cp1252 rfl)
  have he : TextProc.mk' env none = TextProc.mk' env (some (Args.mk false json "cp1252" all).cp) := rfl
  refine ⟨(strict_link env dump _ rfl ht _ (he ▸ ordinaryLink_valid env) []).2 ordinaryLink_ordinary, fun h => ?_⟩
  have := ((strict_link env dump _ rfl ht _ (he ▸ exampleLink_valid env) []).1 h).items exampleItems rfl
  simp only [exampleItems, List.mem_cons, forall_eq_or_imp] at this
  exact this.2.2.1

/-- A file of one byte: nothing to warn about, and an exception as before. -/
example (env : Env) (dump : Dict → Str) (json all target : Bool) :
    (mainStrict env dump ⟨target, json, "cp1252", all⟩ (some [7])).2 = .error (.raised .structError) := rfl

end Verif.Props
