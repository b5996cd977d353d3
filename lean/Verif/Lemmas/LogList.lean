import Verif.Lemmas.LogItems

/-
What a list of items says and raises.
-/

namespace Verif

open Spec Spec.Log Py

/-! ### exceptions that do not occur -/

/-- The exception does not occur. -/
def Spec.Log.Never (x : PyErr) (l : Log) : Prop := ∀ w, ¬ l w (some x)

namespace Spec.Log

theorem never_quiet (x : PyErr) : Never x quiet := fun _ h => by cases h.2
theorem never_say (x : PyErr) (W : List Warn) : Never x (say W) := fun _ h => by cases h.2

theorem never_fail {x y : PyErr} (h : x ≠ y) : Never x (fail y) := fun _ h' => h (Option.some.inj h'.2)

theorem never_need {x y : PyErr} (c : Prop) (h : x ≠ y) : Never x (need c y) := by
  rintro w ⟨-, ⟨-, h'⟩ | ⟨-, h'⟩⟩
  · cases h'
  · exact h (Option.some.inj h')

theorem never_room {x : PyErr} (n : Nat) (b : Bytes) (h : x ≠ .structError) : Never x (room n b) := never_need _ h

theorem never_andThen {x : PyErr} {l m : Log} (hl : Never x l) (hm : Never x m) : Never x (andThen l m) := by
  rintro w (⟨h, -⟩ | ⟨u, v, -, -, h⟩)
  · exact hl _ h
  · exact hm _ h

theorem never_all {x : PyErr} {ls : List Log} (h : ∀ l ∈ ls, Never x l) : Never x (all ls) := by
  induction ls with
  | nil => exact never_quiet x
  | cons l ls ih => exact never_andThen (h l (by simp)) (ih fun m hm => h m (by simp [hm]))

theorem never_given {x : PyErr} (c : Prop) {l : Log} (h : Never x l) : Never x (given c l) := by
  intro w hw
  by_cases hc : c
  · exact h _ (hw.1 hc)
  · exact never_quiet x _ (hw.2 hc)

theorem never_ite {x : PyErr} {c : Prop} [Decidable c] {l m : Log} (hl : Never x l) (hm : Never x m) : Never x (if c then l else m) := by
  split
  · exact hl
  · exact hm

theorem never_ite' {x : PyErr} {c : Prop} [Decidable c] {l m : Log} (hl : c → Never x l) (hm : ¬ c → Never x m) :
    Never x (if c then l else m) := by
  split
  · exact hl ‹_›
  · exact hm ‹_›

theorem never_wide (x : PyErr) (b : Bytes) : Never x (wide b) := by
  have key : ∀ b w, ¬ utf16Read b w (some x) := by
    rintro b w (⟨-, h⟩ | ⟨-, s, -, h⟩)
    · cases h.2
    · cases h.2
  rintro w ⟨us, -, ⟨_, -, -, h⟩ | ⟨_, -, h⟩⟩
  · exact key _ _ h
  · exact key _ _ h

/-- The exceptions that are handled. -/
abbrev handled : List PyErr := [.structError, .valueError, .unicodeDecode, .keyError, .stopIteration]

theorem never_narrow {tp : TextProc} (ht : Tame tp) {x : PyErr} (hx : x ∈ handled) (b : Bytes) : Never x (narrow tp b) := by
  have hl : x ≠ .lookupError := by rintro rfl; simp at hx
  unfold narrow
  generalize b.takeWhile (· ≠ 0) = a
  unfold decoded
  split
  · exact never_quiet x
  rename_i ha
  split
  · exact never_fail hl
  rename_i c hc
  obtain ⟨h1, h2⟩ := ht c hc a ha
  split
  · exact never_quiet x
  rename_i y hy
  rintro w (⟨h3, h4⟩ | ⟨h3, ⟨-, h4⟩ | ⟨-, h4⟩⟩)
  · obtain rfl : x = y := Option.some.inj h4.2
    rcases h1 x hy with h | h
    · exact h3 h
    · exact h hx
  · cases h4.2
  · split at h4
    · cases h4.2
    · rename_i z hz
      obtain rfl : x = z := Option.some.inj h4.2
      exact h2 x hz hx

theorem never_either {tp : TextProc} (ht : Tame tp) {x : PyErr} (hx : x ∈ handled) (u : Bool) (b : Bytes) : Never x (either tp u b) :=
  never_ite (never_wide x b) (never_narrow ht hx b)

theorem never_file {tp : TextProc} (ht : Tame tp) {x : PyErr} (hx : x ∈ handled) (hs : x ≠ .structError) (w : Bytes) :
    Never x (file tp w) := by
  refine never_all fun l hl => ?_
  simp only [List.mem_cons, List.not_mem_nil, or_false] at hl
  rcases hl with rfl | rfl | rfl | rfl | rfl | rfl
  · exact never_room _ _ hs
  · exact never_say _ _
  · exact never_room _ _ hs
  · exact never_say _ _
  · exact never_room _ _ hs
  · exact never_either ht hx _ _

theorem never_cpl {tp : TextProc} (ht : Tame tp) {x : PyErr} (hx : x ∈ handled) (hs : x ≠ .structError) (w : Bytes) :
    Never x (cpl tp w) := by
  refine never_andThen (never_room _ _ hs) (never_andThen (never_ite (never_all fun l hl => ?_) (never_all fun l hl => ?_)) (never_quiet x))
  · simp only [List.mem_cons, List.not_mem_nil, or_false] at hl
    rcases hl with rfl | rfl | rfl
    · exact never_wide x _
    · exact never_wide x _
    · exact never_given _ (never_wide x _)
  · simp only [List.mem_cons, List.not_mem_nil, or_false] at hl
    rcases hl with rfl | rfl | rfl | rfl | rfl
    · exact never_narrow ht hx _
    · exact never_room _ _ hs
    · exact never_narrow ht hx _
    · exact never_room _ _ hs
    · exact never_given _ (never_narrow ht hx _)

/-- An item, but for a network location. -/
theorem never_item {tp : TextProc} (ht : Tame tp) {x : PyErr} (hx : x ∈ handled) (hs : x ≠ .structError) {cls : String} (w : Bytes)
    (hc : cls ≠ "Network location") : Never x (item tp cls w) := by
  unfold item
  split
  · exact never_cpl ht hx hs w
  split
  · exact never_andThen (never_room _ _ hs) (never_andThen (never_say _ _) (never_quiet x))
  split
  · exact never_andThen (never_room _ _ hs) (never_andThen (never_say _ _) (never_andThen (never_room _ _ hs) (never_quiet x)))
  split
  · exact never_andThen (never_room _ _ hs) (never_andThen (never_ite (never_narrow ht hx _) (never_room _ _ hs)) (never_quiet x))
  split
  · exact never_file ht hx hs w
  split
  · exact never_room _ _ hs
  split
  · exact never_andThen (never_room _ _ hs) (never_andThen (never_file ht hx hs _) (never_andThen (never_room _ _ hs) (never_quiet x)))
  · exact never_quiet x

/-! ### exceptions under another name -/

/-- The log with `StopIteration` turned into `RuntimeError`. -/
def renamed (l : Log) : Log := fun w e => ∃ e', l w e' ∧ e = e'.map fun x => if x = .stopIteration then .runtimeError else x

theorem renamed_andThen (l m : Log) : renamed (andThen l m) = andThen (renamed l) (renamed m) := by
  funext w e
  apply propext
  constructor
  · rintro ⟨e', ⟨h, h'⟩ | ⟨u, v, rfl, h1, h2⟩, rfl⟩
    · refine .inl ⟨⟨e', h, rfl⟩, ?_⟩
      cases e' with
      | none => exact absurd rfl h'
      | some x => simp
    · exact .inr ⟨u, v, rfl, ⟨none, h1, rfl⟩, ⟨e', h2, rfl⟩⟩
  · rintro (⟨⟨e', h, rfl⟩, h'⟩ | ⟨u, v, rfl, ⟨e', h1, h1'⟩, ⟨e'', h2, rfl⟩⟩)
    · refine ⟨e', .inl ⟨h, ?_⟩, rfl⟩
      rintro rfl
      exact h' rfl
    · cases e' with
      | none => exact ⟨e'', .inr ⟨u, v, rfl, h1, h2⟩, rfl⟩
      | some x => cases h1'

theorem renamed_never {l : Log} (h : Never .stopIteration l) : renamed l = l := by
  funext w e
  apply propext
  constructor
  · rintro ⟨e', h1, rfl⟩
    cases e' with
    | none => exact h1
    | some x =>
      have : x ≠ .stopIteration := by rintro rfl; exact h _ h1
      simpa [this] using h1
  · intro h1
    refine ⟨e, h1, ?_⟩
    cases e with
    | none => rfl
    | some x =>
      have : x ≠ .stopIteration := by rintro rfl; exact h _ h1
      simp [this]

theorem renamed_given (c : Prop) (l : Log) : renamed (given c l) = given c (renamed l) := by
  by_cases hc : c
  · rw [given_pos hc, given_pos hc]
  · rw [given_neg hc, given_neg hc, renamed_never (never_quiet _)]

theorem renamed_fail : renamed (fail .stopIteration) = fail .runtimeError := by
  funext w e
  apply propext
  constructor
  · rintro ⟨e', ⟨rfl, rfl⟩, rfl⟩
    exact ⟨rfl, rfl⟩
  · rintro ⟨rfl, rfl⟩
    exact ⟨_, ⟨rfl, rfl⟩, rfl⟩

theorem renamed_need (c : Prop) : renamed (need c .stopIteration) = need c .runtimeError := by
  by_cases hc : c
  · rw [need_pos hc, need_pos hc, renamed_never (never_quiet _)]
  · rw [need_neg hc, need_neg hc, renamed_fail]

theorem renamed_piece {tp : TextProc} (ht : Tame tp) (ps : List Bytes) (k : Nat) :
    renamed (piece tp .stopIteration ps k) = piece tp .runtimeError ps k := by
  unfold piece
  simp only [all_cons, all_nil, renamed_andThen, renamed_need]
  rw [renamed_never (never_narrow ht (by simp) _), renamed_never (never_quiet _)]

theorem renamed_networkStrings {tp : TextProc} (ht : Tame tp) (w : Bytes) :
    renamed (networkStrings tp .stopIteration w) = networkStrings tp .runtimeError w := by
  unfold networkStrings
  simp only [all_cons, all_nil, renamed_andThen, renamed_given, renamed_piece ht]
  rw [renamed_never (never_narrow ht (by simp) _), renamed_never (never_quiet _), renamed_never (never_room _ _ (by simp))]

end Spec.Log

namespace Target

theorem logs_next (tp : TextProc) {ps : List Bytes} (h0 : ∀ p ∈ ps, 0 ∉ p) (k : Nat) :
    Logs (TextProc.next ((ps.drop k).map tp.ansiToStr)) (piece tp .stopIteration ps k) := by
  unfold piece
  by_cases hk : k < ps.length
  · rw [need_pos hk, all_quiet, all_one, List.drop_eq_getElem_cons hk, List.getD_eq_getElem?_getD, List.getElem?_eq_getElem hk]
    refine logs_map _ ?_
    have h := logs_ansi tp ps[k]
    have : narrow tp ps[k] = decoded tp ps[k] := by
      unfold Log.narrow
      rw [Values.takeWhile_all (h0 _ (List.getElem_mem hk))]
    simp only [Option.getD_some]
    rw [this]
    exact h
  · rw [need_neg hk, all_fail, List.drop_eq_nil_of_le (by omega)]
    exact logs_raise _

theorem next_rest {tp : TextProc} {ps : List Bytes} {k : Nat} {r : Str × List (Py Str)}
    (h : (TextProc.next ((ps.drop k).map tp.ansiToStr)).res = .ok r) : r.2 = (ps.drop (k + 1)).map tp.ansiToStr := by
  by_cases hk : k < ps.length
  · rw [List.drop_eq_getElem_cons hk] at h
    obtain ⟨s, -, h2⟩ := bind_ok_iff.1 h
    rw [← Except.ok.inj h2]
  · rw [List.drop_eq_nil_of_le (by omega)] at h
    cases h

theorem logs_initNetwork {tp : TextProc} {b : Bytes} {n : Nat} (hn : uAt 2 b 0 = some n) :
    Logs (initNetwork tp b) (networkStrings tp .stopIteration ((b.drop 2).take n)) := by
  have hl := (ExtraData.uAt_some_length hn)
  unfold initNetwork initBase sizeOf
  have hr := reads_unpackU (b := b) (n := 2) (s := 0) (e := 2) (by omega) (by omega)
  rw [hr.ok (by omega), hn]
  simp only [Option.getD_some, pure_bind]
  have e : slice b 2 (2 + n) = (b.drop 2).take n := by
    unfold slice
    congr 1
    omega
  rw [e]
  generalize (b.drop 2).take n = w
  obtain ⟨h1, h0⟩ := Values.readStrings_pieces tp (w.drop 3)
  have hp : 0 < (zeroPieces (w.drop 3)).length := List.length_pos_iff.2 (Values.zeroPieces_ne_nil _)
  rw [h1]
  unfold networkStrings
  generalize zeroPieces (w.drop 3) = ps at *
  simp only
  have first := logs_next tp h0 0
  unfold piece at first
  rw [need_pos hp, all_quiet, all_one, List.drop_zero] at first
  refine logs_cons first fun r hr => ?_
  have hr2 := next_rest (k := 0) hr
  obtain ⟨loc, it⟩ := r
  simp only at hr2
  subst hr2
  simp only
  unfold contentFlags
  simp only
  refine read_last (reads_unpackU (by omega) (by omega)) fun hw => ?_
  rw [byteOf]
  generalize hf : (w.getD 2 0).toNat = flags
  have again : unpackU 1 (slice w 2 3) = pure flags := by
    rw [(reads_unpackU (b := w) (n := 1) (s := 2) (e := 3) (by omega) (by omega)).ok hw, byteOf, hf]
  simp only [again, pure_bind]
  refine logs_cons (l := given (flags.testBit 7) (piece tp .stopIteration ps 1)) ?_ fun r hr => ?_
  · by_cases h7 : flags.testBit 7 = true
    · rw [given_pos h7, if_pos ((Values.testBit7 _).2 h7)]
      exact logs_map _ (logs_next tp h0 1)
    · rw [given_neg h7, if_neg (fun h => h7 ((Values.testBit7 _).1 h))]
      exact logs_pure _
  · obtain ⟨d, it⟩ := r
    have hit : it = (ps.drop (if flags.testBit 7 then 2 else 1)).map tp.ansiToStr := by
      by_cases h7 : flags.testBit 7 = true
      · rw [if_pos ((Values.testBit7 _).2 h7)] at hr
        obtain ⟨r, h2, h3⟩ := bind_ok_iff.1 hr
        have := next_rest h2
        have h4 := Except.ok.inj h3
        simp only [Prod.mk.injEq] at h4
        rw [if_pos h7, ← h4.2, this]
      · rw [if_neg (fun h => h7 ((Values.testBit7 _).1 h))] at hr
        have h4 := Except.ok.inj hr
        simp only [Prod.mk.injEq] at h4
        rw [if_neg h7, ← h4.2]
    subst hit
    refine logs_single ?_
    simp only
    refine logs_map _ ?_
    by_cases h6 : flags.testBit 6 = true
    · rw [given_pos h6, if_pos ((Values.testBit6 _).2 h6)]
      exact logs_map _ (logs_next tp h0 _)
    · rw [given_neg h6, if_neg (fun h => h6 ((Values.testBit6 _).1 h))]
      exact logs_pure _

end Target

namespace LnkTargets

theorem tryExcept_ok (w : List Warn) (a : α) (p : PyErr → Bool) (h : PyErr → Py α) : tryExcept ⟨w, .ok a⟩ p h = ⟨w, .ok a⟩ := rfl

theorem tryExcept_pass {w : List Warn} {e : PyErr} {p : PyErr → Bool} (h : PyErr → Py α) (hp : p e = false) :
    tryExcept ⟨w, .error e⟩ p h = ⟨w, .error e⟩ := by
  unfold tryExcept
  simp [hp]

/-- Nothing is handled. -/
theorem logs_tryExcept {x : Py α} {l : Log} {p : PyErr → Bool} {h : PyErr → Py α} (hx : Logs x l) (hp : ∀ e, p e = true → Never e l) :
    Logs (tryExcept x p h) l := by
  rcases x with ⟨w, e | a⟩
  · have : p e = false := by
      rw [Bool.eq_false_iff]
      exact fun he => hp e he _ hx
    rw [tryExcept_pass h this]
    exact hx
  · exact hx

theorem logs_genBody {x : Py α} {l : Log} (h : Logs x l) : Logs (genBody x) (renamed l) := by
  unfold genBody
  rcases x with ⟨w, e | a⟩
  · by_cases he : e = .stopIteration
    · subst he
      have : tryExcept (⟨w, .error .stopIteration⟩ : Py α) (fun e => e = .stopIteration) (fun _ => raise .runtimeError) =
          ⟨w, .error .runtimeError⟩ := by simp [tryExcept, raise]
      rw [this]
      exact ⟨some .stopIteration, h, rfl⟩
    · rw [tryExcept_pass _ (by simpa using he)]
      exact ⟨some e, h, by simp [err, he]⟩
  · exact ⟨none, h, rfl⟩

theorem logs_itemOf {t : Target} {l : Log} (hl : Never .keyError l) (h : Logs t.asItem l) : Logs (itemOf t) l := by
  unfold itemOf
  refine logs_tryExcept (logs_map _ h) fun e he => ?_
  simp only [decide_eq_true_eq] at he
  subst he
  exact hl

/-- What happens before an item is looked at. -/
def before (tp : TextProc) (c : TargetClass) (w : Bytes) : Log :=
  if c = .networkLocation then networkStrings tp .runtimeError w else quiet

/-- What happens when it is. -/
def during (tp : TextProc) (c : TargetClass) (w : Bytes) : Log :=
  if c = .networkLocation then say (kindNotices w) else item tp c.name w

theorem name_network {c : TargetClass} (h : c.name = "Network location") : c = .networkLocation := by
  cases c <;> first | rfl | (exact absurd h (by decide))

theorem item_parts (tp : TextProc) (c : TargetClass) (w : Bytes) : item tp c.name w = Log.andThen (before tp c w) (during tp c w) := by
  unfold before during
  by_cases hc : c = .networkLocation
  · subst hc
    rw [if_pos rfl, if_pos rfl]
    unfold item TargetClass.name
    simp only [String.reduceEq, if_false, if_true]
    rw [all_cons, all_one]
  · rw [if_neg hc, if_neg hc, quiet_andThen]

theorem logs_step {tp : TextProc} (ht : Tame tp) {b : Bytes} {n : Nat} {t : UInt8} (hn : uAt 2 b 0 = some (n + 1)) (h2 : b[2]? = some t) :
    ∃ c : TargetClass, c.name = (itemClass t.toNat).getD "Unknown" ∧
      Logs (genBody (step tp b)) (all [say (typeNotices t.toNat), before tp c ((b.drop 2).take (n + 1))]) ∧
      ∀ r, (genBody (step tp b)).res = .ok r → ∃ T : Target, r = some (T, b.drop (n + 1)) ∧ T.cls = c ∧ T.tp = tp ∧ T.raw = b ∧
        T.rawTarget = (b.drop 2).take (n + 1) ∧ (c = .networkLocation → 3 ≤ T.rawTarget.length) := by
  obtain ⟨c, w, h3, h4, h5⟩ := Props.item_dispatch b (n + 1) t hn (by omega) h2
  refine ⟨c, h4, ?_, ?_⟩
  · have hs : Logs (step tp b) (all [say (typeNotices t.toNat),
        if c = .networkLocation then networkStrings tp .stopIteration ((b.drop 2).take (n + 1)) else quiet]) := by
      unfold step
      rw [h3, h5]
      refine logs_cons (logs_ok (W := typeNotices t.toNat)) fun r hr => ?_
      cases hr
      simp only
      have h2l : 2 ≤ b.length := by have := ExtraData.uAt_some_length hn; omega
      have hsize : TargetFactory.itemSize b = pure (n + 1) := by
        unfold TargetFactory.itemSize
        rw [(reads_unpackU (b := b) (n := 2) (s := 0) (e := 2) (by omega) (by omega)).ok h2l, hn]
        rfl
      refine logs_single ?_
      simp only [hsize, pure_bind]
      refine logs_map _ ?_
      by_cases hc : c = .networkLocation
      · subst hc
        rw [if_pos rfl]
        exact Target.logs_initNetwork hn
      · rw [if_neg hc]
        have : Target.init c tp b = Target.initBase c tp b := by
          cases c <;> first | rfl | exact absurd rfl hc
        rw [this]
        unfold Target.initBase Target.sizeOf
        exact read_known (reads_unpackU (b := b) (by omega) (by omega)) h2l (logs_pure _)
    have := logs_genBody hs
    rw [all_cons, all_one, renamed_andThen, renamed_never (never_say _ _)] at this
    rw [all_cons, all_one]
    unfold before
    by_cases hc : c = .networkLocation
    · rw [if_pos hc]
      rw [if_pos hc, renamed_networkStrings ht] at this
      exact this
    · rw [if_neg hc]
      rw [if_neg hc, renamed_never (never_quiet _)] at this
      exact this
  · intro r hr
    rw [genBody_ok] at hr
    unfold step at hr
    obtain ⟨cls, h6, hr⟩ := bind_ok_iff.1 hr
    rw [h3] at h6
    obtain rfl := Except.ok.inj h6
    simp only at hr
    obtain ⟨T, h7, hr⟩ := bind_ok_iff.1 hr
    obtain ⟨m, h8, hr⟩ := bind_ok_iff.1 hr
    have hB := Values.init_built h7
    obtain ⟨k, hB⟩ := hB
    obtain rfl : k = n + 1 := by
      have := hB.size
      rw [hn] at this
      exact (Option.some.inj this).symm
    obtain rfl : m = n + 1 := by
      have := (uAt_iff_ok (by omega)).1 h8
      rw [hn] at this
      exact (Option.some.inj this).symm
    refine ⟨T, (Except.ok.inj hr).symm, hB.ofClass, hB.ofTp, hB.ofRaw, hB.window, fun hc => ?_⟩
    obtain ⟨-, cf, h9, -⟩ := hB.network hc
    have := ExtraData.uAt_some_length h9
    omega

theorem asList_step {tp : TextProc} {b : Bytes} (hb : b ≠ []) {n : Nat}
    (h : ∀ r, (genBody (step tp b)).res = .ok r → ∃ T : Target, r = some (T, b.drop (n + 1))) :
    asListLoop (idLists tp b) = (do
      match ← genBody (step tp b) with
      | none => pure []
      | some (T, rest) => do
        let item ← itemOf T
        let items ← asListLoop (idLists tp rest)
        pure (item.toList ++ items)) := by
  rw [idLists, if_neg hb]
  simp only
  rcases hx : genBody (step tp b) with ⟨w, e | r⟩
  · simp only
    rfl
  · obtain ⟨T, rfl⟩ := h r (by rw [hx])
    have hl : (b.drop (n + 1)).length < b.length := by
      have : 0 < b.length := List.length_pos_iff.2 hb
      simp
      omega
    simp only [if_pos hl]
    rfl

theorem logs_list {tp : TextProc} (ht : Tame tp) (b : Bytes) : Logs (asListLoop (idLists tp b)) (Log.list tp b) := by
  generalize hm : b.length = m
  induction m using Nat.strong_induction_on generalizing b with
  | _ m ih =>
    rw [Log.list]
    by_cases hb : b = []
    · rw [if_pos hb, idLists, if_pos hb]
      exact logs_pure _
    rw [if_neg hb]
    have ends : ∀ {e : PyErr}, TargetFactory.targetClass b = raise e → e ≠ .stopIteration → Logs (asListLoop (idLists tp b)) (fail e) := by
      intro e he hs
      have : genBody (step tp b) = raise e := by
        unfold step
        rw [he]
        unfold genBody
        exact tryExcept_pass _ (by simpa using hs)
      rw [idLists, if_neg hb]
      simp only [this, raise]
      exact logs_raise _
    rcases hu : uAt 2 b 0 with _ | k
    · have hl : b.length < 2 := by rw [uAt_eq_none_iff] at hu; omega
      exact ends ((Props.item_dispatch_end b).2.1 hl) (by simp)
    cases k with
    | zero =>
      have := (Props.item_dispatch_end b).1 hu
      have hs : genBody (step tp b) = pure none := by
        unfold step
        rw [this]
        rfl
      rw [idLists, if_neg hb]
      simp only [hs]
      exact logs_pure _
    | succ n =>
      have hl := ExtraData.uAt_some_length hu
      rcases h2 : b[2]? with _ | t
      · have : b.length = 2 := by rw [List.getElem?_eq_none_iff] at h2; omega
        exact ends ((Props.item_dispatch_end b).2.2 _ hu (by omega) this) (by simp)
      obtain ⟨c, h3, h4, h5⟩ := logs_step ht hu h2
      rw [asList_step hb (n := n) fun r hr => by
        obtain ⟨T, h, -⟩ := h5 r hr
        exact ⟨T, h⟩]
      simp only
      rw [← h3, item_parts]
      have e : all [say (typeNotices t.toNat), Log.andThen (before tp c ((b.drop 2).take (n + 1))) (during tp c ((b.drop 2).take (n + 1))),
          Log.list tp (b.drop (n + 1))] = all ([say (typeNotices t.toNat), before tp c ((b.drop 2).take (n + 1))] ++
            [during tp c ((b.drop 2).take (n + 1)), Log.list tp (b.drop (n + 1))]) := by
        simp only [List.cons_append, List.nil_append, all_cons, andThen_assoc]
      rw [e]
      refine logs_app h4 fun r hr => ?_
      obtain ⟨T, rfl, rfl, rfl, rfl, h6, h7⟩ := h5 r hr
      simp only
      refine logs_cons ?_ fun _ _ => ?_
      · rw [← h6]
        refine logs_itemOf ?_ (Target.logs_asItem (by omega) h7)
        refine never_ite' ?_ ?_
        · exact fun _ => never_say _ _
        · exact fun hc => never_item ht (by simp) (by simp) _ fun hn => hc (name_network hn)
      · refine logs_single (logs_map _ (ih _ ?_ _ rfl))
        simp
        omega

end LnkTargets

end Verif
