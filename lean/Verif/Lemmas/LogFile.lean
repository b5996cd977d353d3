import Verif.Lemmas.LogInfo
import Verif.Lemmas.LogExtra
import Verif.Lemmas.WarnedInit

/-
What the constructor and the report say and raise.
-/

namespace Verif

open Spec Spec.Log Py

/-! ### strings -/

namespace StringData

theorem logs_readText (tp : TextProc) (u : Bool) (b : Bytes) : Logs (readText tp u b) (either tp u b) := Target.logs_either tp u b

/-- One round of the loop on a string that cannot be read. -/
theorem loop_error {h : LnkHeader} {flags : Nat} (hf : uAt 4 h.raw 20 = some flags) (tp : TextProc) (raw : Bytes)
    {bit : Nat} {flag key : String} {limited : Bool} (hn : linkFlagNames[bit]? = some flag)
    (hb : flags.testBit bit = true) (ms : List (String × String × Bool)) (data : List (String × Str)) (start : Nat)
    {count : Nat} {body : Bytes} (hc : count < 65536) (hs : raw.drop start = le 2 count ++ body) {e : PyErr}
    {w : List Warn} (he : e ≠ .structError)
    (ht : readText tp (flags.testBit 7) (body.take (accepted limited count * unit (flags.testBit 7))) = ⟨w, .error e⟩) :
    loop h tp raw ((flag, key, limited) :: ms) data start = ⟨w, .error e⟩ := by
  rw [loop, hasFlag_bit hf hn, hb, hs, read_eq hf tp count hc, ht]
  simp only [pure_bind, if_true]
  simp only [bind, Py.andThen, Py.attempt, he, decide_false, Bool.false_eq_true, if_false]

theorem loop_logs {h : LnkHeader} {flags : Nat} (hf : uAt 4 h.raw 20 = some flags) {tp : TextProc}
    (htp : Tame tp) (b : Bytes) (base : Nat) (fs : List StringField) (ms : List (String × String × Bool))
    (hm : Matches ms fs) (data : List (String × Str)) (start : Nat) :
    Logs (loop h tp (b.drop base) ms data start) (strings tp flags b (fs.map fun f => (f.bit, f.limit)) (base + start)) ∧
    ∀ sd, (loop h tp (b.drop base) ms data start).res = .ok sd →
      base + sd.size = stringsEnd flags b (fs.map fun f => (f.bit, f.limit)) (base + start) ∧
      ∃ more, sd.data = data ++ more ∧ (more.map Prod.fst).Sublist (fs.map StringField.key) ∧
        ((fs.map StringField.key).Nodup → ∀ i f, fs[i]? = some f → (f.key ∈ more.map Prod.fst ↔
          flags.testBit f.bit = true ∧ ¬ stringsCut flags b ((fs.map fun f => (f.bit, f.limit)).take (i + 1)) (base + start))) := by
  induction fs generalizing ms data start with
  | nil =>
    match ms, hm with
    | [], _ =>
      refine ⟨logs_pure _, fun sd hsd => ?_⟩
      rw [← Except.ok.inj hsd]
      exact ⟨rfl, [], by simp, by simp, fun _ i f hi => by simp at hi⟩
  | cons f fs ih =>
    match ms, hm with
    | (flag, key, limited) :: ms, hm =>
      rw [List.map_cons, List.map_cons, stringsEnd, strings]
      cases hb : flags.testBit f.bit with
      | false =>
        rw [loop_absent hf tp _ hm.1.1 hb]
        obtain ⟨h0, h1⟩ := ih ms hm.2 data start
        refine ⟨by simpa using h0, fun sd hsd => ?_⟩
        obtain ⟨h2, more, h3, h4, h5⟩ := h1 sd hsd
        refine ⟨by simpa using h2, more, h3, h4.cons _, fun hn i g hi => ?_⟩
        rw [List.nodup_cons] at hn
        rw [List.take_succ_cons, stringsCut, hb]
        rcases i with _ | i
        · cases hi
          rw [hb]
          exact ⟨fun hk => absurd (h4.subset hk) hn.1, fun hk => nomatch hk.1⟩
        · exact h5 hn.2 i g hi
      | true =>
        rw [if_pos rfl, if_pos rfl]
        by_cases hs : ((b.drop base).drop start).length < 2
        · rw [loop_short hf tp _ hm.1.1 hb _ _ _ hs]
          have hu : uAt 2 b (base + start) = none := by
            rw [uAt_eq_none_iff]; simp at hs; omega
          rw [hu]
          refine ⟨⟨rfl, rfl⟩, fun sd hsd => ?_⟩
          rw [← Except.ok.inj hsd]
          refine ⟨rfl, [], by simp, by simp, fun _ i g _ => ?_⟩
          rw [List.take_succ_cons, stringsCut, hb, hu]
          simp
        · obtain ⟨c, hcc⟩ := le2_surj (b := ((b.drop base).drop start).take 2) (by simp at hs ⊢; omega)
          have hd : (b.drop base).drop start = le 2 c.toNat ++ ((b.drop base).drop start).drop 2 := by
            rw [hcc, List.take_append_drop]
          have hu : uAt 2 b (base + start) = some c.toNat := by
            have h0 : b = b.take (base + start) ++ le 2 c.toNat ++ ((b.drop base).drop start).drop 2 := by
              rw [List.append_assoc, ← hd, List.drop_drop, List.take_append_drop]
            have h1 := uAt_le (n := 2) (v := c.toNat) c.toNat_lt (b.take (base + start)) (((b.drop base).drop start).drop 2)
            rw [← List.append_assoc, ← h0] at h1
            rwa [List.length_take, Nat.min_eq_left (by simp at hs; omega)] at h1
          rw [hu]
          have hacc : accepted limited c.toNat = min c.toNat f.limit := by
            have := c.toNat_lt
            unfold accepted
            rw [hm.1.2.2]
            cases limited
            · simp; omega
            · simp
          have hlog := logs_readText tp (flags.testBit 7)
            ((((b.drop base).drop start).drop 2).take (accepted limited c.toNat * unit (flags.testBit 7)))
          have hbt : (((b.drop base).drop start).drop 2).take (accepted limited c.toNat * unit (flags.testBit 7)) =
              between b (base + start + 2) (base + start + 2 + min c.toNat f.limit * if flags.testBit 7 = true then 2 else 1) := by
            unfold between
            rw [hacc, List.drop_drop, List.drop_drop, Nat.add_sub_cancel_left]
            rfl
          have hpos : base + (start + (2 + accepted limited c.toNat * unit (flags.testBit 7))) =
              base + start + 2 + min c.toNat f.limit * if flags.testBit 7 = true then 2 else 1 := by
            rw [hacc]
            simp only [unit, Nat.add_assoc]
          rcases ht : readText tp (flags.testBit 7)
            ((((b.drop base).drop start).drop 2).take (accepted limited c.toNat * unit (flags.testBit 7))) with ⟨w, e | t⟩
          · have he : e ≠ .structError := by
              rintro rfl
              rw [ht] at hlog
              exact never_either htp (by simp) _ _ _ hlog
            rw [loop_error hf tp _ hm.1.1 hb ms data start c.toNat_lt hd he ht]
            refine ⟨?_, fun sd hsd => nomatch hsd⟩
            rw [ht, hbt] at hlog
            exact .inl ⟨hlog, fun h => nomatch h⟩
          · rw [loop_present hf tp _ hm.1.1 hb ms data start c.toNat_lt hd ht]
            obtain ⟨h0, h1⟩ := ih ms hm.2 (data ++ [(key, t)]) (start + (2 + accepted limited c.toNat * unit (flags.testBit 7)))
            rw [hpos] at h0 h1
            rw [ht, hbt] at hlog
            refine ⟨.inr ⟨w, _, rfl, hlog, ?_⟩, fun sd hsd => ?_⟩
            · rw [all_one]
              exact h0
            · obtain ⟨h2, more, h3, h4, h5⟩ := h1 sd hsd
              refine ⟨h2, (key, t) :: more, by rw [h3]; simp, ?_, fun hn i g hi => ?_⟩
              · rw [List.map_cons, hm.1.2.1]
                exact h4.cons_cons _
              · rw [List.nodup_cons] at hn
                rw [List.take_succ_cons, stringsCut, hb, hu, if_pos rfl, List.map_cons]
                rcases i with _ | i
                · cases hi
                  rw [hb, ← hm.1.2.1]
                  simp [stringsCut]
                · have hg : g ∈ fs := List.mem_of_getElem? (i := i) hi
                  have hne : g.key ≠ key := by
                    rw [hm.1.2.1] at *
                    exact fun he => hn.1 (he ▸ List.mem_map_of_mem hg)
                  rw [List.mem_cons, or_iff_right hne]
                  exact h5 hn.2 i g hi

theorem init_logs {h : LnkHeader} {flags : Nat} (hf : uAt 4 h.raw 20 = some flags) {tp : TextProc} (htp : Tame tp) (b : Bytes) (base : Nat) :
    Logs (init h tp (b.drop base)) (strings tp flags b stringLimits base) ∧
    ∀ sd, (init h tp (b.drop base)).res = .ok sd → base + sd.size = stringsEnd flags b stringLimits base ∧
      (sd.data.map Prod.fst).Sublist
        ["description", "relative_path", "working_directory", "command_line_arguments", "icon_location"] ∧
      (sd.get? "relative_path" = none ↔ ¬ (flags.testBit 3 = true ∧ ¬ stringsCut flags b (stringLimits.take 2) base)) ∧
      (sd.get? "command_line_arguments" = none ↔ ¬ (flags.testBit 5 = true ∧ ¬ stringsCut flags b (stringLimits.take 4) base)) := by
  obtain ⟨h0, h1⟩ := loop_logs hf htp b base (Strings.fields ⟨none, none, none, none, none⟩) fields (matches_fields _) [] 0
  refine ⟨h0, fun sd hsd => ?_⟩
  obtain ⟨h2, more, h3, h4, h5⟩ := h1 sd hsd
  have hk : ∀ key, sd.get? key = none ↔ key ∉ more.map Prod.fst := by
    intro key
    unfold get?
    rw [h3, List.nil_append, List.lookup_eq_none_iff]
    constructor
    · intro h hm
      obtain ⟨kv, hkv, rfl⟩ := List.mem_map.1 hm
      simpa using h kv hkv
    · intro h kv hkv
      rw [bne_iff_ne]
      rintro rfl
      exact h (List.mem_map_of_mem hkv)
  refine ⟨h2, by rw [h3]; exact h4, ?_, ?_⟩
  · rw [hk, h5 (by decide) 1 _ rfl]; rfl
  · rw [hk, h5 (by decide) 3 _ rfl]; rfl

end StringData

/-! ### the constructor -/

namespace LnkFile

/-- The constructor from the strings on. -/
def rest (env : Env) (cp : Option String) (allow : Bool) (b : Bytes) (L : Layout) : Py LnkFile := do
  let tp := TextProc.mk' env cp
  let sd ← StringData.init ⟨b.take L.headerSize⟩ tp (b.drop L.stringsAt)
  let extras ← ExtraData.init tp allow (b.drop (L.stringsAt + sd.size))
  let n ← extras.size
  pure ⟨b, ⟨b.take L.headerSize⟩, L.headerSize + 2,
    if L.flags.testBit 0 then some ⟨tp, b.drop L.headerSize, slice b (L.headerSize + 2) L.infoAt⟩ else none,
    if infoAnnounced L.flags then (infoLocation b L.infoAt).map fun c => (classOf c, ⟨tp, b.drop L.infoAt⟩) else none,
    sd, extras, L.stringsAt + sd.size + n + min (b.drop (L.stringsAt + sd.size + n)).length 4⟩

theorem mustBe_say (name : String) (v k : Nat) : mustBe name (.int v) (fun k : Nat => .int k) (pure k) =
    ⟨unlessEqual name (.int v) (.int k), .ok k⟩ := Props.Notices.mustBe_pure rfl

theorem process_rest (env : Env) (cp : Option String) (allow : Bool) (b : Bytes) (L : Layout) (hl : layout b = some L) :
    uAt 4 b 0 = some L.headerSize ∧ 24 ≤ (b.take L.headerSize).length ∧ uAt 4 (b.take L.headerSize) 20 = some L.flags ∧
    L.extraAt = stringsEnd L.flags b stringLimits L.stringsAt ∧
    process env cp allow b = (do
      let _ ← (⟨unlessEqual "size" (.int 76) (.int L.headerSize), .ok ()⟩ : Py Unit)
      let _ ← (⟨unlessEqual "size" (.int 76) (.int L.headerSize), .ok ()⟩ : Py Unit)
      let _ ← (⟨if infoAnnounced L.flags = true ∧ uAt 4 b (L.infoAt + 8) = none then [.infoClass] else [], .ok ()⟩ : Py Unit)
      rest env cp allow b L) := by
  unfold layout at hl
  rcases h0 : uAt 4 b 0 with _ | hs
  · simp [h0] at hl
  simp only [h0] at hl
  rcases h2 : uAt 4 (b.take hs) 20 with _ | flags
  · simp [h2] at hl
  simp only [h2] at hl
  have hb : b ≠ [] := by
    intro hb
    subst hb
    simp [uAt] at h0
  have h24 := ExtraData.uAt_some_length h2
  have h1 : uAt 4 (b.take hs) 0 = some hs := by
    rw [ExtraData.uAt_take 4 b 0 hs (by omega) (by simp at h24; omega), h0]
  generalize hX : (if flags.testBit 0 then (uAt 2 b hs).map fun n => hs + 2 + n else some hs) = X at hl
  rcases X with _ | infoAt
  · simp at hl
  simp only [Option.some.injEq] at hl
  have ht : processTargets (TextProc.mk' env cp) b ⟨b.take hs⟩ hs = pure (if flags.testBit 0 then
      some ⟨TextProc.mk' env cp, b.drop hs, slice b (hs + 2) infoAt⟩ else none, infoAt) := by
    rw [processTargets_uAt _ _ _ _ flags h2]
    cases hb0 : flags.testBit 0 with
    | false =>
      rw [hb0] at hX
      simp only [Bool.false_eq_true, if_false, Option.some.injEq] at hX ⊢
      rw [hX]
    | true =>
      rw [hb0] at hX
      simp only [if_true] at hX ⊢
      rcases h3 : uAt 2 b hs with _ | n
      · simp [h3] at hX
      · rw [h3] at hX
        simp only [Option.map_some, Option.some.injEq] at hX ⊢
        rw [hX]
  have hi := processInfo_uAt (TextProc.mk' env cp) b ⟨b.take hs⟩ infoAt flags h2
  have hiw := processInfo_warns (TextProc.mk' env cp) b ⟨b.take hs⟩ infoAt flags h2
  generalize hS : (if infoAnnounced flags && (infoLocation b infoAt).isSome then infoAt + (uAt 4 b infoAt).getD 0
    else infoAt) = stringsAt at hl hi
  subst hl
  refine ⟨rfl, by omega, h2, rfl, ?_⟩
  have hsz : ∀ raw : Bytes, uAt 4 raw 0 = some hs → LnkHeader.size ⟨raw⟩ = ⟨unlessEqual "size" (.int 76) (.int hs), .ok hs⟩ := by
    intro raw hraw
    unfold LnkHeader.size
    have := unpackU_slice raw 4 0 (by omega)
    rw [Nat.zero_add, hraw] at this
    rw [this]
    exact mustBe_say "size" 76 hs
  have hinit : LnkHeader.init b = ⟨unlessEqual "size" (.int 76) (.int hs), .ok ⟨b.take hs⟩⟩ := by
    unfold LnkHeader.init
    rw [if_neg hb, hsz b h0]
    show (⟨_ ++ [], _⟩ : Py LnkHeader) = _
    rw [List.append_nil]
    rfl
  obtain ⟨w, r, hinfo, rfl, rfl⟩ : ∃ w r, processInfo (TextProc.mk' env cp) b ⟨b.take hs⟩ infoAt = ⟨w, .ok r⟩ ∧
      w = (if infoAnnounced flags = true ∧ uAt 4 b (infoAt + 8) = none then [.infoClass] else []) ∧
      r = (if infoAnnounced flags then (infoLocation b infoAt).map fun c => (classOf c, ⟨TextProc.mk' env cp, b.drop infoAt⟩) else none,
        stringsAt) := by
    rcases hp : processInfo (TextProc.mk' env cp) b ⟨b.take hs⟩ infoAt with ⟨w, r⟩
    rw [hp] at hi hiw
    simp only at hi hiw
    exact ⟨w, _, by rw [hi], hiw, rfl⟩
  unfold process
  simp only
  rw [hinit]
  have e0 : ∀ {α β : Type} (w : List Warn) (a : α) (k : α → Py β), ((⟨w, .ok a⟩ : Py α) >>= k) = ((⟨w, .ok ()⟩ : Py Unit) >>= fun _ => k a) :=
    fun _ _ _ => rfl
  rw [e0]
  congr 1
  funext _
  rw [hsz _ h1, e0]
  congr 1
  funext _
  rw [ht, pure_bind, hinfo, e0]
  rfl

/-- Every object, whatever the code page. -/
theorem parts_tame {env : Env} {cp : Option String} (htp : Tame (TextProc.mk' env cp)) {allow : Bool} {b : Bytes} {f : LnkFile}
    (hf : (process env cp allow b).res = .ok f) :
    ∃ L l last, layout b = some L ∧ Cut (b.drop L.extraAt) l last ∧ Parts env cp allow b L l last f ∧
      ∀ p ∈ ExtraData.signed l, 4 ≤ p.declared := by
  rcases hl : layout b with _ | L
  · rw [process_none _ _ _ _ hl] at hf
    simp at hf
  obtain ⟨l, last, hc⟩ := ExtraData.cut_exists (b.drop L.extraAt)
  refine ⟨L, l, last, rfl, hc, ?_⟩
  obtain ⟨h1, h2, h3, h4, h5⟩ := process_rest env cp allow b L hl
  rw [h5] at hf
  obtain ⟨_, -, hf⟩ := bind_ok_iff.1 hf
  obtain ⟨_, -, hf⟩ := bind_ok_iff.1 hf
  obtain ⟨_, -, hf⟩ := bind_ok_iff.1 hf
  unfold rest at hf
  simp only at hf
  obtain ⟨sd, hsd, hf⟩ := bind_ok_iff.1 hf
  obtain ⟨ex, hex, hf⟩ := bind_ok_iff.1 hf
  obtain ⟨n, hn, hf⟩ := bind_ok_iff.1 hf
  obtain ⟨h6, h7⟩ := (StringData.init_logs (h := ⟨b.take L.headerSize⟩) h3 htp b L.stringsAt).2 sd hsd
  rw [← h4] at h6
  rw [h6, ExtraData.init_cut hc] at hex
  obtain rfl := Except.ok.inj hex
  rw [ExtraData.size_cut hc] at hn
  split at hn
  · rename_i hall
    obtain rfl := Except.ok.inj hn
    obtain rfl := Except.ok.inj hf
    refine ⟨⟨rfl, rfl, rfl, rfl, rfl, hsd, h6, h7.1, rfl, _, rfl, ?_⟩, hall⟩
    simp only [h6, List.length_drop, Nat.add_assoc]
  · cases hn

theorem logs_process {env : Env} {cp : Option String} (htp : Tame (TextProc.mk' env cp)) (allow : Bool) {b : Bytes} (hb : b ≠ []) :
    Logs (process env cp allow b) (construction (TextProc.mk' env cp) b) := by
  unfold construction
  rcases hl : layout b with _ | L
  · by_cases h4 : 4 ≤ b.length
    · obtain ⟨hs, hu⟩ := LnkInfo.uAt_exists (raw := b) (off := 0) (by omega)
      have hsz : ∀ raw : Bytes, uAt 4 raw 0 = some hs → LnkHeader.size ⟨raw⟩ = ⟨unlessEqual "size" (.int 76) (.int hs), .ok hs⟩ := by
        intro raw hraw
        unfold LnkHeader.size
        have := unpackU_slice raw 4 0 (by omega)
        rw [Nat.zero_add, hraw] at this
        rw [this]
        exact mustBe_say "size" 76 hs
      have hu4 : u4 b 0 = hs := by unfold u4; rw [hu]; rfl
      have hinit : LnkHeader.init b = ⟨unlessEqual "size" (.int 76) (.int hs), .ok ⟨b.take hs⟩⟩ := by
        unfold LnkHeader.init
        rw [if_neg hb, hsz b hu]
        show (⟨_ ++ [], _⟩ : Py LnkHeader) = _
        rw [List.append_nil]
        rfl
      unfold process
      simp only
      rw [hinit, hu4]
      refine logs_room h4 (logs_cons logs_ok fun h hh => ?_)
      obtain rfl := Except.ok.inj hh
      by_cases h4' : 4 ≤ (b.take hs).length
      · have hu' : uAt 4 (b.take hs) 0 = some hs := by
          rw [ExtraData.uAt_take 4 b 0 hs (by omega) (by simp at h4'; omega), hu]
        rw [hsz _ hu']
        refine logs_room h4' (logs_cons logs_ok fun k hk => ?_)
        obtain rfl := Except.ok.inj hk
        rw [need_neg (by simp), all_fail]
        have : processTargets (TextProc.mk' env cp) b ⟨b.take hs⟩ hs = Py.raise .structError := by
          unfold layout at hl
          simp only [hu] at hl
          rcases h2 : uAt 4 (b.take hs) 20 with _ | flags
          · unfold processTargets
            rw [hasFlag_short h2]
            rfl
          rw [processTargets_uAt _ _ _ _ flags h2]
          simp only [h2] at hl
          cases hb0 : flags.testBit 0 with
          | false => simp [hb0] at hl
          | true =>
            simp only [hb0, if_true] at hl ⊢
            rcases h3 : uAt 2 b hs with _ | n
            · rfl
            · simp [h3] at hl
        rw [this]
        exact logs_raise _
      · rw [room_neg h4', all_fail]
        have : LnkHeader.size ⟨b.take hs⟩ = Py.raise .structError := by
          unfold LnkHeader.size
          have := unpackU_slice (b.take hs) 4 0 (by omega)
          rw [Nat.zero_add, uAt_eq_none_iff.2 (by omega)] at this
          rw [this]
          rfl
        rw [this]
        exact logs_raise _
    · rw [room_neg h4, all_fail]
      have : LnkHeader.init b = Py.raise .structError := by
        unfold LnkHeader.init LnkHeader.size
        have := unpackU_slice b 4 0 (by omega)
        rw [Nat.zero_add, uAt_eq_none_iff.2 (by omega)] at this
        rw [if_neg hb, this]
        rfl
      unfold process
      simp only
      rw [this]
      exact logs_raise _
  · obtain ⟨l, last, hc⟩ := ExtraData.cut_exists (b.drop L.extraAt)
    obtain ⟨h1, h2, h3, h4, h5⟩ := process_rest env cp allow b L hl
    have hu4 : u4 b 0 = L.headerSize := by unfold u4; rw [h1]; rfl
    rw [h5, hu4]
    refine logs_room (ExtraData.uAt_some_length h1) (logs_cons logs_ok fun _ _ => ?_)
    refine logs_room (by omega) (logs_cons logs_ok fun _ _ => ?_)
    rw [need_pos (by simp), all_quiet]
    refine logs_single ⟨L, l, last, rfl, hc, ?_⟩
    refine logs_cons logs_ok fun _ _ => ?_
    unfold rest
    simp only
    obtain ⟨h6, h7⟩ := StringData.init_logs (h := ⟨b.take L.headerSize⟩) h3 htp b L.stringsAt
    refine logs_cons h6 fun sd hsd => logs_single ?_
    have h8 := (h7 sd hsd).1
    rw [← h4] at h8
    rw [h8, ExtraData.init_cut hc]
    unfold pieces
    have hw : ExtraData.cutWarns l last = (l.filter fun p => p.signature.isNone).map (fun _ => Warn.extraSignature) ++
        if last ≠ [] ∧ last.length < 4 then [.extraSize] else [] := by
      unfold ExtraData.cutWarns
      congr 1
      · clear hc
        induction l with
        | nil => rfl
        | cons p l ih =>
          rw [List.filterMap_cons]
          rcases hp : p.signature with _ | s
          · rw [List.filter_cons_of_pos (by simp [hp]), List.map_cons, ← ih]
            rfl
          · rw [List.filter_cons_of_neg (by simp [hp]), ← ih]
            rfl
      · have : uAt 4 last 0 = none ↔ last.length < 4 := by rw [uAt_eq_none_iff]
        simp only [this]
    have hsay : ∀ (u v : List Warn) (ls : List Log), all (say u :: say v :: ls) = all (say (u ++ v) :: ls) := by
      intro u v ls
      rw [all_cons, all_cons, all_cons, ← andThen_assoc]
      congr 1
      funext w e
      apply propext
      constructor
      · rintro (⟨⟨-, h⟩, h'⟩ | ⟨_, _, rfl, ⟨rfl, -⟩, rfl, rfl⟩)
        · exact absurd h h'
        · exact ⟨rfl, rfl⟩
      · rintro ⟨rfl, rfl⟩
        exact .inr ⟨u, v, rfl, ⟨rfl, rfl⟩, rfl, rfl⟩
    rw [hsay, ← hw]
    refine logs_cons logs_ok fun ex hex => logs_single (logs_map _ ?_)
    obtain rfl := Except.ok.inj hex
    rw [ExtraData.size_cut hc]
    have hiff : (∀ p ∈ ExtraData.signed l, 4 ≤ p.declared) ↔ ∀ p ∈ l, p.signature.isSome = true → 4 ≤ p.declared := by
      simp only [ExtraData.signed, List.mem_filter]
      exact ⟨fun h p hp hs => h p ⟨hp, hs⟩, fun h p hp => h p hp.1 hp.2⟩
    by_cases hall : ∀ p ∈ ExtraData.signed l, 4 ≤ p.declared
    · rw [if_pos hall, need_pos (hiff.1 hall)]
      exact logs_pure _
    · rw [if_neg hall, need_neg (mt hiff.2 hall)]
      exact logs_raise _

/-! ### the report -/

theorem logs_report {env : Env} {cp : Option String} (htp : Tame (TextProc.mk' env cp)) {allow : Bool} {b : Bytes} {L : Layout}
    {l : List Piece} {last : Bytes} (hl : layout b = some L)
    (hc : Cut (b.drop L.extraAt) l last) {f : LnkFile} (hP : Parts env cp allow b L l last f)
    (h4 : ∀ p ∈ ExtraData.signed l, 4 ≤ p.declared) (all : Bool) :
    Logs (f.getJson all) (report (TextProc.mk' env cp) b L l) := by
  unfold getJson report
  refine logs_cons (logs_header hP.header) fun _ _ => ?_
  refine logs_cons ?_ fun _ _ => ?_
  · unfold jsonTarget
    rw [hP.targets]
    by_cases h0 : L.flags.testBit 0 = true
    · rw [if_pos h0, given_pos h0]
      simp only
      obtain ⟨n, hn⟩ : ∃ n, uAt 2 b L.headerSize = some n := by
        unfold layout at hl
        rcases h0' : uAt 4 b 0 with _ | hs
        · simp [h0'] at hl
        simp only [h0'] at hl
        rcases h2 : uAt 4 (b.take hs) 20 with _ | flags
        · simp [h2] at hl
        simp only [h2] at hl
        generalize hX : (if flags.testBit 0 then (uAt 2 b hs).map fun n => hs + 2 + n else some hs) = X at hl
        rcases X with _ | infoAt
        · simp at hl
        simp only [Option.some.injEq] at hl
        subst hl
        simp only at h0 ⊢
        rw [if_pos h0] at hX
        rcases h3 : uAt 2 b hs with _ | n
        · simp [h3] at hX
        · exact ⟨n, rfl⟩
      have h1 := unpackU_slice (b.drop L.headerSize) 2 0 (by omega)
      rw [Nat.zero_add, uAt_drop 2 b L.headerSize 0 (by omega), Nat.add_zero, hn] at h1
      unfold LnkTargets.idListSize LnkTargets.idListSizeOf
      simp only
      rw [h1]
      simp only [pure_bind]
      exact logs_map _ (LnkTargets.logs_list htp _)
    · rw [if_neg h0, given_neg h0]
      exact logs_pure _
  refine logs_cons ?_ fun _ _ => ?_
  · by_cases h0 : infoAnnounced L.flags = true
    · rw [given_pos h0]
      have hi := hP.info
      rw [if_pos h0] at hi
      rcases hk : infoLocation b L.infoAt with _ | kind
      · rw [hk] at hi
        unfold jsonInfo
        rw [hi]
        exact logs_pure _
      · rw [hk] at hi
        have := logs_info hi
        simp only
        have hk' : locationName (classOf kind) = kind := by
          unfold infoLocation at hk
          split at hk
          · simp at hk
          · split at hk
            · simp at hk; rw [← hk]; rfl
            · split at hk
              · simp at hk; rw [← hk]; rfl
              · simp at hk
        rw [hk'] at this
        exact this
    · have hi := hP.info
      rw [if_neg h0] at hi
      rw [given_neg h0]
      unfold jsonInfo
      rw [hi]
      exact logs_pure _
  refine logs_single (logs_map _ ?_)
  rw [hP.extras]
  refine ExtraData.logs_asDict htp hc h4 _ fun x hx => ?_
  split at hx
  · simp at hx; rw [hx]
  · simp at hx

end LnkFile

end Verif
