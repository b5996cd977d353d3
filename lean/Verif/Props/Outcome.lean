import Verif.Lemmas.FaultInfo
import Verif.Lemmas.FaultExtra
import Verif.Props.File

/-
C70: when `get_json` returns, and what it raises otherwise.
-/

namespace Verif.Props

open Spec Py

namespace Outcome

theorem header_fails {env : Env} {cp : Option String} {allow : Bool} {b : Bytes} {L : Layout} {l : List Piece} {last : Bytes}
    {f : LnkFile} (P : LnkFile.Parts env cp allow b L l last f) : When (HeaderReadable b L) f.jsonHeader := by
  refine (LnkFile.when_jsonHeader f).congr ?_
  rw [P.header]
  simp only [List.length_take, HeaderReadable]
  omega

theorem target_fails {env : Env} {cp : Option String} (hcp : UsableCodePage (TextProc.mk' env cp)) {allow : Bool} {b : Bytes}
    {L : Layout} {l : List Piece} {last : Bytes} {f : LnkFile} (hL : layout b = some L)
    (P : LnkFile.Parts env cp allow b L l last f) : Fails f.jsonTarget (targetFault b L) := by
  unfold LnkFile.jsonTarget targetFault
  rw [P.targets]
  by_cases h0 : L.flags.testBit 0 = true
  · rw [if_pos h0, if_pos h0]
    dsimp only
    have hsz : ∃ n, LnkTargets.idListSize ⟨TextProc.mk' env cp, b.drop L.headerSize, slice b (L.headerSize + 2) L.infoAt⟩ = pure n := by
      unfold layout at hL
      rcases h1 : uAt 4 b 0 with _ | hs
      · simp [h1] at hL
      simp only [h1] at hL
      rcases h2 : uAt 4 (b.take hs) 20 with _ | flags
      · simp [h2] at hL
      simp only [h2] at hL
      by_cases hfl : flags.testBit 0 = true
      · simp only [hfl, if_true] at hL
        rcases h3 : uAt 2 b hs with _ | n
        · simp [h3] at hL
        · simp only [h3, Option.map_some, Option.some.injEq] at hL
          refine ⟨n, Target.leNat_slice (n := 2) (off := 0) (by omega) ?_⟩
          subst hL
          rw [uAt_drop 2 _ _ _ (by omega)]
          exact h3
      · simp only [hfl] at hL
        cases hL
        exact absurd h0 hfl
    obtain ⟨n, hn⟩ := hsz
    rw [hn, pure_bind]
    have hf := LnkTargets.fails_idLists hcp (between b (L.headerSize + 2) L.infoAt)
    have hit : LnkTargets.asList ⟨TextProc.mk' env cp, b.drop L.headerSize, slice b (L.headerSize + 2) L.infoAt⟩ =
        LnkTargets.asListLoop (LnkTargets.idLists (TextProc.mk' env cp) (between b (L.headerSize + 2) L.infoAt)) := by
      rfl
    rw [hit]
    rcases hlf : listFault (between b (L.headerSize + 2) L.infoAt) with _ | e
    · rw [hlf] at hf
      obtain ⟨d, hd⟩ := hf
      exact ⟨_, bind_ok_iff.2 ⟨d, hd, rfl⟩⟩
    · rw [hlf] at hf
      exact bind_error_iff.2 (.inl hf)
  · rw [if_neg h0, if_neg h0]
    exact ⟨_, rfl⟩

theorem info_fails {env : Env} {cp : Option String} (hcp : UsableCodePage (TextProc.mk' env cp)) {allow : Bool} {b : Bytes}
    {L : Layout} {l : List Piece} {last : Bytes} {f : LnkFile} (P : LnkFile.Parts env cp allow b L l last f) :
    When (InfoReadableAt b L) f.jsonInfo := by
  have hi := P.info
  unfold InfoReadableAt
  by_cases ha : infoAnnounced L.flags = true
  · rw [if_pos ha] at hi
    rcases hk : infoLocation b L.infoAt with _ | kind
    · rw [hk] at hi
      have : f.jsonInfo = pure [] := by unfold LnkFile.jsonInfo; rw [hi]; rfl
      rw [this]
      exact (when_pure _).congr (by simp)
    · rw [hk] at hi
      refine (LnkFile.when_jsonInfo (cls := LnkFile.classOf kind) (i := ⟨TextProc.mk' env cp, b.drop L.infoAt⟩) hi hcp).congr ?_
      have : LnkFile.locationName (LnkFile.classOf kind) = kind := by
        unfold infoLocation at hk
        split at hk
        · cases hk
        · split at hk
          · cases hk; rfl
          · split at hk
            · cases hk; rfl
            · cases hk
      rw [this]
      simp [ha]
  · rw [if_neg ha] at hi
    have : f.jsonInfo = pure [] := by unfold LnkFile.jsonInfo; rw [hi]
    rw [this]
    exact (when_pure _).congr (by simp [ha])

end Outcome

/-- C70: `get_json` of an object returns or raises, in either mode, exactly what the bytes of the file say: the fault of the first
section, item or block that has one. -/
theorem report_outcome (env : Env) (cp : Option String) (hcp : UsableCodePage (TextProc.mk' env cp)) (allow : Bool) (src : Source)
    (f : LnkFile) (hf : (LnkFile.init env cp allow src).res = .ok f) :
    ∃ L l last, layout src.bytes = some L ∧ Cut (src.bytes.drop L.extraAt) l last ∧
      ∀ all e, (f.getJson all).res = .error e ↔ ReportFault src.bytes L l e := by
  have hp := LnkFile.init_ok hf
  obtain ⟨L, l, last, hL, hc, P⟩ := constructed env cp hcp allow src f hf
  refine ⟨L, l, last, hL, hc, fun all e => ?_⟩
  have h4 : ∀ p ∈ ExtraData.signed l, 4 ≤ p.declared := by
    have h := LnkFile.process_some env cp hcp allow src.bytes L hL l last hc
    by_contra hn
    rw [if_neg hn, hp] at h
    cases h
  have w1 := Outcome.header_fails P
  have w2 := Outcome.target_fails hcp hL P
  have w3 := Outcome.info_fails hcp P
  have w4 : f.extras.asDict.res = .error e ↔
      ∃ pre p post, l = pre ++ p :: post ∧ (∀ q ∈ pre, ∀ e, ¬ BlockFault q e) ∧ BlockFault p e := by
    rw [P.extras]
    exact ExtraData.asDict_error_iff hcp hc h4 _ (by intro x hx; split at hx <;> simp_all) e
  unfold LnkFile.getJson
  by_cases hh : HeaderReadable src.bytes L
  · obtain ⟨d1, e1⟩ := w1.ok hh
    rw [bind_res, e1]
    dsimp only
    rcases ht : targetFault src.bytes L with _ | te
    · rw [ht] at w2
      obtain ⟨d2, e2⟩ := w2
      rw [bind_res, e2]
      dsimp only
      by_cases hi : InfoReadableAt src.bytes L
      · obtain ⟨d3, e3⟩ := w3.ok hi
        rw [bind_res, e3]
        dsimp only
        rw [bind_error_iff, w4]
        constructor
        · rintro (⟨pre, p, post, hl, hpre, hp⟩ | ⟨d, -, h⟩)
          · exact .block hh ht hi hl hpre hp
          · cases h
        · rintro (h | ⟨-, h⟩ | ⟨-, -, h⟩ | ⟨-, -, -, hl, hpre, hp⟩)
          · exact absurd hh h
          · rw [ht] at h; cases h
          · exact absurd hi h
          · exact .inl ⟨_, _, _, hl, hpre, hp⟩
      · rw [bind_res, w3.err hi]
        constructor
        · intro h; cases h; exact .info hh ht hi
        · rintro (h | ⟨-, h⟩ | ⟨-, -, h⟩ | ⟨-, -, h, hl, hpre, hp⟩)
          · exact absurd hh h
          · rw [ht] at h; cases h
          · rfl
          · exact absurd h hi
    · rw [ht] at w2
      have w2' : f.jsonTarget.res = .error te := w2
      rw [bind_res, w2']
      constructor
      · intro h; cases h; exact .target hh ht
      · rintro (h | ⟨-, h⟩ | ⟨-, h, -⟩ | ⟨-, h, -⟩)
        · exact absurd hh h
        · rw [ht] at h; cases h; rfl
        · rw [ht] at h; cases h
        · rw [ht] at h; cases h
  · rw [bind_res, w1.err hh]
    constructor
    · intro h; cases h; exact .header hh
    · rintro (h | ⟨h, -⟩ | ⟨h, -⟩ | ⟨h, -⟩)
      · rfl
      · exact absurd h hh
      · exact absurd h hh
      · exact absurd h hh

/-- C70: `get_json` returns iff nothing in the file is at fault; the mode does not matter. -/
theorem report_returns (env : Env) (cp : Option String) (hcp : UsableCodePage (TextProc.mk' env cp)) (allow : Bool) (src : Source)
    (f : LnkFile) (hf : (LnkFile.init env cp allow src).res = .ok f) :
    ∃ L l last, layout src.bytes = some L ∧ Cut (src.bytes.drop L.extraAt) l last ∧
      ∀ all, (∃ j, (f.getJson all).res = .ok j) ↔
        HeaderReadable src.bytes L ∧ targetFault src.bytes L = none ∧ InfoReadableAt src.bytes L ∧ ∀ p ∈ l, ∀ e, ¬ BlockFault p e := by
  obtain ⟨L, l, last, hL, hc, h⟩ := report_outcome env cp hcp allow src f hf
  refine ⟨L, l, last, hL, hc, fun all => ?_⟩
  constructor
  · rintro ⟨j, hj⟩
    have hno : ∀ e, ¬ ReportFault src.bytes L l e := by
      intro e he
      rw [(h all e).2 he] at hj
      cases hj
    have h1 : HeaderReadable src.bytes L := by
      by_contra hn
      exact hno _ (.header hn)
    have h2 : targetFault src.bytes L = none := by
      rcases ht : targetFault src.bytes L with _ | e
      · rfl
      · exact absurd (.target h1 ht) (hno e)
    have h3 : InfoReadableAt src.bytes L := by
      by_contra hn
      exact hno _ (.info h1 h2 hn)
    refine ⟨h1, h2, h3, ?_⟩
    rcases ExtraData.first_or_none (fun p => ∃ e, BlockFault p e) l with hn | ⟨pre, p, post, hl, hpre, e, hp⟩
    · exact fun p hp e he => hn p hp ⟨e, he⟩
    · exact absurd (.block h1 h2 h3 hl (fun q hq e he => hpre q hq ⟨e, he⟩) hp) (hno e)
  · rintro ⟨h1, h2, h3, h4⟩
    rcases hr : (f.getJson all).res with e | j
    · exfalso
      rcases (h all e).1 hr with h' | ⟨-, h'⟩ | ⟨-, -, h'⟩ | ⟨-, -, -, hl, hpre, hp⟩
      · exact h' h1
      · rw [h2] at h'; cases h'
      · exact h' h3
      · exact h4 _ (by rw [hl]; simp) _ hp
    · exact ⟨j, rfl⟩

/-- C70: `print_json` raises what `get_json` raises. -/
theorem print_outcome (env : Env) (cp : Option String) (hcp : UsableCodePage (TextProc.mk' env cp)) (allow : Bool) (src : Source)
    (f : LnkFile) (hf : (LnkFile.init env cp allow src).res = .ok f) :
    ∃ L l last, layout src.bytes = some L ∧ Cut (src.bytes.drop L.extraAt) l last ∧
      ∀ all e, (f.printJson all).res = .error e ↔ ReportFault src.bytes L l e := by
  obtain ⟨L, l, last, hL, hc, h⟩ := report_outcome env cp hcp allow src f hf
  refine ⟨L, l, last, hL, hc, fun all e => ?_⟩
  rw [← h all e]
  unfold LnkFile.printJson
  rw [bind_error_iff]
  constructor
  · rintro (h | ⟨d, -, h⟩)
    · exact h
    · cases h
  · exact .inl

/-- A header, an ID list with a network location that announces a description and ends there. -/
def nameless : Bytes := le 4 76 ++ List.replicate 16 7 ++ le 4 1 ++ List.replicate 52 0 ++ le 2 5 ++ [5, 0, 0x41, 0, 0x80]

/-- A header, and a Darwin block of eight bytes. -/
def bareDarwin : Bytes := le 4 76 ++ List.replicate 16 7 ++ le 4 0 ++ List.replicate 52 0 ++ le 4 8 ++ le 4 0xA0000006

/-- A header, and a link info of 28 bytes with a volume id behind its end. -/
def farVolume : Bytes :=
  le 4 76 ++ List.replicate 16 7 ++ le 4 2 ++ List.replicate 52 0 ++ le 4 28 ++ le 4 28 ++ le 4 1 ++ le 4 28 ++ List.replicate 12 0

/-- The objects exist. -/
example (env : Env) (allow : Bool) (b : Bytes) (hb : b ∈ [nameless, bareDarwin, farVolume]) :
    ∃ f, (LnkFile.init env none allow (.indata b)).res = .ok f := by
  refine (constructor_outcome env none (usable_default env) allow _).1.2 ⟨?_, ?_⟩
  · simp only [List.mem_cons, List.not_mem_nil, or_false] at hb
    rcases hb with rfl | rfl | rfl
    · exact ⟨76, 1, by decide, by decide, by decide, by decide⟩
    · exact ⟨76, 0, by decide, by decide, by decide, by decide⟩
    · exact ⟨76, 2, by decide, by decide, by decide, by decide⟩
  · intro L l last hL hc p hp hs
    simp only [List.mem_cons, List.not_mem_nil, or_false] at hb
    simp only [Source.bytes] at hL hc
    rcases hb with rfl | rfl | rfl
    · have h : layout nameless = some ⟨76, 1, 83, 83, 83⟩ := by decide +kernel
      rw [h] at hL
      cases hL
      obtain ⟨rfl, -⟩ := cut_unique hc (ExtraData.cut_stops (tail := []) (.inr (by simp)))
      simp at hp
    · have h : layout bareDarwin = some ⟨76, 0, 76, 76, 76⟩ := by decide +kernel
      rw [h] at hL
      cases hL
      obtain ⟨rfl, -⟩ := cut_unique hc (Cut.block (b := bareDarwin.drop 76) (n := 8) (l := []) (last := []) (by decide +kernel)
        (by decide) (.stop (.inl (by decide +kernel))))
      simp only [List.mem_singleton] at hp
      subst hp
      decide
    · have h : layout farVolume = some ⟨76, 2, 76, 104, 104⟩ := by decide +kernel
      rw [h] at hL
      cases hL
      obtain ⟨rfl, -⟩ := cut_unique hc (ExtraData.cut_stops (tail := []) (.inr (by simp)))
      simp at hp

/-- The strings that a network location announces are missing. -/
example (env : Env) (allow all : Bool) (f : LnkFile) (hf : (LnkFile.init env none allow (.indata nameless)).res = .ok f) :
    (f.getJson all).res = .error .runtimeError := by
  obtain ⟨L, l, last, hL, -, h⟩ := report_outcome env none (usable_default env) allow _ f hf
  have : layout nameless = some ⟨76, 1, 83, 83, 83⟩ := by decide +kernel
  simp only [Source.bytes] at hL h
  rw [this] at hL
  cases hL
  exact (h all _).2 (.target ⟨by decide, by decide⟩ (by decide +kernel))

/-- A Darwin block without a descriptor. -/
example (env : Env) (allow all : Bool) (f : LnkFile) (hf : (LnkFile.init env none allow (.indata bareDarwin)).res = .ok f) :
    (f.getJson all).res = .error .indexError := by
  obtain ⟨L, l, last, hL, hc, h⟩ := report_outcome env none (usable_default env) allow _ f hf
  have : layout bareDarwin = some ⟨76, 0, 76, 76, 76⟩ := by decide +kernel
  simp only [Source.bytes] at hL hc h
  rw [this] at hL
  cases hL
  obtain ⟨rfl, -⟩ := cut_unique hc (Cut.block (b := bareDarwin.drop 76) (n := 8) (l := []) (last := []) (by decide +kernel)
    (by decide) (.stop (.inl (by decide +kernel))))
  refine (h all _).2 (.block (pre := []) (post := []) ⟨by decide, by decide⟩ (by decide +kernel) (fun h => absurd h (by decide)) rfl (by simp) ?_)
  exact .darwin (by decide +kernel) ⟨[], ⟨[], by simp, .inl ⟨[], by simp, by decide +kernel, .nil⟩⟩, .inl (by simp)⟩

/-- A volume id behind the end of the file. -/
example (env : Env) (allow all : Bool) (f : LnkFile) (hf : (LnkFile.init env none allow (.indata farVolume)).res = .ok f) :
    (f.getJson all).res = .error .structError := by
  obtain ⟨L, l, last, hL, -, h⟩ := report_outcome env none (usable_default env) allow _ f hf
  have : layout farVolume = some ⟨76, 2, 76, 104, 104⟩ := by decide +kernel
  simp only [Source.bytes] at hL h
  rw [this] at hL
  cases hL
  refine (h all _).2 (.info ⟨by decide, by decide⟩ (by decide +kernel) fun hi => ?_)
  have := (hi (by decide) "Local" (by decide +kernel)).2.2
  rw [if_pos rfl] at this
  have := (this 28 (by decide +kernel)).1
  revert this
  decide +kernel

/-- The order of the faults: with a header of 24 bytes nothing else matters. -/
example (env : Env) (allow all : Bool) (f : LnkFile) (src : Source)
    (hf : (LnkFile.init env none allow src).res = .ok f) (hs : src.bytes.length < 76) : (f.getJson all).res = .error .structError := by
  obtain ⟨L, l, last, -, -, h⟩ := report_outcome env none (usable_default env) allow _ f hf
  exact (h all _).2 (.header fun hh => by have := hh.2; omega)

end Verif.Props
