import Verif.Lemmas.Fault
import Verif.Props.Extra

/-
What the extra data raises.
-/

namespace Verif

open Spec Py

/-! ### wide text -/

theorem wideText_iff (b : Bytes) (s : Str) : (TextProc.readUnicodeString b).res = .ok s ↔ WideText b s := by
  have ok : ∀ (us : List UInt16), 0 ∉ us → ∀ tail : Bytes, tail.length < 2 → ∀ t, Utf16Lenient (units us ++ tail) t →
      (TextProc.readUnicodeString (units us ++ tail)).res = .ok t := by
    intro us h tail ht t hl
    rw [Props.wide_decode us h tail ht t hl]
    split <;> rfl
  have back : ∀ t, WideText b t → (TextProc.readUnicodeString b).res = .ok t := by
    rintro t ⟨us, h, ⟨tail, ht, rfl, hl⟩ | ⟨rest, rfl, hl⟩⟩
    · exact ok us h tail ht t hl
    · rw [Props.wide_stops_at_nul us rest h]
      have := ok us h [] (by simp) t (by rwa [List.append_nil])
      rwa [List.append_nil] at this
  refine ⟨fun h => ?_, back s⟩
  obtain ⟨us, h0, hc⟩ := Props.wide_nul_cases b
  have : ∃ t, WideText b t := by
    rcases hc with ⟨tail, ht, hb⟩ | ⟨rest, hb⟩
    · obtain ⟨t, hl⟩ := utf16Lenient_total b
      exact ⟨t, us, h0, .inl ⟨tail, ht, hb, hl⟩⟩
    · obtain ⟨t, hl⟩ := utf16Lenient_total (units us)
      exact ⟨t, us, h0, .inr ⟨rest, hb, hl⟩⟩
  obtain ⟨t, ht⟩ := this
  have := back t ht
  rw [h] at this
  cases this
  exact ht

/-! ### Darwin -/

theorem quadLoop_long (q : Str) (n : Nat) (d : Int) (h : n ≤ q.length) : ∃ v, (quadLoop q n d).res = .ok v := by
  induction n generalizing d with
  | zero => exact ⟨_, rfl⟩
  | succ n ih =>
    unfold quadLoop
    have : q[n]? = some q[n] := List.getElem?_eq_getElem (by omega)
    rw [this]
    exact ih _ (by omega)

theorem quadToHex_ok (q : Str) (h : 5 ≤ q.length) : ∃ s, (quadToHex q).res = .ok s := by
  obtain ⟨v, hv⟩ := quadLoop_long q 5 0 h
  exact ⟨_, bind_ok_iff.2 ⟨v, hv, rfl⟩⟩

theorem parsePackedUuid_long (t : Str) (h : 20 ≤ t.length) : ∃ u, (parsePackedUuid (some t)).res = .ok u := by
  obtain ⟨s1, h1⟩ := quadToHex_ok (slice t 0 5) (by simp; omega)
  obtain ⟨s2, h2⟩ := quadToHex_ok (slice t 5 10) (by simp; omega)
  obtain ⟨s3, h3⟩ := quadToHex_ok (slice t 10 15) (by simp; omega)
  obtain ⟨s4, h4⟩ := quadToHex_ok (slice t 15 20) (by simp; omega)
  exact ⟨_, bind_ok_iff.2 ⟨s1, h1, bind_ok_iff.2 ⟨s2, h2, bind_ok_iff.2 ⟨s3, h3, bind_ok_iff.2 ⟨s4, h4, rfl⟩⟩⟩⟩⟩

namespace Extra

/-- The descriptor is too short for the identifiers in it. -/
def ShortText (s : Str) : Prop := s.length < 20 ∨ ∃ pre post, s = pre ++ '>' :: post ∧ '>' ∉ pre ∧ post.length < 20

/-- The fields of a Darwin block. -/
theorem darwin_fields (x : Extra) (hcp : UsableCodePage x.tp) {s : Str} (hs : x.darwinDataUnicode.res = .ok s) :
    (ShortText s → x.darwinFields.res = .error .indexError) ∧ (¬ ShortText s → ∃ d, x.darwinFields.res = .ok d) := by
  obtain ⟨a, ha⟩ := (when_readString hcp (slice x.raw 8 (8 + 260))).ok trivial
  by_cases h20 : s.length < 20
  · refine ⟨fun _ => ?_, fun h => absurd (.inl h20) h⟩
    refine bind_error_iff.2 (.inr ⟨a, ha, bind_error_iff.2 (.inr ⟨s, hs, bind_error_iff.2 (.inl ?_)⟩)⟩)
    exact bind_error_iff.2 (.inr ⟨s, hs, Props.parsePackedUuid_short _ (by simp; omega)⟩)
  obtain ⟨p, hp⟩ := parsePackedUuid_long (slice s 0 20) (by simp; omega)
  have hpc : x.productCodeId.res = .ok p := bind_ok_iff.2 ⟨s, hs, hp⟩
  have hfn : ∃ f, x.featureName.res = .ok f := by
    by_cases ht : max (strFind s '>') (strFind s '<') = 20
    · exact ⟨none, bind_ok_iff.2 ⟨s, hs, by dsimp only; rw [if_pos ht]; rfl⟩⟩
    · exact ⟨some (sliceTo s 20 (max (strFind s '>') (strFind s '<'))), bind_ok_iff.2 ⟨s, hs, by dsimp only; rw [if_neg ht]; rfl⟩⟩
  obtain ⟨f, hf⟩ := hfn
  have fin : ∀ c, x.componentId.res = .ok c → ∃ d, x.darwinFields.res = .ok d := fun c hc =>
    ⟨_, bind_ok_iff.2 ⟨a, ha, bind_ok_iff.2 ⟨s, hs, bind_ok_iff.2 ⟨p, hpc, bind_ok_iff.2 ⟨f, hf, bind_ok_iff.2 ⟨c, hc, rfl⟩⟩⟩⟩⟩⟩
  by_cases hm : '>' ∈ s
  · obtain ⟨pre, post, rfl, hpre⟩ := List.eq_append_cons_of_mem hm
    have hfind : strFind (pre ++ '>' :: post) '>' = pre.length := strFind_append hpre
    have hdrop : (pre ++ '>' :: post).drop ((pre.length : Int) + 1).toNat = post := by
      have : ((pre.length : Int) + 1).toNat = pre.length + 1 := by omega
      rw [this]
      simp
    by_cases hpost : post.length < 20
    · refine ⟨fun _ => ?_, fun h => absurd (.inr ⟨pre, post, rfl, hpre, hpost⟩) h⟩
      refine bind_error_iff.2 (.inr ⟨a, ha, bind_error_iff.2 (.inr ⟨_, hs, bind_error_iff.2 (.inr ⟨p, hpc,
        bind_error_iff.2 (.inr ⟨f, hf, bind_error_iff.2 (.inl ?_)⟩)⟩)⟩)⟩)
      refine bind_error_iff.2 (.inr ⟨_, hs, ?_⟩)
      dsimp only
      rw [hfind, if_neg (by omega), hdrop]
      exact Props.parsePackedUuid_short _ hpost
    · have hshort : ¬ ShortText (pre ++ '>' :: post) := by
        rintro (h | ⟨pre', post', he, hpre', hl⟩)
        · exact h20 h
        · have h1 := strFind_append (b := post') hpre'
          rw [← he, hfind] at h1
          have h2 : pre.length = pre'.length := by omega
          have := (List.append_inj he h2).2
          simp only [List.cons.injEq, true_and] at this
          subst this
          exact hpost hl
      refine ⟨fun h => absurd h hshort, fun _ => ?_⟩
      obtain ⟨c, hc⟩ := parsePackedUuid_long post (by omega)
      refine fin c (bind_ok_iff.2 ⟨_, hs, ?_⟩)
      dsimp only
      rw [hfind, if_neg (by omega), hdrop]
      exact hc
  · have hshort : ¬ ShortText s := by
      rintro (h | ⟨pre', post', rfl, hpre', hl⟩)
      · exact h20 h
      · simp at hm
    refine ⟨fun h => absurd h hshort, fun _ => ?_⟩
    refine fin none (bind_ok_iff.2 ⟨s, hs, ?_⟩)
    dsimp only
    rw [strFind_none hm, if_pos rfl]
    rfl

theorem extraKind_darwin {s : Nat} : extraKind s = .darwin ↔ s = 0xA0000006 := by
  refine ⟨fun h => ?_, fun h => by subst h; rfl⟩
  unfold extraKind extraKinds at h
  simp only [List.lookup] at h
  repeat' split at h
  all_goals simp_all

theorem extraKind_shellItem {s : Nat} : extraKind s = .shellItem ↔ s = 0xA000000C := by
  refine ⟨fun h => ?_, fun h => by subst h; rfl⟩
  unfold extraKind extraKinds at h
  simp only [List.lookup] at h
  repeat' split at h
  all_goals simp_all

/-- What is raised for a block and not caught. -/
theorem escapes_iff {tp : TextProc} (hcp : UsableCodePage tp) (p : Piece) {s : Nat} (hsig : p.signature = some s)
    (hu : uAt 4 p.bytes 0 = some p.declared) (hl : p.bytes.length ≤ p.declared) (e : PyErr) :
    ((Extra.asDict ⟨extraKind s, tp, p.bytes⟩).res = .error e ∧ ExtraData.caught e = false) ↔ BlockFault p e := by
  have hsz : Extra.size ⟨extraKind s, tp, p.bytes⟩ = pure p.declared := by
    rw [ExtraData.size_eq _ (extraKind_ne_terminal s), hu]
  have hred : (Extra.asDict ⟨extraKind s, tp, p.bytes⟩).res = .error e ↔ (Extra.fields ⟨extraKind s, tp, p.bytes⟩).res = .error e := by
    unfold asDict
    rw [hsz, pure_bind, bind_error_iff]
    constructor
    · rintro (h | ⟨d, -, h⟩)
      · exact h
      · cases h
    · exact .inl
  rw [hred]
  have hno : ∀ e, BlockFault p e → s = 0xA0000006 ∨ s = 0xA000000C := by
    rintro e (⟨h, -⟩ | ⟨h, -⟩) <;> rw [hsig] at h <;> cases h <;> simp
  by_cases hd : s = 0xA0000006
  · have hk : extraKind s = .darwin := extraKind_darwin.2 hd
    rw [hk]
    obtain ⟨t, ht⟩ := (when_readUnicodeString (slice p.bytes 268 (268 + 520))).ok trivial
    have hw := (wideText_iff _ _).1 ht
    have hf := darwin_fields ⟨.darwin, tp, p.bytes⟩ hcp ht
    have hshort : ShortDescriptor p.bytes ↔ ShortText t := by
      have hsl : slice p.bytes 268 (268 + 520) = (p.bytes.drop 268).take 520 := by simp [slice]
      rw [hsl] at hw ht
      refine ⟨fun ⟨t', h1, h2⟩ => ?_, fun h => ⟨t, hw, h⟩⟩
      have := (wideText_iff _ _).2 h1
      rw [ht] at this
      cases this
      exact h2
    constructor
    · rintro ⟨h, -⟩
      have : ShortText t := by
        by_contra hc
        obtain ⟨d, hd⟩ := hf.2 hc
        have : (Extra.fields ⟨.darwin, tp, p.bytes⟩).res = .ok d := hd
        rw [this] at h
        cases h
      have h' : (Extra.fields ⟨.darwin, tp, p.bytes⟩).res = .error .indexError := hf.1 this
      rw [h'] at h
      cases h
      exact .darwin (by rw [hsig, hd]) (hshort.2 this)
    · rintro (⟨-, h⟩ | ⟨h, -⟩)
      · exact ⟨hf.1 (hshort.1 h), by simp [ExtraData.caught, PyErr.isValueError]⟩
      · rw [hsig, hd] at h
        simp at h
  by_cases hi : s = 0xA000000C
  · have hk : extraKind s = .shellItem := extraKind_shellItem.2 hi
    rw [hk]
    have hit : Extra.shellItemIter ⟨.shellItem, tp, p.bytes⟩ = LnkTargets.idLists tp (p.bytes.drop 8) := by
      rw [shellItemIter_eq (n := p.declared)]
      · congr 1
        simp only [slice]
        rw [List.take_of_length_le]
        simp
        omega
      · exact Target.leNat_slice (n := 4) (off := 0) (by omega) hu
    have hf := LnkTargets.fails_idLists hcp (p.bytes.drop 8)
    have hff : ∀ e, (Extra.fields ⟨.shellItem, tp, p.bytes⟩).res = .error e ↔ listFault (p.bytes.drop 8) = some e := by
      intro e
      show (Extra.shellItemFields ⟨.shellItem, tp, p.bytes⟩).res = .error e ↔ _
      unfold shellItemFields
      rw [hit, bind_error_iff]
      rcases hlf : listFault (p.bytes.drop 8) with _ | e'
      · rw [hlf] at hf
        obtain ⟨d, hd⟩ := hf
        simp [hd]
      · rw [hlf] at hf
        have hf' : (LnkTargets.asListLoop (LnkTargets.idLists tp (p.bytes.drop 8))).res = .error e' := hf
        simp [hf']
    rw [hff]
    constructor
    · rintro ⟨h, hc⟩
      have : e = .runtimeError := by
        have h1 := (LnkTargets.only_idLists_loop (P := fun e => e = .structError ∨ e = .runtimeError) (tp := tp) (p.bytes.drop 8) (.inl rfl) (.inr rfl)
          (fun b => only_ansiToStr hcp b)).out e (by
            rw [h] at hf
            exact hf)
        rcases h1 with rfl | rfl
        · simp [ExtraData.caught] at hc
        · rfl
      subst this
      exact .shellItems (by rw [hsig, hi]) h
    · rintro (⟨h, -⟩ | ⟨-, h⟩)
      · rw [hsig, hi] at h
        simp at h
      · exact ⟨h, by simp [ExtraData.caught, PyErr.isValueError]⟩
  · refine ⟨fun ⟨h, hc⟩ => ?_, fun h => by rcases hno e h with h | h <;> contradiction⟩
    exfalso
    have h1 := (only_fields (P := fun e => ExtraData.caught e = true) ⟨extraKind s, tp, p.bytes⟩ (by simp [ExtraData.caught]) (by
      intro e' he'
      have k1 : extraKind s ≠ .darwin := fun h => hd (extraKind_darwin.1 h)
      have k2 : extraKind s ≠ .shellItem := fun h => hi (extraKind_shellItem.1 h)
      unfold extraErr at he'
      simp only at he'
      split at he'
      · exact absurd ‹_› k1
      · subst he'; simp [ExtraData.caught, PyErr.isValueError]
      · exact absurd ‹_› k2
      · cases he') (fun b => (only_ansiToStr hcp b))).out e h
    rw [h1] at hc
    cases hc

end Extra

namespace ExtraData

theorem first_or_none {α : Type} (P : α → Prop) (l : List α) :
    (∀ p ∈ l, ¬ P p) ∨ ∃ pre p post, l = pre ++ p :: post ∧ (∀ q ∈ pre, ¬ P q) ∧ P p := by
  induction l with
  | nil => exact .inl (by simp)
  | cons x l ih =>
    by_cases hx : P x
    · exact .inr ⟨[], x, l, rfl, by simp, hx⟩
    · rcases ih with h | ⟨pre, p, post, rfl, h1, h2⟩
      · exact .inl (by simpa [hx] using h)
      · exact .inr ⟨x :: pre, p, post, rfl, by simpa [hx] using h1, h2⟩

theorem objects_append (tp : TextProc) (a b : List Piece) : objects tp (a ++ b) = objects tp a ++ objects tp b := by
  simp [objects]

/-- What the extra data of a file raises: the first fault. -/
theorem asDict_error_iff {tp : TextProc} (hcp : UsableCodePage tp) {b : Bytes} {l : List Piece} {last : Bytes} (hc : Cut b l last)
    (h4 : ∀ p ∈ signed l, 4 ≤ p.declared) (T : List Extra) (hT : ∀ x ∈ T, x.cls = .terminal) (e : PyErr) :
    (asDict ⟨objects tp l ++ T⟩).res = .error e ↔
      ∃ pre p post, l = pre ++ p :: post ∧ (∀ q ∈ pre, ∀ e, ¬ BlockFault q e) ∧ BlockFault p e := by
  have hpiece : ∀ p ∈ l, ∀ s, p.signature = some s → ∀ e,
      ((Extra.asDict ⟨extraKind s, tp, p.bytes⟩).res = .error e ∧ caught e = false) ↔ BlockFault p e := by
    intro p hp s hs e
    have hd := cut_declared hc p hp
    refine Extra.escapes_iff hcp p hs ?_ ?_ e
    · rw [hd.2.1, if_pos (h4 p (List.mem_filter.2 ⟨hp, by simp [hs]⟩))]
    · exact hd.2.2.1
  have hsig : ∀ p e, BlockFault p e → ∃ s, p.signature = some s := by
    rintro p e (⟨h, -⟩ | ⟨h, -⟩) <;> exact ⟨_, h⟩
  have hgood : ∀ l', (∀ p ∈ l', p ∈ l) → (∀ p ∈ l', ∀ e, ¬ BlockFault p e) →
      ∀ x ∈ objects tp l', ∀ e, x.asDict.res = .error e → caught e = true := by
    intro l' hsub hl' x hx e he
    simp only [objects, List.mem_filterMap, Option.map_eq_some_iff] at hx
    obtain ⟨p, hp, s, hs, rfl⟩ := hx
    by_contra hcaught
    exact hl' p hp e ((hpiece p (hsub p hp) s hs e).1 ⟨he, by simpa using hcaught⟩)
  have hfault : ∀ pre p post e, l = pre ++ p :: post → (∀ q ∈ pre, ∀ e, ¬ BlockFault q e) → BlockFault p e →
      (asDict ⟨objects tp l ++ T⟩).res = .error e := by
    intro pre p post e hl hpre hp
    obtain ⟨s, hs⟩ := hsig p e hp
    have hx := (hpiece p (by rw [hl]; simp) s hs e).2 hp
    have : objects tp l ++ T = objects tp pre ++ ⟨extraKind s, tp, p.bytes⟩ :: (objects tp post ++ T) := by
      rw [hl, objects_append]
      have : objects tp (p :: post) = ⟨extraKind s, tp, p.bytes⟩ :: objects tp post := by simp [objects, hs]
      rw [this]
      simp
    unfold asDict
    simp only [this]
    exact asDictLoop_error _ _ _ _ e (hgood pre (fun q hq => by rw [hl]; simp [hq]) hpre) hx.1 hx.2
  constructor
  · intro h
    rcases first_or_none (fun p => ∃ e, BlockFault p e) l with hn | ⟨pre, p, post, hl, hpre, e', hp⟩
    · exfalso
      obtain ⟨res', h1, -⟩ := asDictLoop_ok (objects tp l ++ T) [] (by
        intro x hx e he
        rcases List.mem_append.1 hx with hx | hx
        · exact hgood l (fun _ h => h) (fun p hp e he => hn p hp ⟨e, he⟩) x hx e he
        · obtain ⟨c, tp', raw⟩ := x
          have hT' : c = .terminal := hT _ hx
          subst hT'
          cases he) ⟨none, rfl⟩
      unfold asDict at h
      rw [h1] at h
      cases h
    · have hpre' : ∀ q ∈ pre, ∀ e, ¬ BlockFault q e := fun q hq e he => hpre q hq ⟨e, he⟩
      have := hfault pre p post e' hl hpre' hp
      rw [this] at h
      cases h
      exact ⟨pre, p, post, hl, hpre', hp⟩
  · rintro ⟨pre, p, post, hl, hpre, hp⟩
    exact hfault pre p post e hl hpre hp

end ExtraData

end Verif
