import Verif.Spec.ReportTold
import Verif.Props.HeaderTold

/-
C110: when two files have the same report.
-/

namespace Verif.Props

open Spec Py Verif.Values

namespace ReportTold

open InfoTold BlockTold StoreTold ItemsTold Values

/-! ### strings -/

theorem strings_map (tp : TextProc) (flags : Nat) (b : Bytes) (fs : List (String × Nat × Nat)) (pos : Nat) :
    stringEntries tp flags b fs pos = (foundStrings flags b fs pos).map fun x => (x.1, Either tp (flags.testBit 7) x.2) := by
  induction fs generalizing pos with
  | nil => rfl
  | cons f fs ih =>
    obtain ⟨key, bit, limit⟩ := f
    unfold stringEntries foundStrings
    split
    · rcases uAt 2 b pos with _ | n
      · rfl
      · simp only [List.map_cons, ih]
    · exact ih pos

theorem map_told {α : Type} {P P' : α → PyVal → Prop} (h : ∀ x, Sole (P x)) (h' : ∀ x, Sole (P' x)) {xs xs' : List (String × α)} {d d' : Dict}
    (hd : Fits d (xs.map fun x => (x.1, P x.2))) (hd' : Fits d' (xs'.map fun x => (x.1, P' x.2))) :
    d = d' ↔ List.Forall₂ (fun x x' => x.1 = x'.1 ∧ SameSaid (P x.2) (P' x'.2)) xs xs' := by
  induction xs generalizing xs' d d' with
  | nil =>
    rcases d with _ | ⟨_, _⟩
    · rcases xs' with _ | ⟨x', xs'⟩
      · rcases d' with _ | ⟨_, _⟩
        · simp
        · exact hd'.elim
      · rcases d' with _ | ⟨_, _⟩
        · exact hd'.elim
        · simp
    · exact hd.elim
  | cons x xs ih =>
    rcases d with _ | ⟨⟨k, v⟩, d⟩
    · exact hd.elim
    rcases xs' with _ | ⟨x', xs'⟩
    · rcases d' with _ | ⟨_, _⟩
      · simp
      · exact hd'.elim
    rcases d' with _ | ⟨⟨k', v'⟩, d'⟩
    · exact hd'.elim
    obtain ⟨h1, h2, h3⟩ := hd
    obtain ⟨h1', h2', h3'⟩ := hd'
    dsimp only at h1 h1' h2 h2'
    have hp := pin_said (h x.2) (h' x'.2)
    rw [List.cons.injEq, Prod.mk.injEq, List.forall₂_cons, ih h3 h3', h1, h1']
    refine and_congr_left fun _ => and_congr_right fun _ => ⟨?_, fun s => hp.only s v v' h2 h2'⟩
    rintro rfl
    exact hp.same v h2 h2'

/-! ### blocks -/

theorem blockName_mem {s : Nat} (h : blockName s ≠ "UNKNOWN_BLOCK") : (s, blockName s) ∈ blockNames := by
  unfold blockName at h ⊢
  rcases hl : blockNames.lookup s with _ | x
  · rw [hl] at h
    exact absurd rfl h
  · obtain ⟨l₁, l₂, h1, -⟩ := List.lookup_eq_some_iff.1 hl
    rw [Option.getD_some, h1]
    simp

theorem blockName_inj {s s' : Nat} (h : blockName s ≠ "UNKNOWN_BLOCK") (e : blockName s' = blockName s) : s' = s := by
  have hn : (blockNames.map Prod.snd).Nodup := by decide +kernel
  have := List.inj_on_of_nodup_map hn (blockName_mem (e ▸ h)) (blockName_mem h) e
  exact (Prod.mk.inj this).1

theorem parts_of {s n : Nat} (h : blockName s ≠ "UNKNOWN_BLOCK") (h9 : s ≠ 0xA0000009) (hC : s ≠ 0xA000000C) : ∃ parts, seenParts s n = some parts := by
  have := blockName_mem h
  simp only [blockNames, List.mem_cons, Prod.mk.injEq, List.not_mem_nil, or_false] at this
  rcases this with ⟨rfl, -⟩ | ⟨rfl, -⟩ | ⟨rfl, -⟩ | ⟨rfl, -⟩ | ⟨rfl, -⟩ | ⟨rfl, -⟩ | ⟨rfl, -⟩ | ⟨rfl, -⟩ | ⟨rfl, -⟩ | ⟨rfl, -⟩ | ⟨rfl, -⟩
  all_goals first
    | exact absurd rfl h9
    | exact absurd rfl hC
    | exact ⟨_, rfl⟩

theorem contents_told {tp : TextProc} {s : Nat} (hs : blockName s ≠ "UNKNOWN_BLOCK") {b b' : Bytes} {d d' : Dict} (h : blockFields tp s b d)
    (h' : blockFields tp s b' d') : d = d' ↔ EqualContents tp s b b' := by
  unfold EqualContents
  by_cases h9 : s = 0xA0000009
  · subst h9
    rw [if_pos rfl]
    unfold blockFields at h h'
    simp only [Nat.reduceEqDiff, or_self, if_false, if_true] at h h'
    refine ((Pins.cons (S := EqualStore b b') ⟨?_, ?_⟩ .nil).told h h').trans (by simp only [and_true])
    · rintro v ⟨vs, k, rfl, q, hv⟩ ⟨vs', k', e, q', hv'⟩
      cases e
      exact ⟨k, k', q, q', fitsEach_same StoreTold.storage_same hv hv'⟩
    · rintro ⟨k, k', q, q', hk⟩ v v' ⟨vs, m, rfl, w, hv⟩ ⟨vs', m', rfl, w', hv'⟩
      rw [records_unique w q] at hv
      rw [records_unique w' q'] at hv'
      refine congrArg PyVal.list (fitsEach_only ?_ hk hv hv')
      intro d d' b b' r h1 h2
      exact StoreTold.storage_only r h1 h2
  rw [if_neg h9]
  by_cases hC : s = 0xA000000C
  · subst hC
    rw [if_pos rfl]
    unfold blockFields at h h'
    simp only [Nat.reduceEqDiff, or_self, if_false, if_true] at h h'
    refine ((Pins.cons (S := EqualItems tp (b.drop 8) (b'.drop 8)) ⟨?_, ?_⟩ .nil).told h h').trans (by simp only [and_true])
    · rintro v ⟨k, rfl, hk⟩ ⟨m, e, hm⟩
      cases e
      exact (list_told hk hm).1 rfl
    · rintro hi v v' ⟨k, rfl, hk⟩ ⟨m, rfl, hm⟩
      rw [(list_told hk hm).2 hi]
  rw [if_neg hC]
  obtain ⟨parts, hp⟩ := parts_of (n := max b.length b'.length) hs h9 hC
  constructor
  · rintro rfl ps hps
    exact BlockTold.fields_told h h' hps
  · intro hx
    rw [← fields_eq hp (hx parts hp)] at h'
    exact block_unique h h'

theorem digest_of {tp : TextProc} {s : Nat} (hs : blockName s = "UNKNOWN_BLOCK") {b : Bytes} {d : Dict} (h : blockFields tp s b d) :
    Fits d [("extra_data_sha256", fun v => v = .str (tp.env.sha256hex (b.drop 4)))] := by
  have ne : ∀ n, blockName n ≠ "UNKNOWN_BLOCK" → s ≠ n := by
    rintro n h rfl
    exact h hs
  unfold blockFields at h
  have n1 := ne 0xA0000001 (by decide +kernel)
  have n2 := ne 0xA0000002 (by decide +kernel)
  have n3 := ne 0xA0000003 (by decide +kernel)
  have n4 := ne 0xA0000004 (by decide +kernel)
  have n5 := ne 0xA0000005 (by decide +kernel)
  have n6 := ne 0xA0000006 (by decide +kernel)
  have n7 := ne 0xA0000007 (by decide +kernel)
  have n8 := ne 0xA0000008 (by decide +kernel)
  have n9 := ne 0xA0000009 (by decide +kernel)
  have nB := ne 0xA000000B (by decide +kernel)
  have nC := ne 0xA000000C (by decide +kernel)
  rwa [if_neg (fun h => h.elim n1 n7), if_neg n2, if_neg n3, if_neg n4, if_neg n5, if_neg n6, if_neg n8, if_neg n9, if_neg nB, if_neg nC] at h

theorem unknown_told {tp : TextProc} {l l' : List Piece} (hl : ∀ p ∈ l, p.signature.map blockName = some "UNKNOWN_BLOCK")
    (hl' : ∀ p ∈ l', p.signature.map blockName = some "UNKNOWN_BLOCK") {vs vs' : List PyVal} (h : UnknownReports tp vs l)
    (h' : UnknownReports tp vs' l') :
    vs = vs' ↔ List.Forall₂ (fun p p' => p.declared = p'.declared ∧ tp.env.sha256hex (p.bytes.drop 4) = tp.env.sha256hex (p'.bytes.drop 4)) l l' := by
  induction l generalizing l' vs vs' with
  | nil =>
    rcases vs with _ | ⟨_, _⟩
    · rcases l' with _ | ⟨_, _⟩ <;> rcases vs' with _ | ⟨_, _⟩
      · simp
      · exact h'.elim
      · exact h'.elim
      · simp
    · exact h.elim
  | cons p l ih =>
    rcases vs with _ | ⟨v, vs⟩
    · exact h.elim
    rcases l' with _ | ⟨p', l'⟩
    · rcases vs' with _ | ⟨_, _⟩
      · simp
      · exact h'.elim
    rcases vs' with _ | ⟨v', vs'⟩
    · exact h'.elim
    obtain ⟨⟨s, d, hs, rfl, r, rfl, hr⟩, h2⟩ := h
    obtain ⟨⟨s', d', hs', rfl, r', rfl, hr'⟩, h2'⟩ := h'
    have u : blockName s = "UNKNOWN_BLOCK" := by simpa [hs] using hl p (by simp)
    have u' : blockName s' = "UNKNOWN_BLOCK" := by simpa [hs'] using hl' p' (by simp)
    have e := ((Pins.cons (pin_eq _ _) .nil).told (digest_of u hr) (digest_of u' hr'))
    rw [List.cons.injEq, PyVal.dict.injEq, List.cons.injEq, Prod.mk.injEq, PyVal.int.injEq, Nat.cast_inj, e, List.forall₂_cons,
      ih (fun q hq => hl q (by simp [hq])) (fun q hq => hl' q (by simp [hq])) h2 h2']
    simp only [true_and, and_true, PyVal.str.injEq]

/-! ### extra data -/

theorem get_of_mem {D : Dict} {k : String} (hk : k ∈ D.keys) : ∃ v, D.get? k = some v := by
  rcases hv : D.get? k with _ | v
  · exact absurd hk ((Dict.get?_none_iff _ _).1 hv)
  · exact ⟨v, rfl⟩

theorem firsts_terminal (l : List Piece) : "TERMINAL_BLOCK" ∉ firsts (readableNames l) := by
  intro ha
  obtain ⟨p, -, s, -, hk, -⟩ := mem_readableNames.1 (mem_firsts.1 ha)
  exact Blocks.blockName_ne_terminal s hk

/-- The names of a report, without the one of the rest. -/
theorem names_of {tp : TextProc} {allow : Bool} {l : List Piece} {last : Bytes} {E : Dict} (h : ExtraReport tp allow l last E) :
    firsts (readableNames l) = E.keys.filter (· ≠ "TERMINAL_BLOCK") := by
  rw [h.names, List.filter_append, List.filter_eq_self.2]
  · split <;> simp
  · intro a ha
    simp only [decide_eq_true_eq]
    rintro rfl
    exact firsts_terminal l ha

/-- What a report says about the rest. -/
theorem rest_of {tp : TextProc} {allow : Bool} {l : List Piece} {last : Bytes} {E : Dict} (h : ExtraReport tp allow l last E) :
    E.get? "TERMINAL_BLOCK" = (restSeen tp allow last).map fun x => .dict [("size", .int x.1), ("appended_data_sha256", .str x.2)] := by
  unfold restSeen
  by_cases c : allow = true ∧ 4 < last.length
  · rw [if_pos c]
    obtain ⟨v, hv⟩ := get_of_mem ((extra_mem_names h "TERMINAL_BLOCK").2 (.inr ⟨rfl, c.1, c.2⟩))
    obtain ⟨d, rfl, hd⟩ := h.terminal v hv
    rw [hv]
    simp only [Option.map_some, Option.some.injEq, PyVal.dict.injEq]
    exact fits_sole (soles_cons (sole_eq _) <| soles_cons (sole_eq _) soles_nil) hd ⟨rfl, rfl, rfl, rfl, trivial⟩
  · rw [if_neg c]
    refine (Dict.get?_none_iff _ _).2 fun hm => ?_
    rcases (extra_mem_names h "TERMINAL_BLOCK").1 hm with ⟨p, -, s, -, hk, -⟩ | ⟨-, h1, h2⟩
    · exact Blocks.blockName_ne_terminal s hk
    · exact c ⟨h1, h2⟩

/-- The blocks of unknown kinds of a report. -/
theorem unknown_of {tp : TextProc} {allow : Bool} {l : List Piece} {last : Bytes} {E : Dict} (h : ExtraReport tp allow l last E) :
    ∃ vs, UnknownReports tp vs (l.filter fun p => p.signature.map blockName == some "UNKNOWN_BLOCK") ∧
      E.get? "UNKNOWN_BLOCK" = if vs = [] then none else some (.list vs) := by
  rcases hv : E.get? "UNKNOWN_BLOCK" with _ | v
  · have hn := (Dict.get?_none_iff _ _).1 hv
    refine ⟨[], ?_, by simp⟩
    rw [List.filter_eq_nil_iff.2]
    · trivial
    · intro p hp hs
      rw [beq_iff_eq, Option.map_eq_some_iff] at hs
      obtain ⟨s, hs, hk⟩ := hs
      exact hn ((extra_mem_names h _).2 (.inl ⟨p, hp, s, hs, hk, Blocks.readable_of_unknown hk _⟩))
  · obtain ⟨vs, rfl, hvs⟩ := h.unknown v hv
    refine ⟨vs, hvs, ?_⟩
    rw [if_neg]
    rintro rfl
    have hm : "UNKNOWN_BLOCK" ∈ E.keys := by
      by_contra hn
      rw [(Dict.get?_none_iff _ _).2 hn] at hv
      cases hv
    rcases (extra_mem_names h _).1 hm with ⟨p, hp, s, hs, hk, -⟩ | ⟨hk, -⟩
    · have : p ∈ l.filter fun p => p.signature.map blockName == some "UNKNOWN_BLOCK" := by
        rw [List.mem_filter]
        exact ⟨hp, by simp [hs, hk]⟩
      revert hvs
      cases hf : l.filter fun p => p.signature.map blockName == some "UNKNOWN_BLOCK"
      · rw [hf] at this
        cases this
      · exact id
    · revert hk
      decide

theorem extra_told {tp : TextProc} {allow allow' : Bool} {l l' : List Piece} {last last' : Bytes} {E E' : Dict}
    (h : ExtraReport tp allow l last E) (h' : ExtraReport tp allow' l' last' E') : E = E' ↔ EqualExtra tp allow allow' l l' last last' := by
  have named : ∀ {name p p' s}, name ≠ "UNKNOWN_BLOCK" → LastReadable name l p → LastReadable name l' p' → p.signature = some s →
      (E.get? name = E'.get? name ↔ p.declared = p'.declared ∧ EqualContents tp s p.bytes p'.bytes) := by
    rintro name p p' s hn ⟨pre, post, e1, e2, e3⟩ ⟨pre', post', e1', e2', e3'⟩ hs
    obtain ⟨s0, h0, hk, -⟩ := id e2
    obtain ⟨s1, h1, hk', -⟩ := id e2'
    rw [hs] at h0
    cases h0
    subst hk
    have := blockName_inj hn hk'
    subst this
    obtain ⟨d, hd, r, rfl, hr⟩ := h.named _ pre p post _ hn e1 e2 hs e3
    obtain ⟨d', hd', r', rfl, hr'⟩ := h'.named _ pre' p' post' _ hn e1' e2' h1 e3'
    rw [hd, hd']
    simp only [Option.some.injEq, PyVal.dict.injEq, List.cons.injEq, Prod.mk.injEq, true_and, PyVal.int.injEq, Nat.cast_inj]
    exact and_congr_right fun _ => contents_told hn hr hr'
  obtain ⟨vs, hvs, hu⟩ := unknown_of h
  obtain ⟨vs', hvs', hu'⟩ := unknown_of h'
  have all : ∀ (l : List Piece), ∀ p ∈ l.filter fun p => p.signature.map blockName == some "UNKNOWN_BLOCK",
      p.signature.map blockName = some "UNKNOWN_BLOCK" := fun l p hp => by simpa using (List.mem_filter.1 hp).2
  have ht := unknown_told (all l) (all l') hvs hvs'
  constructor
  · rintro rfl
    refine ⟨(names_of h).trans (names_of h').symm, fun name p p' s hn hp hp' hs => (named hn hp hp' hs).1 rfl, ht.1 ?_, ?_⟩
    · rw [hu] at hu'
      by_cases c : vs = [] <;> by_cases c' : vs' = [] <;> simp_all
    · have e := (rest_of h).symm.trans (rest_of h')
      refine Option.map_injective ?_ e
      rintro ⟨a, b⟩ ⟨a', b'⟩ e
      simpa using e
  · rintro ⟨e1, e2, e3, e4⟩
    have hrest : E.get? "TERMINAL_BLOCK" = E'.get? "TERMINAL_BLOCK" := by rw [rest_of h, rest_of h', e4]
    have hk : E.keys = E'.keys := by
      have hc : (allow = true ∧ 4 < last.length) ↔ (allow' = true ∧ 4 < last'.length) := by
        have := congrArg Option.isSome e4
        unfold restSeen at this
        by_cases c : allow = true ∧ 4 < last.length <;> by_cases c' : allow' = true ∧ 4 < last'.length
        all_goals simp only [c, c', if_true, if_false, Option.isSome_some, Option.isSome_none, reduceCtorEq, and_self] at this ⊢
      rw [h.names, h'.names, e1]
      simp only [hc]
    refine dict_ext hk ?_ fun k hm => ?_
    · rw [h.names]
      split
      · refine List.nodup_append.2 ⟨nodup_firsts _, by simp, fun a ha b hb => ?_⟩
        simp only [List.mem_singleton] at hb
        rintro rfl
        exact firsts_terminal l (hb ▸ ha)
      · rw [List.append_nil]
        exact nodup_firsts _
    · by_cases hku : k = "UNKNOWN_BLOCK"
      · subst hku
        rw [hu, hu', ht.2 e3]
      by_cases hkt : k = "TERMINAL_BLOCK"
      · subst hkt
        exact hrest
      rcases (extra_mem_names h k).1 hm with hr | ⟨e, -⟩
      · rcases (extra_mem_names h' k).1 (hk ▸ hm) with hr' | ⟨e, -⟩
        · obtain ⟨pre, p, post, hl, hp, hpost⟩ := last_with (ReportedAs k) hr
          obtain ⟨pre', p', post', hl', hp', hpost'⟩ := last_with (ReportedAs k) hr'
          obtain ⟨s, hs, -, -⟩ := id hp
          have a : LastReadable k l p := ⟨pre, post, hl, hp, hpost⟩
          have b : LastReadable k l' p' := ⟨pre', post', hl', hp', hpost'⟩
          exact (named hku a b hs).2 (e2 k p p' s hku a b hs)
        · exact absurd e hkt
      · exact absurd e hkt

theorem entry_names (tp : TextProc) (b : Bytes) (L : Layout) (allow : Bool) (l : List Piece) (last : Bytes) :
    (reportEntries tp b L allow l last).map Prod.fst =
      ["size", "header"] ++ (if L.flags.testBit 0 then ["target"] else []) ++ ["link_info", "data", "extra"] := by
  unfold reportEntries
  cases L.flags.testBit 0 <;> rfl

end ReportTold

open ReportTold Ends Values in
/-- C110: two files have the same report exactly if all that is looked at in them is the same: the bytes read, the header, the items, the
link info, the strings and the extra data. -/
theorem reports_same (env : Env) (cp : Option String) (hcp : UsableCodePage (TextProc.mk' env cp)) (allow allow' : Bool) (src src' : Source)
    (f f' : LnkFile) (hf : (LnkFile.init env cp allow src).res = .ok f) (hf' : (LnkFile.init env cp allow' src').res = .ok f') (j j' : Dict)
    (hj : (f.getJson true).res = .ok j) (hj' : (f'.getJson true).res = .ok j') :
    ∃ L l last L' l' last', layout src.bytes = some L ∧ Cut (src.bytes.drop L.extraAt) l last ∧
      layout src'.bytes = some L' ∧ Cut (src'.bytes.drop L'.extraAt) l' last' ∧
      (j = j' ↔ EqualFile (TextProc.mk' env cp) allow allow' src.bytes src'.bytes L L' l l' last last') := by
  obtain ⟨L, l, last, hL, hc, hv⟩ := report_values env cp hcp allow src f hf
  obtain ⟨L', l', last', hL', hc', hv'⟩ := report_values env cp hcp allow' src' f' hf'
  refine ⟨L, l, last, L', l', last', hL, hc, hL', hc', ?_⟩
  have fit := hv j hj
  have fit' := hv' j' hj'
  have header := header_told env cp hcp allow allow' src src' f f' hf hf' j j' hj hj'
  obtain ⟨M, M', hM, hM', info⟩ := info_told env cp hcp allow allow' src src' f f' hf hf' j j' hj hj'
  rw [hL] at hM
  rw [hL'] at hM'
  cases hM
  cases hM'
  obtain ⟨M, _, _, M', _, _, _, _, hM, -, hM', -, -, -, target, -⟩ := items_told env cp hcp allow allow' src src' f f' hf hf' j j' hj hj'
  rw [hL] at hM
  rw [hL'] at hM'
  cases hM
  cases hM'
  have size : Dict.get? j "size" = Dict.get? j' "size" ↔ sizeRead src.bytes L allow l last = sizeRead src'.bytes L' allow' l' last' := by
    obtain ⟨v, h1, rfl⟩ := value_at (k := "size") (P := fun v => v = PyVal.int (sizeRead src.bytes L allow l last)) fit (by
      unfold reportEntries
      simp)
    obtain ⟨v', h1', rfl⟩ := value_at (k := "size") (P := fun v => v = PyVal.int (sizeRead src'.bytes L' allow' l' last')) fit' (by
      unfold reportEntries
      simp)
    rw [h1, h1']
    simp only [Option.some.injEq, PyVal.int.injEq, Nat.cast_inj]
  have data : Dict.get? j "data" = Dict.get? j' "data" ↔ EqualStrings (TextProc.mk' env cp) src.bytes src'.bytes L L' := by
    obtain ⟨v, h1, d, rfl, hd⟩ := value_at (k := "data") (P := fun v => ∃ d, v = .dict d ∧
      Fits d (stringEntries (TextProc.mk' env cp) L.flags src.bytes stringKeys L.stringsAt)) fit (by
        unfold reportEntries
        cases L.flags.testBit 0 <;> simp)
    obtain ⟨v', h1', d', rfl, hd'⟩ := value_at (k := "data") (P := fun v => ∃ d, v = .dict d ∧
      Fits d (stringEntries (TextProc.mk' env cp) L'.flags src'.bytes stringKeys L'.stringsAt)) fit' (by
        unfold reportEntries
        cases L'.flags.testBit 0 <;> simp)
    rw [h1, h1']
    simp only [Option.some.injEq, PyVal.dict.injEq]
    rw [strings_map] at hd hd'
    exact map_told (P := Either (TextProc.mk' env cp) (L.flags.testBit 7)) (P' := Either (TextProc.mk' env cp) (L'.flags.testBit 7))
      (fun _ => sole_either _ _ _) (fun _ => sole_either _ _ _) hd hd'
  have extra : Dict.get? j "extra" = Dict.get? j' "extra" ↔ EqualExtra (TextProc.mk' env cp) allow allow' l l' last last' := by
    obtain ⟨v, h1, E, rfl, h2⟩ := value_at (k := "extra") (P := fun v => ∃ d, v = .dict d ∧ ExtraReport (TextProc.mk' env cp) allow l last d) fit (by
        unfold reportEntries
        cases L.flags.testBit 0 <;> simp)
    obtain ⟨v', h1', E', rfl, h2'⟩ := value_at (k := "extra") (P := fun v => ∃ d, v = .dict d ∧ ExtraReport (TextProc.mk' env cp) allow' l' last' d)
      fit' (by
        unfold reportEntries
        cases L'.flags.testBit 0 <;> simp)
    rw [h1, h1']
    simp only [Option.some.injEq, PyVal.dict.injEq]
    exact extra_told h2 h2'
  constructor
  · rintro rfl
    exact ⟨size.1 rfl, header.1 rfl, target.1 rfl, info.1 rfl, data.1 rfl, extra.1 rfl⟩
  · rintro ⟨e1, e2, e3, e4, e5, e6⟩
    have k := fits_keys fit
    have k' := fits_keys fit'
    rw [entry_names] at k k'
    refine dict_ext (by rw [k, k', e3.1]) ?_ fun x hx => ?_
    · rw [k]
      cases L.flags.testBit 0 <;> decide
    · have : x ∈ ["size", "header", "target", "link_info", "data", "extra"] := by
        have sub : ∀ c : Bool, (["size", "header"] ++ (if c then ["target"] else []) ++ ["link_info", "data", "extra"]) ⊆
          ["size", "header", "target", "link_info", "data", "extra"] := by decide
        exact sub _ (k ▸ hx)
      simp only [List.mem_cons, List.not_mem_nil, or_false] at this
      rcases this with rfl | rfl | rfl | rfl | rfl | rfl
      · exact size.2 e1
      · exact header.2 e2
      · exact target.2 e3
      · exact info.2 e4
      · exact data.2 e5
      · exact extra.2 e6

/-- A header with nothing announced, the end of the extra data and one more byte. -/
def endedFile (command : Nat) (x : UInt8) : Bytes := headerOf command 0 ++ le 4 0 ++ [x]

example : layout (endedFile 5 1) = some ⟨76, 0, 76, 76, 76⟩ ∧ layout (endedFile 1000 2) = some ⟨76, 0, 76, 76, 76⟩ := by decide +kernel

example : Cut ((endedFile 5 1).drop 76) [] [0, 0, 0, 0, 1] ∧ Cut ((endedFile 1000 2).drop 76) [] [0, 0, 0, 0, 2] := by
  have e : (endedFile 5 1).drop 76 = [0, 0, 0, 0, 1] ∧ (endedFile 1000 2).drop 76 = [0, 0, 0, 0, 2] := by decide +kernel
  rw [e.1, e.2]
  exact ⟨.stop (.inr (by decide +kernel)), .stop (.inr (by decide +kernel))⟩

/-- Two such files, with show commands 5 and 1000 and different bytes at the end: alike, unless terminal blocks are allowed, -/
example (tp : TextProc) : EqualFile tp false false (endedFile 5 1) (endedFile 1000 2) ⟨76, 0, 76, 76, 76⟩ ⟨76, 0, 76, 76, 76⟩ [] []
    [0, 0, 0, 0, 1] [0, 0, 0, 0, 2] := by
  have bytes : ∀ a c, c ≤ 60 ∨ 64 ≤ a → c ≤ 76 → SameBytes (endedFile 5 1) (endedFile 1000 2) a c := by
    intro a c h hc k h1 h2
    have : ∀ k < 76, k < 60 ∨ 64 ≤ k → (endedFile 5 1)[k]? = (endedFile 1000 2)[k]? := by decide +kernel
    exact this k (by omega) (by omega)
  have time : ∀ off ∈ [28, 36, 44], EqualTime (endedFile 5 1) (endedFile 1000 2) off := by
    intro off h
    have e : ∀ off ∈ [28, 36, 44], sAt 8 (endedFile 5 1) off = some 0 ∧ sAt 8 (endedFile 1000 2) off = some 0 := by decide +kernel
    exact ⟨0, 0, (e off h).1, (e off h).2, .inl ⟨.inl rfl, .inl rfl⟩⟩
  have e : sAt 4 (endedFile 5 1) 60 = some 5 := by decide +kernel
  have e' : sAt 4 (endedFile 1000 2) 60 = some 1000 := by decide +kernel
  refine ⟨by decide +kernel, ⟨bytes _ _ (.inl (by omega)) (by omega), time _ (by simp), time _ (by simp), time _ (by simp),
    bytes _ _ (.inl (by omega)) (by omega), ?_, bytes _ _ (.inr (by omega)) (by omega)⟩, ⟨rfl, nofun⟩, ⟨rfl, nofun⟩, ?_, ⟨rfl, ?_, .nil, rfl⟩⟩
  · rw [e, e']
    rintro i (rfl | rfl) <;> simp
  · unfold EqualStrings
    have f : foundStrings 0 (endedFile 5 1) stringKeys 76 = [] ∧ foundStrings 0 (endedFile 1000 2) stringKeys 76 = [] := by decide +kernel
    rw [f.1, f.2]
    exact .nil
  · rintro name p p' s - ⟨pre, post, h, -⟩
    simp at h

/-- and, if they are, alike only if the bytes have the same digest. -/
example (tp : TextProc) (h : tp.env.sha256hex [1] ≠ tp.env.sha256hex [2]) : ¬ EqualFile tp true true (endedFile 5 1) (endedFile 1000 2)
    ⟨76, 0, 76, 76, 76⟩ ⟨76, 0, 76, 76, 76⟩ [] [] [0, 0, 0, 0, 1] [0, 0, 0, 0, 2] := by
  intro e
  have := e.extra.rest
  unfold restSeen at this
  simp at this
  exact h this

end Verif.Props
