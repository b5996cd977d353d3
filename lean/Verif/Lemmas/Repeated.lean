import Verif.Lemmas.Order
import Verif.Lemmas.FaultExtra
import Verif.Lemmas.ReportedExtra
import Verif.Spec.Repeated

/-
Extra data with several blocks of one kind.
-/

namespace Verif

open Spec Py

namespace Repeated

variable {tp : TextProc}

theorem goods_append (c : ExtraClass) (xs ys : List Extra) : ExtraData.goods c (xs ++ ys) = ExtraData.goods c xs ++ ExtraData.goods c ys := by
  unfold ExtraData.goods
  rw [List.filterMap_append]

/-- The pieces of extra data whose blocks are all there. -/
theorem piece_good {t : Bytes} {l : List Piece} {last : Bytes} (h : WholeBlocks t l last) :
    ∀ p ∈ l, uAt 4 p.bytes 0 = some p.declared ∧ p.bytes.length ≤ p.declared := by
  intro p hp
  have hd := ExtraData.cut_declared h.cut p hp
  have := (h.whole p hp).1
  refine ⟨?_, hd.2.2.1⟩
  rw [hd.2.1, if_pos (by omega)]

theorem good_iff (hcp : UsableCodePage tp) {p : Piece} {s : Nat} (h : uAt 4 p.bytes 0 = some p.declared ∧ p.bytes.length ≤ p.declared) :
    (∃ d, ExtraData.good ⟨extraKind s, tp, p.bytes⟩ = some d) ↔ BlockReadable s p.bytes := by
  have := Extra.asDict_okIff hcp (s := s) h.1 h.2
  unfold OkIff at this
  rw [← this]
  unfold ExtraData.good
  rcases (Extra.asDict ⟨extraKind s, tp, p.bytes⟩).res with e | d <;> simp [Except.toOption]

theorem goods_none (hcp : UsableCodePage tp) {l : List Piece} (hl : ∀ p ∈ l, uAt 4 p.bytes 0 = some p.declared ∧ p.bytes.length ≤ p.declared)
    (c : ExtraClass) (h : ∀ q ∈ l, ¬ ReportedAs c.name q) : ExtraData.goods c (ExtraData.objects tp l) = [] := by
  unfold ExtraData.goods
  rw [List.filterMap_eq_nil_iff]
  intro x hx
  simp only [ExtraData.objects, List.mem_filterMap, Option.map_eq_some_iff] at hx
  obtain ⟨p, hp, s, hs, rfl⟩ := hx
  dsimp only
  split
  · rename_i hc
    rcases hg : ExtraData.good ⟨extraKind s, tp, p.bytes⟩ with _ | d
    · rfl
    · exact absurd ⟨s, hs, by rw [← extraKind_name, hc], (good_iff hcp (hl p hp)).1 ⟨d, hg⟩⟩ (h p hp)
  · rfl

theorem goods_last (hcp : UsableCodePage tp) {l : List Piece} (hl : ∀ p ∈ l, uAt 4 p.bytes 0 = some p.declared ∧ p.bytes.length ≤ p.declared)
    (c : ExtraClass) {p : Piece} (h : LastReadable c.name l p) :
    (ExtraData.goods c (ExtraData.objects tp l)).getLast? = ExtraData.good ⟨c, tp, p.bytes⟩ := by
  obtain ⟨pre, post, rfl, ⟨s, hs, hk, hr⟩, hpost⟩ := h
  rw [ExtraData.objects_append, goods_append]
  have e : ExtraData.objects tp (p :: post) = ⟨extraKind s, tp, p.bytes⟩ :: ExtraData.objects tp post := by simp [ExtraData.objects, hs]
  have hc : extraKind s = c := ExtraClass.name_inj (by rw [extraKind_name, hk])
  obtain ⟨d, hd⟩ := (good_iff hcp (hl p (by simp))).2 hr
  rw [e, ExtraData.goods_cons, goods_none hcp (fun q hq => hl q (by simp [hq])) c hpost, List.append_nil]
  dsimp only
  rw [if_pos hc, hd, ← hc, hd]
  simp

/-- The last good block of a kind, in both lists. -/
theorem same_last (hcp : UsableCodePage tp) {l l' : List Piece}
    (hl : ∀ p ∈ l, uAt 4 p.bytes 0 = some p.declared ∧ p.bytes.length ≤ p.declared)
    (hl' : ∀ p ∈ l', uAt 4 p.bytes 0 = some p.declared ∧ p.bytes.length ≤ p.declared) (h : SameLast l l') (c : ExtraClass) (hc : c ≠ .unknown) :
    (ExtraData.goods c (ExtraData.objects tp l)).getLast? = (ExtraData.goods c (ExtraData.objects tp l')).getLast? := by
  have hn : c.name ≠ "UNKNOWN_BLOCK" := ExtraData.name_ne hc
  by_cases hp : ∃ p, LastReadable c.name l p
  · obtain ⟨p, hp⟩ := hp
    rw [goods_last hcp hl c hp, goods_last hcp hl' c ((h.known _ hn p).1 hp)]
  · have none : ∀ m : List Piece, (¬ ∃ p, LastReadable c.name m p) → ∀ q ∈ m, ¬ ReportedAs c.name q := by
      intro m
      induction m with
      | nil => intro _ q hq; cases hq
      | cons a m ih =>
        intro hm
        have hm' : ¬ ∃ p, LastReadable c.name m p := by
          rintro ⟨p, pre, post, rfl, h1, h2⟩
          exact hm ⟨p, a :: pre, post, rfl, h1, h2⟩
        intro q hq hr
        rcases List.mem_cons.1 hq with rfl | hq
        · exact hm ⟨q, [], m, rfl, hr, ih hm'⟩
        · exact ih hm' q hq hr
    rw [goods_none hcp hl c (none l hp), goods_none hcp hl' c (none l' fun ⟨p, h'⟩ => hp ⟨p, (h.known _ hn p).2 h'⟩)]

theorem same_unknown {l l' : List Piece} (h : ∀ p ∈ l, p.signature.isSome) (h' : ∀ p ∈ l', p.signature.isSome) (hs : SameLast l l') :
    (ExtraData.objects tp l).filter (fun x => decide (x.cls = .unknown)) = (ExtraData.objects tp l').filter fun x => decide (x.cls = .unknown) := by
  have e : ∀ m : List Piece, (∀ p ∈ m, p.signature.isSome) → (ExtraData.objects tp m).filter (fun x => decide (x.cls = .unknown)) =
      (m.filter fun p => decide (p.signature.map blockName = some "UNKNOWN_BLOCK")).map (Order.object tp) := by
    intro m hm
    rw [Order.objects_map tp hm, List.filter_map]
    congr 1
    refine List.filter_congr fun p hp => ?_
    obtain ⟨s, hs⟩ := Option.isSome_iff_exists.1 (hm p hp)
    simp only [Function.comp, Order.object, hs, Option.getD_some, Option.map_some, Option.some.injEq, ← extraKind_name, decide_eq_decide]
    exact OpenEnd.name_unknown (x := ⟨extraKind s, tp, []⟩).symm
  rw [e l h, e l' h', hs.unknown]

/-- What is said of blocks of which the same count. -/
theorem asDict_repeated (hcp : UsableCodePage tp) {t t' : Bytes} {l l' : List Piece} {last : Bytes} (h : WholeBlocks t l last)
    (h' : WholeBlocks t' l' last) (hf : ∀ p ∈ l, ∀ e, ¬ BlockFault p e) (hf' : ∀ p ∈ l', ∀ e, ¬ BlockFault p e) (hs : SameLast l l')
    (T : List Extra) (hT : ∀ x ∈ T, x.cls = .terminal) :
    ∃ a d, (ExtraData.asDict ⟨ExtraData.objects tp l ++ T⟩).res = .ok a ∧ (ExtraData.asDict ⟨ExtraData.objects tp l' ++ T⟩).res = .ok d ∧
      a.keys.Nodup ∧ d.keys.Nodup ∧ ∀ k, a.get? k = d.get? k := by
  have hn : ∀ (t : Bytes) (m : List Piece), WholeBlocks t m last → (∀ p ∈ m, ∀ e, ¬ BlockFault p e) →
      ∀ x ∈ ExtraData.objects tp m ++ T, ∀ e, x.asDict.res = .error e → ExtraData.caught e = true := by
    intro t m hm hfm x hx e he
    rcases List.mem_append.1 hx with hx | hx
    · simp only [ExtraData.objects, List.mem_filterMap, Option.map_eq_some_iff] at hx
      obtain ⟨p, hp, s, hs, rfl⟩ := hx
      by_contra hcaught
      obtain ⟨g1, g2⟩ := piece_good hm p hp
      exact hfm p hp e ((Extra.escapes_iff hcp p hs g1 g2 e).1 ⟨he, by simpa using hcaught⟩)
    · obtain ⟨c, tp', raw⟩ := x
      have hT' : c = .terminal := hT _ hx
      subst hT'
      cases he
  obtain ⟨a, ha, A⟩ := ExtraData.asDictLoop_ok _ [] (hn t l h hf) ⟨none, rfl⟩
  obtain ⟨d, hd, D⟩ := ExtraData.asDictLoop_ok _ [] (hn t' l' h' hf') ⟨none, rfl⟩
  refine ⟨a, d, by unfold ExtraData.asDict; rw [ha], by unfold ExtraData.asDict; rw [hd], A.nodup List.nodup_nil, D.nodup List.nodup_nil, fun k => ?_⟩
  by_cases hk : ∃ c : ExtraClass, k = c.name
  · obtain ⟨c, rfl⟩ := hk
    by_cases hc : c = .unknown
    · subst hc
      have hu := same_unknown (tp := tp) (Order.signature_whole h.cut h.whole) (Order.signature_whole h'.cut h'.whole) hs
      have hg : ∀ m : List Extra, ExtraData.goods .unknown m = ExtraData.goods .unknown (m.filter fun x => decide (x.cls = .unknown)) := by
        intro m
        unfold ExtraData.goods
        rw [List.filterMap_filter]
        refine List.filterMap_congr fun x _ => ?_
        by_cases hx : x.cls = .unknown <;> simp [hx]
      have hm : ∀ m : List Extra, (∃ x ∈ m, x.cls = .unknown) ↔ (m.filter fun x => decide (x.cls = .unknown)) ≠ [] := by
        intro m
        rw [Ne, List.filter_eq_nil_iff]
        simp
      rw [A.unknown none rfl, D.unknown none rfl, hg (_ ++ T), hg (_ ++ T), List.filter_append, List.filter_append, hu]
      simp only [hm, List.filter_append, hu]
    · rw [A.named c hc, D.named c hc, goods_append, goods_append, List.getLast?_append, List.getLast?_append,
        same_last hcp (piece_good h) (piece_good h') hs c hc]
  · rw [A.others k fun c h => hk ⟨c, h⟩, D.others k fun c h => hk ⟨c, h⟩]

/-- Extra data whose blocks are all there, as objects. -/
theorem read_whole (tp : TextProc) (allow : Bool) {t : Bytes} {l : List Piece} {last : Bytes} (h : WholeBlocks t l last) :
    OpenEnd.read tp allow t = ⟨ExtraData.cutWarns [] last,
      .ok (⟨ExtraData.objects tp l ++ if allow = true ∧ 4 < last.length then [⟨.terminal, tp, last⟩] else []⟩,
        (l.map Piece.declared).sum + if allow = true ∧ 4 < last.length then last.length else 0)⟩ ∧
    t.length = (l.map Piece.declared).sum + last.length := by
  have hs := Order.signature_whole h.cut h.whole
  have hw : ExtraData.cutWarns l last = ExtraData.cutWarns [] last := by
    unfold ExtraData.cutWarns
    rw [List.filterMap_eq_nil_iff.2 fun p hp => ?_]
    · rfl
    · obtain ⟨s, hs⟩ := Option.isSome_iff_exists.1 (hs p hp)
      rw [hs]
      rfl
  have hz := ExtraData.size_cut (tp := tp) (allow := allow) h.cut
  rw [if_pos fun p hp => by
    have := (h.whole p (List.mem_filter.1 hp).1).1
    omega] at hz
  rw [show ExtraData.signed l = l from List.filter_eq_self.2 hs] at hz
  constructor
  · unfold OpenEnd.read
    rw [ExtraData.init_cut h.cut, hw]
    show ((⟨_, .ok ()⟩ : Py Unit) >>= fun _ => do let n ← ExtraData.size _; pure (_, n)) = _
    rw [hz]
    show Py.mk (_ ++ ([] ++ [])) _ = _
    rw [List.append_nil, List.append_nil]
    rfl
  · rw [← ExtraData.cut_flatten h.cut, List.length_append, List.length_flatten, List.map_map]
    congr 2
    exact List.map_congr_left fun p hp => (h.whole p hp).2

end Repeated

end Verif
