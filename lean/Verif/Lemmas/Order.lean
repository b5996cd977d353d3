import Verif.Lemmas.OpenEnd
import Verif.Lemmas.ExtraReport
import Verif.Spec.Order

/-
Extra data with the same blocks in another order.
-/

namespace Verif

open Spec Py

namespace Order

/-- Lists with the same elements of every class are permutations of each other. -/
theorem perm_of_filter {α κ : Type} [DecidableEq κ] (key : α → κ) {l l' : List α}
    (h : ∀ k, l.filter (fun a => decide (key a = k)) = l'.filter fun a => decide (key a = k)) : l.Perm l' := by
  classical
  rw [List.perm_iff_count]
  intro a
  have : ∀ m : List α, m.count a = (m.filter fun x => decide (key x = key a)).count a := fun m =>
    (List.count_filter (by simp)).symm
  rw [this l, this l', h]

/-- What is said of blocks that come in another order. -/
theorem asDict_order {xs ys : List Extra}
    (h : ∀ c, xs.filter (fun x => decide (x.cls = c)) = ys.filter fun x => decide (x.cls = c)) :
    ((∃ e, (ExtraData.asDict ⟨xs⟩).res = .error e) ∧ ∃ e, (ExtraData.asDict ⟨ys⟩).res = .error e) ∨
    ∃ a d, (ExtraData.asDict ⟨xs⟩).res = .ok a ∧ (ExtraData.asDict ⟨ys⟩).res = .ok d ∧
      (ExtraData.asDict ⟨xs⟩).warns.Perm (ExtraData.asDict ⟨ys⟩).warns ∧ a.keys.Nodup ∧ d.keys.Nodup ∧ ∀ k, a.get? k = d.get? k := by
  have hp : xs.Perm ys := perm_of_filter _ h
  have hg : ∀ c, ExtraData.goods c xs = ExtraData.goods c ys := by
    intro c
    have e : ∀ m : List Extra, ExtraData.goods c m = ExtraData.goods c (m.filter fun x => decide (x.cls = c)) := by
      intro m
      unfold ExtraData.goods
      rw [List.filterMap_filter]
      refine List.filterMap_congr fun x _ => ?_
      by_cases hx : x.cls = c <;> simp [hx]
    rw [e xs, e ys, h]
  by_cases hn : ∀ x ∈ xs, ∀ e, x.asDict.res = .error e → ExtraData.caught e = true
  · right
    obtain ⟨a, ha, A⟩ := ExtraData.asDictLoop_ok xs [] hn ⟨none, rfl⟩
    obtain ⟨d, hd, D⟩ := ExtraData.asDictLoop_ok ys [] (fun x hx => hn x (hp.mem_iff.2 hx)) ⟨none, rfl⟩
    refine ⟨a, d, by unfold ExtraData.asDict; rw [ha], by unfold ExtraData.asDict; rw [hd], ?_, A.nodup List.nodup_nil,
      D.nodup List.nodup_nil, fun k => ?_⟩
    · unfold ExtraData.asDict
      rw [ha, hd]
      exact hp.flatMap_right _
    · by_cases hk : ∃ c : ExtraClass, k = c.name
      · obtain ⟨c, rfl⟩ := hk
        by_cases hc : c = .unknown
        · subst hc
          rw [A.unknown none rfl, D.unknown none rfl, hg]
          simp only [hp.mem_iff]
        · rw [A.named c hc, D.named c hc, hg]
      · rw [A.others k fun c h => hk ⟨c, h⟩, D.others k fun c h => hk ⟨c, h⟩]
  · left
    have err : ∀ m : List Extra, (¬ ∀ x ∈ m, ∀ e, x.asDict.res = .error e → ExtraData.caught e = true) →
        ∃ e, (ExtraData.asDict ⟨m⟩).res = .error e := by
      intro m
      have : ∀ pre post : List Extra, (∀ y ∈ pre, ∀ e, y.asDict.res = .error e → ExtraData.caught e = true) →
          (¬ ∀ x ∈ post, ∀ e, x.asDict.res = .error e → ExtraData.caught e = true) →
          ∃ e, (ExtraData.asDictLoop (pre ++ post) []).res = .error e := by
        intro pre post
        induction post generalizing pre with
        | nil => intro _ h; exact absurd (fun x hx => by cases hx) h
        | cons x post ih =>
          intro h1 h2
          by_cases hx : ∀ e, x.asDict.res = .error e → ExtraData.caught e = true
          · have := ih (pre ++ [x]) (fun y hy => by
              rcases List.mem_append.1 hy with hy | hy
              · exact h1 y hy
              · rw [List.mem_singleton] at hy
                subst hy
                exact hx) (fun h => h2 fun y hy => by
              rcases List.mem_cons.1 hy with rfl | hy
              · exact hx
              · exact h y hy)
            rwa [List.append_assoc] at this
          · push Not at hx
            obtain ⟨e, he, hc⟩ := hx
            exact ⟨e, ExtraData.asDictLoop_error pre post x [] e h1 he (by simpa using hc)⟩
      intro h
      exact this [] m (fun y hy => by cases hy) h
    refine ⟨err xs hn, err ys fun h => hn fun x hx => h x (hp.mem_iff.1 hx)⟩

/-! ### what is reported of both parts -/

theorem nodup_merge {a d : Dict} (ha : a.keys.Nodup) (hd : d.keys.Nodup) : (Dict.keys (mergeBlocks a d)).Nodup := by
  unfold Dict.keys at *
  rw [OpenEnd.merge_eq, List.map_append, List.nodup_append]
  refine ⟨?_, hd.sublist (List.filter_sublist.map _), ?_⟩
  · rw [List.map_map]
    have : (Prod.fst ∘ OpenEnd.entry d) = Prod.fst := funext fun kv => OpenEnd.entry_key d kv
    rw [this]
    exact ha
  · intro k hk k' hk' e
    subst e
    obtain ⟨kv, hkv, rfl⟩ := List.mem_map.1 hk'
    rw [List.mem_filter] at hkv
    rw [List.map_map] at hk
    have : (Prod.fst ∘ OpenEnd.entry d) = Prod.fst := funext fun kv => OpenEnd.entry_key d kv
    rw [this] at hk
    obtain ⟨v, hv⟩ := List.mem_map.1 hk
    have h1 := hkv.2
    rw [Option.isNone_iff_eq_none, List.lookup_eq_none_iff] at h1
    have := h1 v hv.1
    rw [hv.2] at this
    simp at this

/-! ### reading -/

theorem signature_whole {t : Bytes} {l : List Piece} {last : Bytes} (h : Cut t l last)
    (hw : ∀ p ∈ l, 8 ≤ p.declared ∧ p.bytes.length = p.declared) : ∀ p ∈ l, p.signature.isSome := by
  induction h with
  | stop h => intro p hp; cases hp
  | @block b n l last h hn hl ih =>
    intro p hp
    rcases List.mem_cons.1 hp with rfl | hp
    · obtain ⟨h8, hlen⟩ := hw _ List.mem_cons_self
      dsimp only at h8 hlen ⊢
      rw [List.length_take] at hlen
      rw [uAt_eq_some_iff.2 ⟨by omega, rfl⟩]
      rfl
    · exact ih (fun p hp => hw p (List.mem_cons_of_mem _ hp)) p hp

/-- The object for a piece with a signature. -/
def object (tp : TextProc) (p : Piece) : Extra := ⟨extraKind (p.signature.getD 0), tp, p.bytes⟩

theorem objects_map (tp : TextProc) {l : List Piece} (h : ∀ p ∈ l, p.signature.isSome) : ExtraData.objects tp l = l.map (object tp) := by
  unfold ExtraData.objects
  rw [← List.filterMap_eq_map]
  refine List.filterMap_congr fun p hp => ?_
  obtain ⟨s, hs⟩ := Option.isSome_iff_exists.1 (h p hp)
  simp [object, hs]

theorem objects_order (tp : TextProc) {l l' : List Piece} (h : ∀ p ∈ l, p.signature.isSome) (h' : ∀ p ∈ l', p.signature.isSome)
    (hk : SameByKind l l') (c : ExtraClass) : (ExtraData.objects tp l).filter (fun x => decide (x.cls = c)) =
      (ExtraData.objects tp l').filter fun x => decide (x.cls = c) := by
  have e : ∀ m : List Piece, (∀ p ∈ m, p.signature.isSome) → (ExtraData.objects tp m).filter (fun x => decide (x.cls = c)) =
      (m.filter fun p => decide (p.signature.map blockName = some c.name)).map (object tp) := by
    intro m hm
    rw [objects_map tp hm, List.filter_map]
    congr 1
    refine List.filter_congr fun p hp => ?_
    obtain ⟨s, hs⟩ := Option.isSome_iff_exists.1 (hm p hp)
    simp only [Function.comp, object, hs, Option.getD_some, Option.map_some, Option.some.injEq, ← extraKind_name, decide_eq_decide]
    exact ⟨fun h => h ▸ rfl, fun h => ExtraClass.name_inj h⟩
  rw [e l h, e l' h', hk]

theorem perm_pieces {l l' : List Piece} (hk : SameByKind l l') (h : ∀ p ∈ l, p.signature.isSome)
    (h' : ∀ p ∈ l', p.signature.isSome) : l.Perm l' := by
  refine perm_of_filter (fun p : Piece => p.signature.map blockName) fun k => ?_
  rcases k with _ | k
  · rw [List.filter_eq_nil_iff.2, List.filter_eq_nil_iff.2]
    · intro p hp
      obtain ⟨s, hs⟩ := Option.isSome_iff_exists.1 (h' p hp)
      simp [hs]
    · intro p hp
      obtain ⟨s, hs⟩ := Option.isSome_iff_exists.1 (h p hp)
      simp [hs]
  · exact hk k

theorem read_order (tp : TextProc) (allow : Bool) {t t' : Bytes} {l l' : List Piece} {last : Bytes} (h : WholeBlocks t l last)
    (h' : WholeBlocks t' l' last) (hk : SameByKind l l') : ∃ w n xs ys,
      OpenEnd.read tp allow t = ⟨w, .ok (⟨xs⟩, n)⟩ ∧ OpenEnd.read tp allow t' = ⟨w, .ok (⟨ys⟩, n)⟩ ∧
      (∀ c, xs.filter (fun x => decide (x.cls = c)) = ys.filter fun x => decide (x.cls = c)) ∧ t.length = t'.length := by
  have hs := signature_whole h.cut h.whole
  have hs' := signature_whole h'.cut h'.whole
  have hp := perm_pieces hk hs hs'
  have hw : ∀ m : List Piece, (∀ p ∈ m, p.signature.isSome) → ExtraData.cutWarns m last = ExtraData.cutWarns [] last := by
    intro m hm
    unfold ExtraData.cutWarns
    rw [List.filterMap_eq_nil_iff.2 fun p hp => ?_]
    · rfl
    · obtain ⟨s, hs⟩ := Option.isSome_iff_exists.1 (hm p hp)
      rw [hs]
      rfl
  have hr : ∀ (t : Bytes) (m : List Piece), WholeBlocks t m last → (∀ p ∈ m, p.signature.isSome) →
      OpenEnd.read tp allow t = ⟨ExtraData.cutWarns [] last,
        .ok (⟨ExtraData.objects tp m ++ if allow = true ∧ 4 < last.length then [⟨.terminal, tp, last⟩] else []⟩,
          (m.map Piece.declared).sum + if allow = true ∧ 4 < last.length then last.length else 0)⟩ := by
    intro t m hc hm
    have hz := ExtraData.size_cut (tp := tp) (allow := allow) hc.cut
    rw [if_pos fun p hp => by
      have := (hc.whole p (List.mem_filter.1 hp).1).1
      omega] at hz
    rw [show ExtraData.signed m = m from List.filter_eq_self.2 hm] at hz
    unfold OpenEnd.read
    rw [ExtraData.init_cut hc.cut, hw m hm]
    show ((⟨_, .ok ()⟩ : Py Unit) >>= fun _ => do let n ← ExtraData.size _; pure (_, n)) = _
    rw [hz]
    show Py.mk (_ ++ ([] ++ [])) _ = _
    rw [List.append_nil, List.append_nil]
    rfl
  refine ⟨_, _, _, ExtraData.objects tp l' ++ if allow = true ∧ 4 < last.length then [⟨.terminal, tp, last⟩] else [], hr t l h hs,
    (hr t' l' h' hs').trans ?_, fun c => ?_, ?_⟩
  · rw [(hp.map Piece.declared).sum_eq]
  · rw [List.filter_append, List.filter_append, objects_order tp hs hs' hk]
  · rw [← ExtraData.cut_flatten h.cut, ← ExtraData.cut_flatten h'.cut, List.length_append, List.length_append, List.length_flatten,
      List.length_flatten, ((hp.map Piece.bytes).map List.length).sum_eq]

end Order

end Verif
