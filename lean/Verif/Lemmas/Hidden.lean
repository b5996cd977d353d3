import Verif.Lemmas.Trailer
import Verif.Lemmas.Targets
import Verif.Lemmas.OpenEnd
import Verif.Spec.Hidden

/-
Bytes of a file that are not looked at.
-/

namespace Verif

open Spec Py

namespace Hidden

/-- The same item, followed by other bytes. -/
def moved (r : Bytes) (t : Target) : Target := { t with raw := r }

theorem init_moved (tp : TextProc) (cls : TargetClass) (p rest rest' : Bytes) (hl : p.length + 2 < 65536)
    (h2 : rest.take 2 = rest'.take 2) :
    Target.init cls tp (itemBytes p ++ rest') = (do
      let t ← Target.init cls tp (itemBytes p ++ rest)
      pure (moved (itemBytes p ++ rest') t)) ∧
    ∀ t, (Target.init cls tp (itemBytes p ++ rest)).res = .ok t → t.raw = itemBytes p ++ rest := by
  have hw := Target.window_itemBytes hl (rest := rest)
  have hw' := Target.window_itemBytes hl (rest := rest')
  constructor
  · cases cls
    case networkLocation =>
      simp only [Target.init, Target.initNetwork, hw, hw', pure_bind, h2, bind_assoc]
      rfl
    all_goals
      simp only [Target.init, hw, hw', pure_bind, h2]
      rfl
  · intro t ht
    cases cls
    case networkLocation =>
      simp only [Target.init, Target.initNetwork, hw, pure_bind] at ht
      obtain ⟨_, -, ht⟩ := bind_ok_iff.1 ht
      obtain ⟨_, -, ht⟩ := bind_ok_iff.1 ht
      obtain ⟨_, -, ht⟩ := bind_ok_iff.1 ht
      obtain ⟨_, -, ht⟩ := bind_ok_iff.1 ht
      obtain ⟨_, -, ht⟩ := bind_ok_iff.1 ht
      cases ht
      rfl
    all_goals
      simp only [Target.init, hw, pure_res, Except.ok.injEq] at ht
      subst ht
      rfl

theorem asItem_moved {t : Target} {p rest rest' : Bytes} (hl : p.length + 2 < 65536) (ht : t.raw = itemBytes p ++ rest) :
    (moved (itemBytes p ++ rest') t).asItem = t.asItem := by
  have hz : Target.sizeOf (itemBytes p ++ rest') = Target.sizeOf t.raw := by
    have a : Target.sizeOf (itemBytes p ++ rest) = pure (p.length + 2) := itemSize_itemBytes hl
    have b : Target.sizeOf (itemBytes p ++ rest') = pure (p.length + 2) := itemSize_itemBytes hl
    rw [ht, a, b]
  rcases hc : t with ⟨cls, tp, raw, rt, l, d, c⟩
  subst hc
  cases cls
  case unknown =>
    unfold moved Target.asItem
    dsimp only at hz ⊢
    rw [hz]
  all_goals rfl

theorem itemOf_moved {t : Target} {p rest rest' : Bytes} (hl : p.length + 2 < 65536) (ht : t.raw = itemBytes p ++ rest) :
    LnkTargets.itemOf (moved (itemBytes p ++ rest') t) = LnkTargets.itemOf t := by
  unfold LnkTargets.itemOf
  rw [asItem_moved hl ht]
  rfl

/-- One item, whatever is in it, with the rest of the list behind it. -/
theorem loop_step (tp : TextProc) {c : UInt8} {body : Bytes} (hl : ([c] ++ body).length + 2 < 65536) (rest : Bytes) :
    LnkTargets.asListLoop (LnkTargets.idLists tp (itemBytes ([c] ++ body) ++ rest)) = (do
      (⟨if itemClass c.toNat = none then [.itemType c.toNat] else [], .ok ()⟩ : Py Unit)
      let t ← LnkTargets.genBody (Target.init (Target.kindOf c.toNat) tp (itemBytes ([c] ++ body) ++ rest))
      let item ← LnkTargets.itemOf t
      let items ← LnkTargets.asListLoop (LnkTargets.idLists tp rest)
      pure (item.toList ++ items)) := by
  have hs := step_itemBytes (tp := tp) (rest := rest) hl
  generalize (if itemClass c.toNat = none then [Warn.itemType c.toNat] else []) = W at hs ⊢
  have hlen : rest.length < (itemBytes ([c] ++ body) ++ rest).length := by
    rw [List.length_append (as := itemBytes _)]
    simp [itemBytes]
  generalize hX : itemBytes ([c] ++ body) ++ rest = X at hs hlen ⊢
  rcases hi : Target.init (Target.kindOf c.toNat) tp X with ⟨w, e | t⟩
  · rw [hi] at hs
    have hs' : LnkTargets.step tp X = ⟨W ++ w, .error e⟩ := by
      rw [hs]
      rfl
    have hb : X ≠ [] := by rintro rfl; simp at hlen
    rw [LnkTargets.idLists.eq_def, if_neg hb, hs']
    by_cases he : e = .stopIteration
    · subst he
      simp [LnkTargets.genBody, Py.tryExcept, LnkTargets.asListLoop, bind, Py.andThen, Py.raise]
    · simp [LnkTargets.genBody, Py.tryExcept, LnkTargets.asListLoop, bind, Py.andThen, he]
  · rw [hi] at hs
    have hs' : LnkTargets.step tp X = ⟨W ++ w, .ok (some (t, rest))⟩ := by
      rw [hs]
      simp [bind, Py.andThen, pure, Py.ret]
    rw [idLists_cons hs' hlen, LnkTargets.asListLoop]
    simp [LnkTargets.genBody, Py.tryExcept, bind, Py.andThen]

/-- Behind the terminal id nothing is read. -/
theorem list_tail (tp : TextProc) (items : List Bytes) (h0 : ∀ p ∈ items, p ≠ []) (hl : ∀ p ∈ items, p.length + 2 < 65536) (r r' : Bytes) :
    LnkTargets.asListLoop (LnkTargets.idLists tp (items.flatMap itemBytes ++ 0 :: 0 :: r)) =
      LnkTargets.asListLoop (LnkTargets.idLists tp (items.flatMap itemBytes ++ 0 :: 0 :: r')) := by
  induction items with
  | nil => rw [List.flatMap_nil, List.nil_append, List.nil_append, idLists_ends (.inr ⟨r, rfl⟩), idLists_ends (.inr ⟨r', rfl⟩)]
  | cons p items ih =>
    have ih := ih (fun p hp => h0 p (List.mem_cons_of_mem _ hp)) fun p hp => hl p (List.mem_cons_of_mem _ hp)
    obtain ⟨c, body, rfl⟩ := List.exists_cons_of_ne_nil (h0 p List.mem_cons_self)
    have hl := hl _ List.mem_cons_self
    rw [List.flatMap_cons, List.append_assoc, List.append_assoc]
    have e := loop_step tp (c := c) (body := body) hl
    rw [show [c] ++ body = c :: body from rfl] at e
    rw [e, e, ih]
    have h2 : (items.flatMap itemBytes ++ 0 :: 0 :: r).take 2 = (items.flatMap itemBytes ++ 0 :: 0 :: r').take 2 := by
      have : ∀ x : Bytes, (items.flatMap itemBytes ++ 0 :: 0 :: x).take 2 = (items.flatMap itemBytes ++ [0, 0]).take 2 := by
        intro x
        rw [show items.flatMap itemBytes ++ 0 :: 0 :: x = items.flatMap itemBytes ++ [0, 0] ++ x by simp, List.take_append_of_le_length (by simp)]
      exact (this r).trans (this r').symm
    obtain ⟨h3, h4⟩ := init_moved tp (Target.kindOf c.toNat) (c :: body) _ _ hl h2
    rw [h3]
    congr 1; funext _
    rcases hi : Target.init (Target.kindOf c.toNat) tp (itemBytes (c :: body) ++ (items.flatMap itemBytes ++ 0 :: 0 :: r)) with ⟨w, e | t⟩
    · by_cases he : e = .stopIteration
      · subst he
        simp [LnkTargets.genBody, Py.tryExcept, bind, Py.andThen, Py.raise]
      · simp [LnkTargets.genBody, Py.tryExcept, bind, Py.andThen, he]
    · have ht := h4 t (by rw [hi])
      have := itemOf_moved (rest' := items.flatMap itemBytes ++ 0 :: 0 :: r') hl ht
      simp only [LnkTargets.genBody, Py.tryExcept, bind, Py.andThen, pure, Py.ret, List.append_nil]
      rw [this]

/-! ### the file around -/

/-- The same bytes except between two places. -/
structure Elsewhere (b b' : Bytes) (lo hi : Nat) : Prop where
  before : b.take lo = b'.take lo
  behind : b.drop hi = b'.drop hi
  length : b.length = b'.length

theorem elsewhere_append (a r r' z : Bytes) (h : r.length = r'.length) :
    Elsewhere (a ++ r ++ z) (a ++ r' ++ z) a.length (a.length + r.length) where
  before := by rw [List.append_assoc, List.append_assoc, List.take_left, List.take_left]
  behind := by
    rw [List.drop_left' (by simp), List.drop_left' (by simp [h])]
  length := by simp [h]

variable {b b' : Bytes} {lo hi : Nat}

theorem Elsewhere.take (h : Elsewhere b b' lo hi) {n : Nat} (hn : n ≤ lo) : b.take n = b'.take n := by
  have := congrArg (List.take n) h.before
  rwa [List.take_take, List.take_take, Nat.min_eq_left hn] at this

theorem Elsewhere.drop (h : Elsewhere b b' lo hi) {n : Nat} (hn : hi ≤ n) : b.drop n = b'.drop n := by
  have := congrArg (List.drop (n - hi)) h.behind
  rwa [List.drop_drop, List.drop_drop, Nat.add_sub_cancel' hn] at this

theorem Elsewhere.slice (h : Elsewhere b b' lo hi) {s e : Nat} (hn : e ≤ lo ∨ hi ≤ s) : slice b s e = slice b' s e := by
  rcases hn with hn | hn
  · have : ∀ x : Bytes, Verif.slice x s e = (x.take e).drop s := fun x => by
      unfold Verif.slice
      rw [List.drop_take]
    rw [this, this, h.take hn]
  · unfold Verif.slice
    rw [h.drop hn]

theorem Elsewhere.uAt (h : Elsewhere b b' lo hi) {n s : Nat} (hn : s + n ≤ lo ∨ hi ≤ s) : uAt n b s = uAt n b' s := by
  rcases hu : Spec.uAt n b' s with _ | v
  · rw [uAt_eq_none_iff] at hu ⊢
    rw [h.length]
    exact hu
  · rw [uAt_eq_some_iff] at hu ⊢
    rw [h.length, h.slice hn]
    exact hu

theorem Elsewhere.stringsEnd (h : Elsewhere b b' lo hi) (flags : Nat) (fs : List (Nat × Nat)) {pos : Nat} (hp : hi ≤ pos) :
    stringsEnd flags b fs pos = stringsEnd flags b' fs pos := by
  induction fs generalizing pos with
  | nil => rfl
  | cons f fs ih =>
    obtain ⟨bit, limit⟩ := f
    unfold Spec.stringsEnd
    rw [h.uAt (.inr hp)]
    split
    · rcases Spec.uAt 2 b' pos with _ | n
      · rfl
      · exact ih (by omega)
    · exact ih hp

theorem layout_order {L : Layout} (h : layout b = some L) : L.headerSize ≤ L.infoAt ∧ L.infoAt ≤ L.stringsAt := by
  unfold layout at h
  rcases h0 : uAt 4 b 0 with _ | hs
  · rw [h0] at h; cases h
  rw [h0] at h
  dsimp only at h
  rcases h1 : uAt 4 (b.take hs) 20 with _ | flags
  · rw [h1] at h; cases h
  rw [h1] at h
  dsimp only at h
  rcases h2 : (if flags.testBit 0 then (uAt 2 b hs).map fun n => hs + 2 + n else some hs) with _ | infoAt
  · rw [h2] at h; cases h
  rw [h2] at h
  cases h
  dsimp only
  constructor
  · split at h2
    · obtain ⟨n, -, rfl⟩ := Option.map_eq_some_iff.1 h2
      omega
    · cases h2
      exact Nat.le_refl _
  · split <;> omega

/-- The places, when the bytes differ within the ID list or within the link info. -/
theorem layout_elsewhere {L : Layout} (h : Elsewhere b b' lo hi) (hl : layout b = some L)
    (hlo : (L.headerSize + 2 ≤ lo ∧ hi ≤ L.infoAt) ∨ (L.infoAt + 12 ≤ lo ∧ hi ≤ L.stringsAt)) : layout b' = some L := by
  unfold layout at hl
  rcases h0 : uAt 4 b 0 with _ | hs
  · rw [h0] at hl; cases hl
  rw [h0] at hl
  dsimp only at hl
  rcases h1 : uAt 4 (b.take hs) 20 with _ | flags
  · rw [h1] at hl; cases hl
  rw [h1] at hl
  dsimp only at hl
  rcases h2 : (if flags.testBit 0 then (uAt 2 b hs).map fun n => hs + 2 + n else some hs) with _ | infoAt
  · rw [h2] at hl; cases hl
  rw [h2] at hl
  dsimp only at hl
  have hh : hs ≤ infoAt ∧ (flags.testBit 0 = true → hs + 2 ≤ infoAt) := by
    split at h2
    · obtain ⟨n, -, rfl⟩ := Option.map_eq_some_iff.1 h2
      omega
    · rename_i hb
      cases h2
      exact ⟨Nat.le_refl _, fun h => absurd h hb⟩
  generalize hS : (if infoAnnounced flags && (infoLocation b infoAt).isSome then infoAt + (uAt 4 b infoAt).getD 0
    else infoAt) = stringsAt at hl
  have hle : infoAt ≤ stringsAt := by
    rw [← hS]
    split <;> omega
  cases hl
  dsimp only at hlo
  have h4 : 4 ≤ lo := by
    have h24 := ExtraData.uAt_some_length h1
    rw [List.length_take] at h24
    omega
  have hsl : hs ≤ lo := by omega
  have e1 : infoLocation b infoAt = infoLocation b' infoAt := by
    unfold infoLocation
    rw [h.uAt (by omega)]
  have e2 : uAt 4 b infoAt = uAt 4 b' infoAt := h.uAt (by omega)
  have e3 : (if flags.testBit 0 then (uAt 2 b' hs).map fun n => hs + 2 + n else some hs) = some infoAt := by
    rw [← h2]
    split
    · rename_i hb
      rw [h.uAt (.inl (by have := hh.2 hb; omega))]
    · rfl
  unfold layout
  rw [← h.uAt (n := 4) (s := 0) (.inl (by omega)), h0]
  dsimp only
  rw [← h.take hsl, h1]
  dsimp only
  rw [e3]
  dsimp only
  rw [← e1, ← e2, hS, h.stringsEnd _ _ (by omega)]

/-- The object read from the other bytes. -/
def replaced (env : Env) (cp : Option String) (b' : Bytes) (L : Layout) (f : LnkFile) : LnkFile :=
  { f with
    indata := b'
    targets := if L.flags.testBit 0 then some ⟨TextProc.mk' env cp, b'.drop L.headerSize, slice b' (L.headerSize + 2) L.infoAt⟩ else none
    info := if infoAnnounced L.flags then
      (infoLocation b' L.infoAt).map fun c => (LnkFile.classOf c, ⟨TextProc.mk' env cp, b'.drop L.infoAt⟩) else none }

theorem process_elsewhere (env : Env) (cp : Option String) (allow : Bool) {L : Layout} (h : Elsewhere b b' lo hi) (hl : layout b = some L)
    (hlo : (L.headerSize + 2 ≤ lo ∧ hi ≤ L.infoAt) ∨ (L.infoAt + 12 ≤ lo ∧ hi ≤ L.stringsAt)) :
    LnkFile.process env cp allow b' = (do
      let f ← LnkFile.process env cp allow b
      pure (replaced env cp b' L f)) := by
  have hl' := layout_elsewhere h hl hlo
  obtain ⟨o1, o2⟩ := layout_order hl
  obtain ⟨-, -, hfl, hex, hp⟩ := LnkFile.process_rest env cp allow b L hl
  obtain ⟨-, -, -, -, hp'⟩ := LnkFile.process_rest env cp allow b' L hl'
  rw [hp, hp', ← h.uAt (n := 4) (s := L.infoAt + 8) (by omega)]
  simp only [bind_assoc]
  congr 1; funext _
  congr 1; funext _
  congr 1; funext _
  unfold LnkFile.rest
  simp only [bind_assoc, pure_bind]
  rw [← h.take (n := L.headerSize) (by omega), ← h.drop (n := L.stringsAt) (by omega)]
  congr 1; funext sd
  rw [← h.drop (n := L.stringsAt + sd.size) (by omega)]
  congr 1; funext ex
  congr 1; funext n
  rw [← h.drop (n := L.stringsAt + sd.size + n) (by omega)]
  rfl

/-! ### the sections -/

theorem target_same {env : Env} {cp : Option String} {L : Layout} {l : List Piece} {last : Bytes} {allow : Bool} {f : LnkFile}
    (h : Elsewhere b b' lo hi) (hlo : L.headerSize + 2 ≤ lo) (hP : LnkFile.Parts env cp allow b L l last f)
    (hr : L.flags.testBit 0 = true → LnkTargets.asListLoop (LnkTargets.idLists (TextProc.mk' env cp) (slice b (L.headerSize + 2) L.infoAt)) =
      LnkTargets.asListLoop (LnkTargets.idLists (TextProc.mk' env cp) (slice b' (L.headerSize + 2) L.infoAt))) :
    (replaced env cp b' L f).jsonTarget = f.jsonTarget := by
  unfold LnkFile.jsonTarget replaced
  dsimp only
  rw [hP.targets]
  cases hb : L.flags.testBit 0 with
  | false => rfl
  | true =>
    have : slice (b.drop L.headerSize) 0 2 = slice (b'.drop L.headerSize) 0 2 := by
      have e : ∀ x : Bytes, slice (x.drop L.headerSize) 0 2 = slice x L.headerSize (L.headerSize + 2) := fun x => by
        unfold slice
        rw [List.drop_zero, Nat.add_sub_cancel_left]
      rw [e, e, h.slice (.inl hlo)]
    simp only [if_true, LnkTargets.idListSize, LnkTargets.idListSizeOf, LnkTargets.asList, LnkTargets.iter, this, hr hb]

theorem info_same {env : Env} {cp : Option String} {L : Layout} {l : List Piece} {last : Bytes} {allow : Bool} {f : LnkFile}
    (hP : LnkFile.Parts env cp allow b L l last f)
    (hr : infoAnnounced L.flags = true → infoLocation b' L.infoAt = infoLocation b L.infoAt ∧ (b.drop L.infoAt = b'.drop L.infoAt ∨
      ∀ kind, infoLocation b L.infoAt = some kind → ∃ a t t', b.drop L.infoAt = a ++ t ∧ b'.drop L.infoAt = a ++ t' ∧ InfoComplete a kind)) :
    (replaced env cp b' L f).jsonInfo = f.jsonInfo := by
  have hinf := hP.info
  cases ha : infoAnnounced L.flags with
  | false =>
    rw [ha] at hinf
    unfold LnkFile.jsonInfo replaced
    simp only [ha, hinf, Bool.false_eq_true, if_false]
  | true =>
    rw [ha, if_pos rfl] at hinf
    obtain ⟨h1, h2⟩ := hr ha
    have hg : (replaced env cp b' L f).info = (infoLocation b L.infoAt).map fun c =>
        (LnkFile.classOf c, ⟨TextProc.mk' env cp, b'.drop L.infoAt⟩) := by
      unfold replaced
      dsimp only
      rw [ha, if_pos rfl, h1]
    rcases h2 with h2 | h2
    · unfold LnkFile.jsonInfo
      rw [hg, hinf, h2]
    · rcases hk : infoLocation b L.infoAt with _ | kind
      · rw [hk] at hg hinf
        unfold LnkFile.jsonInfo
        rw [hg, hinf]
        rfl
      · obtain ⟨a, t, t', e1, e2, hc⟩ := h2 kind hk
        rw [hk, Option.map_some] at hg hinf
        rw [e2] at hg
        rw [e1] at hinf
        have g0 := Trailer.info_more (TextProc.mk' env cp) t hc { f with info := some (LnkFile.classOf kind, ⟨TextProc.mk' env cp, a⟩) } f rfl hinf
        have g1 := Trailer.info_more (TextProc.mk' env cp) t' hc { f with info := some (LnkFile.classOf kind, ⟨TextProc.mk' env cp, a⟩) }
          (replaced env cp b' L f) rfl hg
        rw [g0, g1]

/-! ### blocks -/

/-- What is behind the fields of a block. -/
theorem block_tail (tp : TextProc) {s e : Nat} (h : (s, e) ∈ fieldsEnd) {q r r' : Bytes} (hq : e ≤ q.length) :
    Extra.asDict ⟨extraKind s, tp, q ++ r⟩ = Extra.asDict ⟨extraKind s, tp, q ++ r'⟩ := by
  have hs : ∀ {i j : Nat}, j ≤ e → slice (q ++ r) i j = slice (q ++ r') i j := fun hj => by
    rw [Trailer.slice_more r (by omega), Trailer.slice_more r' (by omega)]
  have k1 : extraKind 0xA0000001 = .environment := by decide +kernel
  have k2 : extraKind 0xA0000002 = .console := by decide +kernel
  have k3 : extraKind 0xA0000003 = .distributedTracker := by decide +kernel
  have k4 : extraKind 0xA0000004 = .codePage := by decide +kernel
  have k5 : extraKind 0xA0000005 = .specialFolder := by decide +kernel
  have k6 : extraKind 0xA0000006 = .darwin := by decide +kernel
  have k7 : extraKind 0xA0000007 = .icon := by decide +kernel
  have k8 : extraKind 0xA000000B = .knownFolder := by decide +kernel
  simp only [fieldsEnd, List.mem_cons, Prod.mk.injEq, List.not_mem_nil, or_false] at h
  rcases h with ⟨rfl, rfl⟩ | ⟨rfl, rfl⟩ | ⟨rfl, rfl⟩ | ⟨rfl, rfl⟩ | ⟨rfl, rfl⟩ | ⟨rfl, rfl⟩ | ⟨rfl, rfl⟩ | ⟨rfl, rfl⟩ <;>
  simp (disch := omega) only [k1, k2, k3, k4, k5, k6, k7, k8, Extra.asDict, Extra.size, Extra.fields, Extra.targetFields, Extra.consoleFields, Extra.trackerFields, Extra.codePageFields,
    Extra.specialFolderFields, Extra.darwinFields, Extra.knownFolderFields, Extra.uint, Extra.sint, Extra.darwinDataUnicode,
    Extra.productCodeId, Extra.featureName, Extra.componentId, Trailer.slice_more]

end Hidden

end Verif
