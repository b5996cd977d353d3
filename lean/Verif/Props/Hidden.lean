import Verif.Lemmas.Gaps
import Verif.Props.Order

/-
C95: places in an accepted file where bytes can be anything without being seen.
-/

namespace Verif.Props

open Spec Py Log OpenEnd Hidden

/-- Nothing tells the two inputs apart: the constructor says and raises the same, and what it makes of them has the same size and command
and is reported and printed in the same way, with the same warnings. -/
structure NothingSeen (env : Env) (cp : Option String) (allow : Bool) (src src' : Source) : Prop where
  warns : (LnkFile.init env cp allow src').warns = (LnkFile.init env cp allow src).warns
  error : ∀ e, (LnkFile.init env cp allow src').res = .error e ↔ (LnkFile.init env cp allow src).res = .error e
  same : ∀ f, (LnkFile.init env cp allow src).res = .ok f → ∃ f', (LnkFile.init env cp allow src').res = .ok f' ∧ f'.size = f.size ∧
    f'.lnkCommand = f.lnkCommand ∧ ∀ all, f'.getJson all = f.getJson all ∧ f'.printJson all = f.printJson all ∧
      ∀ dump, f'.printLnkFile dump all = f.printLnkFile dump all

private theorem init_process {env : Env} {cp : Option String} {allow : Bool} {s : Source} (h : s.bytes ≠ []) :
    LnkFile.init env cp allow s = LnkFile.process env cp allow s.bytes := by
  cases s with
  | fhandle x => rfl
  | indata x => exact if_neg h

theorem nothing_seen' {env : Env} {cp : Option String} {allow : Bool} {src src' : Source} {α : Type} {P : Py α} {g g' : α → LnkFile}
    (h0 : src.bytes ≠ []) (h0' : src'.bytes ≠ [])
    (h : LnkFile.process env cp allow src.bytes = (do let a ← P; pure (g a)))
    (h' : LnkFile.process env cp allow src'.bytes = (do let a ← P; pure (g' a)))
    (hs : ∀ a, P.res = .ok a → (g' a).size = (g a).size ∧ ((g' a).jsonHeader = (g a).jsonHeader ∧
      (g' a).formatLinkFlags = (g a).formatLinkFlags ∧ (g' a).formatFileFlags = (g a).formatFileFlags ∧
      ∀ s, (g' a).header.hasFlag s = (g a).header.hasFlag s) ∧ (g' a).stringData = (g a).stringData ∧
      (g' a).jsonTarget = (g a).jsonTarget ∧ (g' a).jsonInfo = (g a).jsonInfo ∧ (g' a).extras.asDict = (g a).extras.asDict) :
    NothingSeen env cp allow src src' := by
  rw [← init_process h0] at h
  rw [← init_process h0'] at h'
  rcases P with ⟨w, e | a⟩
  · refine ⟨by rw [h, h']; rfl, fun e => by rw [h, h']; exact Iff.rfl, fun f hf => ?_⟩
    rw [h] at hf
    cases hf
  refine ⟨by rw [h, h']; rfl, fun e => by rw [h, h']; exact ⟨fun h => (by cases h), fun h => (by cases h)⟩, fun f hf => ?_⟩
  rw [h] at hf
  obtain rfl := Except.ok.inj hf
  obtain ⟨a1, ⟨b1, b2, b3, b4⟩, a3, a4, a5, a6⟩ := hs a rfl
  have hj : ∀ all, (g' a).getJson all = (g a).getJson all := fun all => by
    unfold LnkFile.getJson
    rw [a1, b1, a3, a4, a5, a6]
  refine ⟨g' a, by rw [h']; rfl, a1, ?_, fun all => ⟨hj all, ?_, fun dump => ?_⟩⟩
  · unfold LnkFile.lnkCommand
    rw [b4, b4, a3]
  · unfold LnkFile.printJson
    rw [hj]
  · have hn : (g' a).niceJson all = (g a).niceJson all := by
      unfold LnkFile.niceJson
      rw [hj, b2, b3]
    unfold LnkFile.printLnkFile
    rw [hn]

theorem nothing_seen {env : Env} {cp : Option String} {allow : Bool} {src src' : Source} {α : Type} {P : Py α} {g g' : α → LnkFile}
    (h0 : src.bytes ≠ []) (h0' : src'.bytes ≠ [])
    (h : LnkFile.process env cp allow src.bytes = (do let a ← P; pure (g a)))
    (h' : LnkFile.process env cp allow src'.bytes = (do let a ← P; pure (g' a)))
    (hs : ∀ a, P.res = .ok a → (g' a).size = (g a).size ∧ (g' a).header = (g a).header ∧ (g' a).stringData = (g a).stringData ∧
      (g' a).jsonTarget = (g a).jsonTarget ∧ (g' a).jsonInfo = (g a).jsonInfo ∧ (g' a).extras.asDict = (g a).extras.asDict) :
    NothingSeen env cp allow src src' := by
  refine nothing_seen' (g := g) (g' := g') h0 h0' h h' fun a ha => ?_
  obtain ⟨a1, a2, a3⟩ := hs a ha
  refine ⟨a1, ⟨?_, ?_, ?_, fun s => by rw [a2]⟩, a3⟩
  · unfold LnkFile.jsonHeader
    rw [a2]
  · unfold LnkFile.formatLinkFlags
    rw [a2]
  · unfold LnkFile.formatFileFlags
    rw [a2]

theorem not_nil {b : Bytes} {L : Layout} (h : Spec.layout b = some L) : b ≠ [] := by
  rintro rfl
  simp [Spec.layout, uAt] at h

/-- C95: between the fields of a header, which are 76 bytes, and the end that its size gives, any bytes can stand. -/
theorem behind_header (env : Env) (cp : Option String) (allow : Bool) (a r r' z : Bytes) (L : Layout)
    (hL : Spec.layout (a ++ r ++ z) = some L) (ha : 76 ≤ a.length) (he : a.length + r.length ≤ L.headerSize) (hr : r.length = r'.length)
    (src src' : Source) (hs : src.bytes = a ++ r ++ z) (hs' : src'.bytes = a ++ r' ++ z) : NothingSeen env cp allow src src' := by
  have hE := elsewhere_append a r r' z hr
  have hL' := Gaps.layout_header hE hL (by omega) he
  obtain ⟨hp, hh⟩ := Gaps.process_header env cp allow hE hL (by omega) he
  refine nothing_seen' (P := LnkFile.process env cp allow (a ++ r ++ z)) (g := id)
    (g' := fun f => { f with indata := a ++ r' ++ z, header := ⟨(a ++ r' ++ z).take L.headerSize⟩ })
    (by rw [hs]; exact not_nil hL) (by rw [hs']; exact not_nil hL') (by rw [hs]; exact (bind_pure _).symm) (by rw [hs']; exact hp) fun f hf => ?_
  refine ⟨rfl, Gaps.header_same (f := f) fun s e he => ?_, rfl, rfl, rfl, rfl⟩
  rw [hh f hf]
  exact Gaps.header_slices hE (by omega)

/-- C95: between the terminal id of an ID list and the end that its size gives, any bytes can stand. -/
theorem behind_id_list (env : Env) (cp : Option String) (allow : Bool) (ht : Tame (TextProc.mk' env cp)) (a r r' z : Bytes) (L : Layout)
    (items : List Bytes) (hL : Spec.layout (a ++ r ++ z) = some L)
    (hi : ListBytes (a.drop (L.headerSize + 2)) items) (he : a.length + r.length ≤ L.infoAt) (hr : r.length = r'.length)
    (src src' : Source) (hs : src.bytes = a ++ r ++ z) (hs' : src'.bytes = a ++ r' ++ z) : NothingSeen env cp allow src src' := by
  have hE := elsewhere_append a r r' z hr
  have hlen : L.headerSize + 2 + ((items.flatMap itemBytes).length + 2) = a.length := by
    have := congrArg List.length hi.bytes
    rw [List.length_drop, List.length_append] at this
    simp only [List.length_cons, List.length_nil] at this
    omega
  have hw : (L.headerSize + 2 ≤ a.length ∧ a.length + r.length ≤ L.infoAt) ∨ (L.infoAt + 12 ≤ a.length ∧ a.length + r.length ≤ L.stringsAt) :=
    .inl ⟨by omega, he⟩
  have hL' := layout_elsewhere hE hL hw
  refine nothing_seen (P := LnkFile.process env cp allow (a ++ r ++ z)) (g := id) (g' := replaced env cp (a ++ r' ++ z) L)
    (by rw [hs]; exact not_nil hL) (by rw [hs']; exact not_nil hL') (by rw [hs]; exact (bind_pure _).symm)
    (by rw [hs']; exact process_elsewhere env cp allow hE hL hw) fun f hfr => ?_
  obtain ⟨L₁, l, last, h1, -, hP, -⟩ := LnkFile.parts_tame ht hfr
  rw [hL] at h1
  cases h1
  refine ⟨rfl, rfl, rfl, Hidden.target_same hE (by omega) hP fun _ => ?_, Hidden.info_same hP fun _ => ?_, rfl⟩
  · have key : ∀ x : Bytes, slice (a ++ x ++ z) (L.headerSize + 2) L.infoAt =
        items.flatMap itemBytes ++ 0 :: 0 :: ((x ++ z).take (L.infoAt - a.length)) := by
      intro x
      unfold slice
      rw [List.append_assoc, List.drop_append_of_le_length (by omega), hi.bytes,
        show L.infoAt - (L.headerSize + 2) = (items.flatMap itemBytes ++ [0, 0]).length + (L.infoAt - a.length) by
          rw [List.length_append]; simp only [List.length_cons, List.length_nil]; omega, List.take_length_add_append]
      simp
    rw [key, key]
    exact list_tail _ items hi.typed hi.small _ _
  · refine ⟨?_, .inl (hE.drop he)⟩
    unfold infoLocation
    rw [hE.uAt (.inr (by omega))]

/-- C95: between the last number and text of a link info and the end that its size gives, any bytes can stand. -/
theorem behind_link_info (env : Env) (cp : Option String) (allow : Bool) (ht : Tame (TextProc.mk' env cp)) (a r r' z : Bytes) (L : Layout)
    (kind : String) (hL : Spec.layout (a ++ r ++ z) = some L)
    (hk : infoLocation (a ++ r ++ z) L.infoAt = some kind) (hi : InfoComplete (a.drop L.infoAt) kind)
    (he : a.length + r.length ≤ L.stringsAt) (hr : r.length = r'.length)
    (src src' : Source) (hs : src.bytes = a ++ r ++ z) (hs' : src'.bytes = a ++ r' ++ z) : NothingSeen env cp allow src src' := by
  have hE := elsewhere_append a r r' z hr
  obtain ⟨o1, o2⟩ := layout_order hL
  have h28 := hi.1
  rw [List.length_drop] at h28
  have hw : (L.headerSize + 2 ≤ a.length ∧ a.length + r.length ≤ L.infoAt) ∨ (L.infoAt + 12 ≤ a.length ∧ a.length + r.length ≤ L.stringsAt) :=
    .inr ⟨by omega, he⟩
  have hL' := layout_elsewhere hE hL hw
  refine nothing_seen (P := LnkFile.process env cp allow (a ++ r ++ z)) (g := id) (g' := replaced env cp (a ++ r' ++ z) L)
    (by rw [hs]; exact not_nil hL) (by rw [hs']; exact not_nil hL') (by rw [hs]; exact (bind_pure _).symm)
    (by rw [hs']; exact process_elsewhere env cp allow hE hL hw) fun f hfr => ?_
  obtain ⟨L₁, l, last, h1, -, hP, -⟩ := LnkFile.parts_tame ht hfr
  rw [hL] at h1
  cases h1
  refine ⟨rfl, rfl, rfl, Hidden.target_same hE (by omega) hP fun _ => by rw [hE.slice (.inl (by omega))], Hidden.info_same hP fun _ => ?_, rfl⟩
  refine ⟨?_, .inr fun kind' hk' => ?_⟩
  · unfold infoLocation
    rw [hE.uAt (.inl (by omega))]
  · rw [hk] at hk'
    cases hk'
    refine ⟨a.drop L.infoAt, r ++ z, r' ++ z, ?_, ?_, hi⟩ <;>
    rw [List.append_assoc, List.drop_append_of_le_length (by omega)]

/-- C95: everywhere in a link info, between its texts and around them, bytes that belong to no number and no text can be anything. -/
theorem link_info_gaps (env : Env) (cp : Option String) (allow : Bool) (ht : Tame (TextProc.mk' env cp)) (b b' : Bytes) (L : Layout)
    (kind : String) (hL : Spec.layout b = some L) (hk : infoLocation b L.infoAt = some kind) (hlen : b.length = b'.length)
    (hd : ∀ k, b[k]? = b'[k]? ∨ (L.infoAt ≤ k ∧ k < L.stringsAt ∧
      ∀ r ∈ infoUsed (b.drop L.infoAt) kind, k - L.infoAt < r.1 ∨ r.2 ≤ k - L.infoAt))
    (src src' : Source) (hs : src.bytes = b) (hs' : src'.bytes = b') : NothingSeen env cp allow src src' := by
  have hE : Elsewhere b b' (L.infoAt + 28) L.stringsAt := by
    refine ⟨List.ext_getElem? fun k => ?_, List.ext_getElem? fun k => ?_, hlen⟩
    · rw [List.getElem?_take, List.getElem?_take]
      split
      · rcases hd k with h | ⟨h1, -, h⟩
        · exact h
        · have := h (0, 28) (by simp [infoUsed])
          simp only at this
          omega
      · rfl
    · rw [List.getElem?_drop, List.getElem?_drop]
      rcases hd (L.stringsAt + k) with h | ⟨-, h, -⟩
      · exact h
      · omega
  obtain ⟨o1, o2⟩ := layout_order hL
  have hw : (L.headerSize + 2 ≤ L.infoAt + 28 ∧ L.stringsAt ≤ L.infoAt) ∨ (L.infoAt + 12 ≤ L.infoAt + 28 ∧ L.stringsAt ≤ L.stringsAt) :=
    .inr ⟨by omega, Nat.le_refl _⟩
  have hL' := layout_elsewhere hE hL hw
  refine nothing_seen (P := LnkFile.process env cp allow b) (g := id) (g' := replaced env cp b' L)
    (by rw [hs]; exact not_nil hL) (by rw [hs']; exact not_nil hL') (by rw [hs]; exact (bind_pure _).symm)
    (by rw [hs']; exact process_elsewhere env cp allow hE hL hw) fun f hfr => ?_
  obtain ⟨L₁, l, last, h1, -, hP, -⟩ := LnkFile.parts_tame ht hfr
  rw [hL] at h1
  cases h1
  refine ⟨rfl, rfl, rfl, Hidden.target_same hE (by omega) hP fun _ => by rw [hE.slice (.inl (by omega))], ?_, rfl⟩
  have hk' : infoLocation b' L.infoAt = some kind := by
    rw [← hk]
    unfold infoLocation
    rw [hE.uAt (.inl (by omega))]
  have hinf := hP.info
  cases ha : infoAnnounced L.flags with
  | false =>
    rw [ha] at hinf
    have hg : (replaced env cp b' L f).info = none := by
      unfold replaced
      simp [ha]
    change LnkFile.jsonInfo _ = f.jsonInfo
    unfold LnkFile.jsonInfo
    rw [hg, show f.info = none from hinf]
  | true =>
    rw [ha] at hinf
    refine Gaps.info_gap (TextProc.mk' env cp) (i := b.drop L.infoAt) (i' := b'.drop L.infoAt) (by simp [hlen]) (kind := kind)
      (fun r hr => List.ext_getElem? fun k => ?_) f _ (by rw [hinf]; simp [hk]) (by unfold replaced; simp [ha, hk'])
    unfold slice
    rw [List.getElem?_take, List.getElem?_take]
    split
    · rw [List.getElem?_drop, List.getElem?_drop, List.getElem?_drop, List.getElem?_drop]
      rcases hd (L.infoAt + (r.1 + k)) with h | ⟨-, -, h⟩
      · exact h
      · have := h r hr
        omega
    · rfl

private theorem block_cut {n s : Nat} {x : Bytes} (h1 : n < 2 ^ 32) (h2 : s < 2 ^ 32) (hn : n = 8 + x.length) :
    Cut (le 4 n ++ le 4 s ++ x) [⟨n, le 4 n ++ le 4 s ++ x, some s⟩] [] := by
  have hl : (le 4 n ++ le 4 s ++ x).length = n := by simp [hn]; omega
  have u0 : uAt 4 (le 4 n ++ le 4 s ++ x) 0 = some n := by
    rw [List.append_assoc]
    exact ExtraData.uAt_le4 n h1 _
  have u4 : uAt 4 (le 4 n ++ le 4 s ++ x) 4 = some s := by
    have := uAt_le (n := 4) (v := s) (by omega) (le 4 n) x
    rwa [show (le 4 n).length = 4 by simp] at this
  have := Cut.block (b := le 4 n ++ le 4 s ++ x) u0 (by omega) (.stop (b := List.drop n (le 4 n ++ le 4 s ++ x)) (.inl (by
    rw [List.drop_of_length_le (by omega)]
    decide)))
  rwa [List.drop_of_length_le (by omega), List.take_of_length_le (by omega), u4] at this

private def withBlock (env : Env) (cp : Option String) (n s : Nat) (x z : Bytes) (a : LnkFile × ExtraData × Nat) : LnkFile :=
  joined (le 4 n ++ le 4 s ++ x ++ z) a.1 ⟨bareHeader ++ (le 4 n ++ le 4 s ++ x ++ z), ⟨bareHeader⟩, 78, none, none,
    ⟨[], 0⟩, ⟨⟨extraKind s, TextProc.mk' env cp, le 4 n ++ le 4 s ++ x⟩ :: a.2.1.data⟩,
    76 + (n + a.2.2) + min (n + z.length - (n + a.2.2)) 4⟩

theorem block_seen (env : Env) (cp : Option String) (allow : Bool) (ht : Tame (TextProc.mk' env cp)) (b : Bytes) (L : Layout)
    (l : List Piece) (hO : OpenEnd b L l) (n s : Nat) (x x' z : Bytes) (hn : n = 8 + x.length) (hn' : n < 2 ^ 32) (hsm : s < 2 ^ 32)
    (hr : x.length = x'.length)
    (hb : Extra.asDict ⟨extraKind s, TextProc.mk' env cp, le 4 n ++ le 4 s ++ x⟩ = Extra.asDict ⟨extraKind s, TextProc.mk' env cp, le 4 n ++ le 4 s ++ x'⟩)
    (src src' : Source) (hs : src.bytes = b ++ (le 4 n ++ le 4 s ++ x ++ z)) (hs' : src'.bytes = b ++ (le 4 n ++ le 4 s ++ x' ++ z)) :
    NothingSeen env cp allow src src' := by
  have hne : b ≠ [] := not_nil hO.layout
  have key : ∀ y : Bytes, n = 8 + y.length → LnkFile.process env cp allow (b ++ (le 4 n ++ le 4 s ++ y ++ z)) = (do
      let a ← (do
        let f ← LnkFile.process env cp allow b
        let k ← OpenEnd.read (TextProc.mk' env cp) allow z
        pure (f, k))
      pure (withBlock env cp n s y z a)) := by
    intro y hy
    have hl : (le 4 n ++ le 4 s ++ y).length = n := by simp; omega
    rw [process_join env cp allow ht hO, process_bare, (read_append (block_cut hn' hsm hy) (by simp; omega)).2]
    simp only [bind_assoc, pure_bind, hl, List.length_append (as := le 4 n ++ le 4 s ++ y)]
    rfl
  refine nothing_seen (g := withBlock env cp n s x z) (g' := withBlock env cp n s x' z) (by rw [hs]; simp [hne]) (by rw [hs']; simp [hne])
    (by rw [hs]; exact key x hn) (by rw [hs']; exact key x' (by omega)) fun a ha => ?_
  obtain ⟨f, hfr, ha⟩ := bind_ok_iff.1 ha
  obtain ⟨k, -, ha⟩ := bind_ok_iff.1 ha
  obtain rfl := Except.ok.inj ha
  obtain ⟨L₁, l₁, last, h1, h2, hP, -⟩ := LnkFile.parts_tame ht hfr
  rw [hO.layout] at h1
  cases h1
  obtain ⟨rfl, rfl⟩ := cut_unique hO.cut h2
  have hS := fun t => Trailer.sections_more hO.layout hO.there hO.strings hO.info t hP
  refine ⟨rfl, rfl, rfl, (hS _).1.trans (hS _).1.symm, (hS _).2.trans (hS _).2.symm, ?_⟩
  have hX : ∀ y, (withBlock env cp n s y z (f, k)).extras.asDict = (do
      let a ← f.extras.asDict
      let d ← ExtraData.asDict ⟨⟨extraKind s, TextProc.mk' env cp, le 4 n ++ le 4 s ++ y⟩ :: k.1.data⟩
      pure (mergeBlocks a d)) := fun y => asDict_append f.extras.data _
  rw [hX, hX]
  congr 1; funext _
  congr 1
  unfold ExtraData.asDict
  dsimp only
  rw [loop_cons, loop_cons, hb]
  rfl

/-- C95: behind the fields of a block, up to the end that its size gives, any bytes can stand. -/
theorem behind_block_fields (env : Env) (cp : Option String) (allow : Bool) (ht : Tame (TextProc.mk' env cp)) (b : Bytes) (L : Layout)
    (l : List Piece) (hO : OpenEnd b L l) (n s e : Nat) (hf : (s, e) ∈ fieldsEnd) (x r r' z : Bytes) (he : e ≤ 8 + x.length)
    (hn : n = 8 + x.length + r.length) (hn' : n < 2 ^ 32) (hr : r.length = r'.length) (src src' : Source)
    (hs : src.bytes = b ++ (le 4 n ++ le 4 s ++ (x ++ r) ++ z)) (hs' : src'.bytes = b ++ (le 4 n ++ le 4 s ++ (x ++ r') ++ z)) :
    NothingSeen env cp allow src src' := by
  have hsm : s < 2 ^ 32 := by
    simp only [fieldsEnd, List.mem_cons, Prod.mk.injEq, List.not_mem_nil, or_false] at hf
    omega
  have hq : e ≤ (le 4 n ++ le 4 s ++ x).length := by simp; omega
  have hb := block_tail (TextProc.mk' env cp) hf (r := r) (r' := r') hq
  rw [List.append_assoc (le 4 n ++ le 4 s), List.append_assoc (le 4 n ++ le 4 s)] at hb
  exact block_seen env cp allow ht b L l hO n s (x ++ r) (x ++ r') z (by rw [List.length_append]; omega) hn' hsm (by simp [hr]) hb src src' hs hs'

/-- C95: everywhere in a block, behind the texts in its fields and between its fields, bytes that belong to nothing that is reported can be
anything. -/
theorem block_gaps (env : Env) (cp : Option String) (allow : Bool) (ht : Tame (TextProc.mk' env cp)) (b : Bytes) (L : Layout)
    (l : List Piece) (hO : OpenEnd b L l) (n s : Nat) (x x' z : Bytes) (hn : n = 8 + x.length) (hn' : n < 2 ^ 32) (hsm : s < 2 ^ 32)
    (hr : x.length = x'.length)
    (hd : ∀ k, x[k]? = x'[k]? ∨ ∀ r ∈ blockUsed s (le 4 n ++ le 4 s ++ x), 8 + k < r.1 ∨ r.2 ≤ 8 + k) (src src' : Source)
    (hs : src.bytes = b ++ (le 4 n ++ le 4 s ++ x ++ z)) (hs' : src'.bytes = b ++ (le 4 n ++ le 4 s ++ x' ++ z)) :
    NothingSeen env cp allow src src' := by
  refine block_seen env cp allow ht b L l hO n s x x' z hn hn' hsm hr (Gaps.block_gap _ s (by simp [hr]) fun r hr => ?_).symm src src' hs hs'
  have h8 : (le 4 n ++ le 4 s).length = 8 := by simp
  refine List.ext_getElem? fun k => ?_
  unfold slice
  rw [List.getElem?_take, List.getElem?_take]
  split
  · rw [List.getElem?_drop, List.getElem?_drop]
    by_cases hk : r.1 + k < 8
    · rw [List.getElem?_append_left (l₂ := x) (by omega), List.getElem?_append_left (l₂ := x') (by omega)]
    · rw [List.getElem?_append_right (l₂ := x) (by omega), List.getElem?_append_right (l₂ := x') (by omega), h8]
      rcases hd (r.1 + k - 8) with h | h
      · exact h
      · have := h r hr
        omega
  · rfl

/-! ### examples -/

/-- A header of 100 bytes, 24 of them behind its fields. -/
example (env : Env) (r' : Bytes) (h : r'.length = 24) :
    NothingSeen env none true (.indata (le 4 100 ++ bareHeader.drop 4 ++ List.replicate 24 0 ++ le 4 0))
      (.indata (le 4 100 ++ bareHeader.drop 4 ++ r' ++ le 4 0)) :=
  behind_header env none true (le 4 100 ++ bareHeader.drop 4) (List.replicate 24 0) r' (le 4 0) ⟨100, 0, 100, 100, 100⟩
    (by decide +kernel) (by decide +kernel) (by decide +kernel) (by rw [h]; rfl) _ _ rfl rfl

/-- A header that announces an ID list, the list with its size, one item and its terminal id. -/
def paddedList : Bytes := le 4 76 ++ shellLinkCLSID.encode ++ le 4 1 ++ List.replicate 52 0 ++ le 2 12 ++ ([0x99, 1].flatMap fun c => itemBytes [c]) ++ [0, 0]

/-- Four bytes behind the terminal id that the size of the list counts. -/
example (env : Env) (r' : Bytes) (h : r'.length = 4) :
    NothingSeen env none false (.indata (paddedList ++ [0, 0, 0, 0] ++ le 4 0)) (.indata (paddedList ++ r' ++ le 4 0)) :=
  behind_id_list env none false (tame_usable (usable_default env)) paddedList [0, 0, 0, 0] r' (le 4 0) ⟨76, 1, 90, 90, 90⟩ [[0x99], [1]]
    (by decide +kernel) ⟨by decide +kernel, by decide, by decide⟩ (by decide +kernel) h.symm _ _ rfl rfl

/-- A header that announces a link info, and the link info of a local target: its header, a VolumeID, two texts. -/
def paddedInfo : Bytes := le 4 76 ++ shellLinkCLSID.encode ++ le 4 2 ++ List.replicate 52 0 ++
  (le 4 60 ++ le 4 28 ++ le 4 1 ++ le 4 28 ++ le 4 46 ++ le 4 0 ++ le 4 48) ++ (le 4 18 ++ le 4 3 ++ le 4 7 ++ le 4 16 ++ [0x64, 0]) ++
  [0x61, 0] ++ [0x62, 0]

/-- Ten bytes behind the texts that the size of the link info counts. -/
example (env : Env) (r' : Bytes) (h : r'.length = 10) :
    NothingSeen env none false (.indata (paddedInfo ++ List.replicate 10 0 ++ le 4 0)) (.indata (paddedInfo ++ r' ++ le 4 0)) := by
  refine behind_link_info env none false (tame_usable (usable_default env)) paddedInfo (List.replicate 10 0) r' (le 4 0) ⟨76, 2, 76, 136, 136⟩
    "Local" (by decide +kernel) (by decide +kernel) ?_ (by decide +kernel) (by rw [h]; rfl) _ _ rfl rfl
  unfold InfoComplete VolumeComplete NarrowEnds
  refine ⟨by decide +kernel, fun _ => by decide +kernel, fun _ => by decide +kernel, fun h => ?_, ?_⟩
  · exact absurd h (by decide +kernel)
  · rw [if_pos rfl]
    refine ⟨by decide +kernel, ?_⟩
    rw [if_neg (by decide +kernel)]
    decide +kernel

/-- A header that announces a link info, and the link info up to the end of its VolumeID; it goes on behind four bytes with a text, and behind
six more with another one. -/
def gappedInfo (r r' : Bytes) : Bytes := (le 4 76 ++ shellLinkCLSID.encode ++ le 4 2 ++ List.replicate 52 0 ++
  (le 4 60 ++ le 4 28 ++ le 4 1 ++ le 4 28 ++ le 4 50 ++ le 4 0 ++ le 4 58) ++ (le 4 18 ++ le 4 3 ++ le 4 7 ++ le 4 16 ++ [0x64, 0])) ++
  (r ++ ([0x61, 0] ++ (r' ++ ([0x62, 0] ++ le 4 0))))

/-- The four and the six bytes between the texts of a link info. -/
example (env : Env) (r r' : Bytes) (h : r.length = 4) (h' : r'.length = 6) :
    NothingSeen env none false (.indata (gappedInfo [0, 0, 0, 0] [0, 0, 0, 0, 0, 0])) (.indata (gappedInfo r r')) := by
  have hu : infoUsed ((gappedInfo [0, 0, 0, 0] [0, 0, 0, 0, 0, 0]).drop 76) "Local" = [(0, 28), (50, 52), (58, 60), (28, 44), (44, 46)] := by
    decide +kernel
  refine link_info_gaps env none false (tame_usable (usable_default env)) (gappedInfo [0, 0, 0, 0] [0, 0, 0, 0, 0, 0])
    (gappedInfo r r') ⟨76, 2, 76, 136, 136⟩ "Local" (by decide +kernel)
    (by decide +kernel) (by unfold gappedInfo; simp only [List.length_append, h, h']; rfl) (fun k => ?_) _ _ rfl rfl
  dsimp only
  rw [hu]
  unfold gappedInfo
  generalize hx : le 4 76 ++ shellLinkCLSID.encode ++ le 4 2 ++ List.replicate 52 0 ++
    (le 4 60 ++ le 4 28 ++ le 4 1 ++ le 4 28 ++ le 4 50 ++ le 4 0 ++ le 4 58) ++ (le 4 18 ++ le 4 3 ++ le 4 7 ++ le 4 16 ++ [0x64, 0]) = x
  have hl : x.length = 122 := by rw [← hx]; decide +kernel
  by_cases h1 : k < 122
  · left
    rw [List.getElem?_append_left (by omega), List.getElem?_append_left (by omega)]
  by_cases h2 : k < 126
  · right
    simp only [List.mem_cons, List.not_mem_nil, or_false, forall_eq_or_imp, forall_eq]
    omega
  by_cases h3 : 128 ≤ k ∧ k < 134
  · right
    simp only [List.mem_cons, List.not_mem_nil, or_false, forall_eq_or_imp, forall_eq]
    omega
  left
  have key : ∀ y y' : Bytes, y.length = 4 → y'.length = 6 → (x ++ (y ++ ([0x61, 0] ++ (y' ++ ([0x62, 0] ++ le 4 0)))))[k]? =
      if k < 128 then ([0x61, 0] : Bytes)[k - 126]? else ([0x62, 0] ++ le 4 0)[k - 134]? := by
    intro y y' hy hy'
    rw [List.getElem?_append_right (by omega), hl, List.getElem?_append_right (by omega), hy]
    have h61 : ([0x61, 0] : Bytes).length = 2 := rfl
    split
    · rw [List.getElem?_append_left (by omega), show k - 122 - 4 = k - 126 by omega]
    · rw [List.getElem?_append_right (by omega), h61, List.getElem?_append_right (by omega), hy', show k - 122 - 4 - 2 - 6 = k - 134 by omega]
  exact (key _ _ rfl rfl).trans (key r r' h h').symm

/-- Any bytes in a block that names a code page, with another block of that kind in front of it and a terminal block behind it. -/
example (env : Env) (r r' : Bytes) (h : r.length = 1000) (h' : r'.length = 1000) :
    NothingSeen env none false (.fhandle (oneBlock ++ (le 4 1012 ++ le 4 0xA0000004 ++ (le 4 437 ++ r) ++ le 4 0)))
      (.fhandle (oneBlock ++ (le 4 1012 ++ le 4 0xA0000004 ++ (le 4 437 ++ r') ++ le 4 0))) :=
  behind_block_fields env none false (tame_usable (usable_default env)) oneBlock _ _ oneBlock_open 1012 0xA0000004 12 (by decide)
    (le 4 437) r r' (le 4 0) (by decide) (by rw [h]; rfl) (by decide) (h.trans h'.symm) _ _ rfl rfl

/-- A block with a path whose first field holds "a" and 258 more bytes behind its zero, and whose second field holds no text. -/
def pathBlock (r : Bytes) : Bytes := [0x61, 0] ++ (r ++ List.replicate 520 0)

/-- The 258 bytes. -/
example (env : Env) (r : Bytes) (h : r.length = 258) :
    NothingSeen env none false (.fhandle (oneBlock ++ (le 4 788 ++ le 4 0xA0000001 ++ pathBlock (List.replicate 258 0) ++ le 4 0)))
      (.fhandle (oneBlock ++ (le 4 788 ++ le 4 0xA0000001 ++ pathBlock r ++ le 4 0))) := by
  have hu : blockUsed 0xA0000001 (le 4 788 ++ le 4 0xA0000001 ++ pathBlock (List.replicate 258 0)) = [(0, 8), (8, 10), (268, 270)] := by
    decide +kernel
  refine block_gaps env none false (tame_usable (usable_default env)) oneBlock _ _ oneBlock_open 788 0xA0000001
    (pathBlock (List.replicate 258 0)) (pathBlock r) (le 4 0) (by decide +kernel) (by decide) (by decide)
    (by unfold pathBlock; simp only [List.length_append, List.length_replicate, h]) (fun k => ?_) _ _ rfl rfl
  rw [hu]
  unfold pathBlock
  by_cases h1 : 2 ≤ k ∧ k < 260
  · right
    simp only [List.mem_cons, List.not_mem_nil, or_false, forall_eq_or_imp, forall_eq]
    omega
  left
  have h61 : ([0x61, 0] : Bytes).length = 2 := rfl
  have hz : (List.replicate 258 (0 : UInt8)).length = 258 := List.length_replicate
  generalize List.replicate 258 (0 : UInt8) = y at hz
  by_cases h2 : k < 2
  · rw [List.getElem?_append_left (by omega), List.getElem?_append_left (by omega)]
  · have key : ∀ y : Bytes, y.length = 258 → ([0x61, 0] ++ (y ++ List.replicate 520 0))[k]? = (List.replicate 520 (0 : UInt8))[k - 2 - 258]? := by
      intro y hy
      rw [List.getElem?_append_right (by omega), h61, List.getElem?_append_right (by omega), hy]
    rw [key y hz, key r h]

end Verif.Props
