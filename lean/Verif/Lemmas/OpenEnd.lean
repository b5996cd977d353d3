import Verif.Spec.OpenEnd
import Verif.Lemmas.Trailer

/-
More bytes behind a file without terminal block.
-/

namespace Verif

open Spec Py

namespace OpenEnd

/-! ### dictionaries of blocks -/

/-- No key occurs twice, and what is said of unknown blocks is a list. -/
def Neat (d : Dict) : Prop := d.keys.Nodup ∧ ∀ v, d.get? "UNKNOWN_BLOCK" = some v → ∃ l, v = .list l

theorem set_left {a : Dict} {k : String} {v : PyVal} (d : Dict) (h : (a.get? k).isSome) : Dict.set (a ++ d) k v = a.set k v ++ d := by
  induction a with
  | nil => cases h
  | cons p a ih =>
    obtain ⟨k', w⟩ := p
    rw [List.cons_append, Dict.set, Dict.set]
    by_cases hk : k' = k
    · rw [if_pos hk, if_pos hk]
      rfl
    · rw [if_neg hk, if_neg hk, ih (by rwa [Dict.get?, if_neg hk] at h)]
      rfl

theorem set_right {a : Dict} {k : String} {v : PyVal} (d : Dict) (h : a.get? k = none) : Dict.set (a ++ d) k v = a ++ d.set k v := by
  induction a with
  | nil => rfl
  | cons p a ih =>
    obtain ⟨k', w⟩ := p
    by_cases hk : k' = k
    · rw [Dict.get?, if_pos hk] at h
      cases h
    · rw [Dict.get?, if_neg hk] at h
      rw [List.cons_append, Dict.set, if_neg hk, ih h]
      rfl

theorem filter_set_out {d : Dict} {k : String} {v : PyVal} (p : String → Bool) (h : p k = false) :
    (d.set k v).filter (fun kv => p kv.1) = d.filter fun kv => p kv.1 := by
  induction d with
  | nil => simp [Dict.set, h]
  | cons q d ih =>
    obtain ⟨k', w⟩ := q
    rw [Dict.set]
    by_cases hk : k' = k
    · subst hk
      simp [h]
    · rw [if_neg hk, List.filter_cons, List.filter_cons, ih]

theorem filter_set_in {d : Dict} {k : String} {v : PyVal} (p : String → Bool) (h : p k = true) :
    (d.set k v).filter (fun kv => p kv.1) = Dict.set (d.filter fun kv => p kv.1) k v := by
  induction d with
  | nil => simp [Dict.set, h]
  | cons q d ih =>
    obtain ⟨k', w⟩ := q
    rw [Dict.set]
    by_cases hk : k' = k
    · subst hk
      simp [h, Dict.set]
    · rw [if_neg hk, List.filter_cons, List.filter_cons, ih]
      dsimp only
      split
      · rw [Dict.set, if_neg hk]
      · rfl

/-- What becomes of an entry. -/
def entry (d : Dict) (kv : String × PyVal) : String × PyVal :=
  match d.lookup kv.1 with
  | none => kv
  | some v => (kv.1, if kv.1 = "UNKNOWN_BLOCK" then together kv.2 v else v)

theorem merge_eq (a d : Dict) : mergeBlocks a d = a.map (entry d) ++ d.filter fun kv => (a.lookup kv.1).isNone := rfl

theorem entry_key (d : Dict) (kv : String × PyVal) : (entry d kv).1 = kv.1 := by
  unfold entry
  split <;> rfl

theorem get?_entries (a d : Dict) (k : String) : Dict.get? (a.map (entry d)) k = (a.get? k).map fun w => (entry d (k, w)).2 := by
  induction a with
  | nil => rfl
  | cons p a ih =>
    obtain ⟨k', w⟩ := p
    rw [List.map_cons, show entry d (k', w) = (k', (entry d (k', w)).2) from Prod.ext (entry_key d _) rfl, Dict.get?, Dict.get?]
    by_cases hk : k' = k
    · subst hk
      rw [if_pos rfl, if_pos rfl]
      rfl
    · rw [if_neg hk, if_neg hk, ih]

/-- What an entry of the second dictionary becomes. -/
def combined (a : Dict) (k : String) (v : PyVal) : PyVal :=
  match a.get? k with
  | none => v
  | some w => if k = "UNKNOWN_BLOCK" then together w v else v

theorem entries_absent (a d : Dict) (k : String) (v : PyVal) (h : a.get? k = none) : a.map (entry (d.set k v)) = a.map (entry d) := by
  refine List.map_congr_left fun p hp => ?_
  have hk : p.1 ≠ k := by
    rintro rfl
    have := (Dict.get?_none_iff a p.1).1 h
    exact this (List.mem_map_of_mem hp)
  unfold entry
  rw [← Dict.get?_eq_lookup, ← Dict.get?_eq_lookup, Dict.get?_set, if_neg (Ne.symm hk)]

theorem entries_present (a d : Dict) (k : String) (v w : PyVal) (hn : a.keys.Nodup) (h : a.get? k = some w) :
    a.map (entry (d.set k v)) = Dict.set (a.map (entry d)) k (if k = "UNKNOWN_BLOCK" then together w v else v) := by
  induction a with
  | nil => cases h
  | cons p a ih =>
    obtain ⟨k', w'⟩ := p
    rw [Dict.keys, List.map_cons, List.nodup_cons] at hn
    rw [List.map_cons, List.map_cons, show entry d (k', w') = (k', (entry d (k', w')).2) from Prod.ext (entry_key d _) rfl, Dict.set]
    by_cases hk : k' = k
    · subst hk
      rw [Dict.get?, if_pos rfl] at h
      cases h
      rw [if_pos rfl, entries_absent a d k' v ((Dict.get?_none_iff a k').2 hn.1)]
      congr 1
      unfold entry
      rw [← Dict.get?_eq_lookup, Dict.get?_set, if_pos rfl]
    · rw [Dict.get?, if_neg hk] at h
      rw [if_neg hk, ih hn.2 h]
      congr 1
      rw [← show entry d (k', w') = (k', (entry d (k', w')).2) from Prod.ext (entry_key d _) rfl]
      unfold entry
      rw [← Dict.get?_eq_lookup, ← Dict.get?_eq_lookup, Dict.get?_set, if_neg (Ne.symm hk)]

theorem merge_set (a d : Dict) (k : String) (v : PyVal) (hn : a.keys.Nodup) :
    mergeBlocks a (d.set k v) = Dict.set (mergeBlocks a d) k (combined a k v) := by
  rw [merge_eq, merge_eq]
  unfold combined
  rcases h : a.get? k with _ | w
  · have h' : a.lookup k = none := by rw [← Dict.get?_eq_lookup, h]
    rw [entries_absent a d k v h, filter_set_in (fun k => (a.lookup k).isNone) (by rw [h']; rfl), set_right]
    rw [get?_entries, h]
    rfl
  · have h' : a.lookup k = some w := by rw [← Dict.get?_eq_lookup, h]
    rw [entries_present a d k v w hn h, filter_set_out (fun k => (a.lookup k).isNone) (by rw [h']; rfl), set_left]
    rw [get?_entries, h]
    rfl

theorem get?_merge (a d : Dict) (k : String) : Dict.get? (mergeBlocks a d) k = match d.get? k with
    | none => a.get? k
    | some v => some (combined a k v) := by
  have hf : Dict.get? (d.filter fun kv => (a.lookup kv.1).isNone) k = if (a.lookup k).isNone then d.get? k else none := by
    induction d with
    | nil => simp [Dict.get?]
    | cons p d ih =>
      obtain ⟨k', w⟩ := p
      rw [List.filter_cons]
      by_cases hk : k' = k
      · subst hk
        cases ha : a.lookup k' with
        | none => simp [Dict.get?]
        | some x =>
          rw [ha] at ih
          simpa using ih
      · rw [Dict.get?, if_neg hk, ← ih]
        split
        · rw [Dict.get?, if_neg hk]
        · rfl
  rw [merge_eq, Dict.get?_append, get?_entries, hf, ← Dict.get?_eq_lookup]
  unfold combined entry
  simp only [← Dict.get?_eq_lookup]
  cases a.get? k <;> cases d.get? k <;> rfl

theorem set_same {d : Dict} {k : String} {v : PyVal} (h : d.get? k = some v) : d.set k v = d := by
  induction d with
  | nil => cases h
  | cons p d ih =>
    obtain ⟨k', w⟩ := p
    rw [Dict.set]
    by_cases hk : k' = k
    · subst hk
      rw [Dict.get?, if_pos rfl] at h
      cases h
      rw [if_pos rfl]
    · rw [Dict.get?, if_neg hk] at h
      rw [if_neg hk, ih h]

theorem neat_set {d : Dict} (h : Neat d) (k : String) (v : PyVal) (hv : k = "UNKNOWN_BLOCK" → ∃ l, v = .list l) : Neat (d.set k v) := by
  refine ⟨Dict.nodup_set h.1 k v, fun w hw => ?_⟩
  rw [Dict.get?_set] at hw
  split at hw
  · cases hw
    rename_i hk
    exact hv hk
  · exact h.2 w hw

/-- What the loop first does for a block of an unknown kind. -/
def listed (x : Extra) (res : Dict) : Dict :=
  if x.cls = .unknown ∧ ¬ res.has x.cls.name then res.set x.cls.name (.list []) else res

theorem listed_neat {x : Extra} {res : Dict} (h : Neat res) : Neat (listed x res) := by
  unfold listed
  split
  · exact neat_set h _ _ fun _ => ⟨_, rfl⟩
  · exact h

theorem name_unknown {x : Extra} : x.cls.name = "UNKNOWN_BLOCK" ↔ x.cls = .unknown := by
  cases x.cls <;> decide

/-- With a block that could be read. -/
def added (x : Extra) (res : Dict) (d : Dict) : Dict :=
  if x.cls = .unknown then res.set x.cls.name (.list (ExtraData.listAt res x.cls.name ++ [.dict d])) else res.set x.cls.name (.dict d)

theorem added_neat {x : Extra} {res d : Dict} (h : Neat res) : Neat (added x res d) := by
  unfold added
  split
  · exact neat_set h _ _ fun _ => ⟨_, rfl⟩
  · rename_i hx
    exact neat_set h _ _ fun hk => absurd (name_unknown.1 hk) hx

theorem loop_cons (x : Extra) (xs : List Extra) (res : Dict) : ExtraData.asDictLoop (x :: xs) res = (do
    let r ← Py.attempt x.asDict (fun e => e = .structError ∨ e.isValueError)
    match r with
    | .error e => do
      Py.warn (.extraBlock x.cls.name e)
      ExtraData.asDictLoop xs (listed x res)
    | .ok d => ExtraData.asDictLoop xs (added x (listed x res) d)) := by
  rw [ExtraData.asDictLoop]
  unfold added listed
  congr 1
  funext r
  cases r with
  | error e => rfl
  | ok d => dsimp only; split <;> rfl

theorem loop_neat {xs : List Extra} {res E : Dict} (h : Neat res) (hE : (ExtraData.asDictLoop xs res).res = .ok E) : Neat E := by
  induction xs generalizing res with
  | nil =>
    cases hE
    exact h
  | cons x xs ih =>
    rw [loop_cons] at hE
    obtain ⟨r, -, hE⟩ := bind_ok_iff.1 hE
    cases r with
    | error e =>
      obtain ⟨_, -, hE⟩ := bind_ok_iff.1 hE
      exact ih (listed_neat h) hE
    | ok d => exact ih (added_neat (listed_neat h)) hE

theorem loop_append (xs ys : List Extra) (res : Dict) : ExtraData.asDictLoop (xs ++ ys) res = (do
    let a ← ExtraData.asDictLoop xs res
    ExtraData.asDictLoop ys a) := by
  induction xs generalizing res with
  | nil => simp only [List.nil_append, ExtraData.asDictLoop, pure_bind]
  | cons x xs ih =>
    rw [List.cons_append, loop_cons, loop_cons, bind_assoc]
    congr 1
    funext r
    cases r with
    | error e => simp only [ih, bind_assoc]
    | ok d => simp only [ih]

theorem merge_listed {a res : Dict} (ha : Neat a) (x : Extra) : listed x (mergeBlocks a res) = mergeBlocks a (listed x res) := by
  unfold listed
  by_cases hx : x.cls = .unknown
  swap
  · simp only [hx, false_and, if_false]
  have hu : x.cls.name = "UNKNOWN_BLOCK" := name_unknown.2 hx
  simp only [hx, true_and, Dict.has, get?_merge]
  rw [← hx, hu]
  rcases h : res.get? "UNKNOWN_BLOCK" with _ | v
  · simp only [Option.isSome_none, Bool.false_eq_true, not_false_eq_true, if_true]
    rw [merge_set _ _ _ _ ha.1]
    unfold combined
    rcases h2 : a.get? "UNKNOWN_BLOCK" with _ | w
    · simp
    · obtain ⟨l, rfl⟩ := ha.2 w h2
      simp only [Option.isSome_some, not_true_eq_false, if_false, if_true, together, List.append_nil]
      rw [set_same]
      rw [get?_merge, h, h2]
  · simp

theorem merge_added {a res : Dict} (ha : Neat a) (hr : Neat res) (x : Extra) (hx : x.cls = .unknown → (res.get? "UNKNOWN_BLOCK").isSome)
    (d : Dict) : added x (mergeBlocks a res) d = mergeBlocks a (added x res d) := by
  unfold added
  by_cases hx' : x.cls = .unknown
  · have hu : x.cls.name = "UNKNOWN_BLOCK" := name_unknown.2 hx'
    rw [if_pos hx', if_pos hx', merge_set _ _ _ _ ha.1, hu]
    congr 1
    obtain ⟨v, hv⟩ := Option.isSome_iff_exists.1 (hx hx')
    obtain ⟨l, rfl⟩ := hr.2 v hv
    unfold ExtraData.listAt
    rw [get?_merge, hv]
    unfold combined
    rcases h2 : a.get? "UNKNOWN_BLOCK" with _ | w
    · rfl
    · obtain ⟨l', rfl⟩ := ha.2 w h2
      simp [together]
  · rw [if_neg hx', if_neg hx', merge_set _ _ _ _ ha.1]
    congr 1
    unfold combined
    split
    · rfl
    · rw [if_neg fun h => hx' (name_unknown.1 h)]

theorem loop_merge (ys : List Extra) {a res : Dict} (ha : Neat a) (hr : Neat res) : ExtraData.asDictLoop ys (mergeBlocks a res) = (do
    let d ← ExtraData.asDictLoop ys res
    pure (mergeBlocks a d)) := by
  induction ys generalizing res with
  | nil => simp only [ExtraData.asDictLoop, pure_bind]
  | cons x ys ih =>
    rw [loop_cons, loop_cons, bind_assoc]
    congr 1
    funext r
    have hl := listed_neat (x := x) hr
    cases r with
    | error e => simp only [merge_listed ha, ih hl, bind_assoc]
    | ok d =>
      simp only [merge_listed ha]
      rw [merge_added ha hl, ih (added_neat hl)]
      intro hx
      unfold listed
      have hu : x.cls.name = "UNKNOWN_BLOCK" := name_unknown.2 hx
      split
      · rw [hu, Dict.get?_set, if_pos rfl]
        rfl
      · rename_i hh
        simp only [hx, true_and, Dict.has, not_not] at hh
        rw [← hx, hu] at hh
        exact hh

theorem merge_nil (a : Dict) : mergeBlocks a [] = a := by
  rw [merge_eq, List.filter_nil, List.append_nil]
  conv_rhs => rw [← List.map_id a]
  exact List.map_congr_left fun _ _ => rfl

/-- The blocks of two stretches. -/
theorem asDict_append (xs ys : List Extra) : ExtraData.asDict ⟨xs ++ ys⟩ = (do
    let a ← ExtraData.asDict ⟨xs⟩
    let d ← ExtraData.asDict ⟨ys⟩
    pure (mergeBlocks a d)) := by
  unfold ExtraData.asDict
  rw [loop_append]
  have h0 : Neat [] := ⟨List.nodup_nil, fun v h => by cases h⟩
  refine bind_congr_ok fun a ha => ?_
  rw [← loop_merge ys (loop_neat h0 ha) h0, merge_nil]

/-! ### construction -/

theorem cut_append {b t : Bytes} {l l' : List Piece} {last : Bytes} (h : Cut b l []) (hw : ∀ p ∈ l, 8 ≤ p.declared ∧ p.bytes.length = p.declared)
    (h' : Cut t l' last) : Cut (b ++ t) (l ++ l') last ∧ (l.map Piece.declared).sum = b.length ∧ ∀ p ∈ l, p.signature.isSome := by
  generalize hl0 : ([] : Bytes) = last0 at h
  induction h with
  | stop h =>
    subst hl0
    exact ⟨h', rfl, by simp⟩
  | @block b n l last0 h hn hl ih =>
    obtain ⟨h1, h2, h3⟩ := ih (fun p hp => hw p (List.mem_cons_of_mem _ hp)) hl0
    obtain ⟨h8, hlen⟩ := hw _ List.mem_cons_self
    dsimp only at h8 hlen
    rw [List.length_take] at hlen
    rw [List.length_drop] at h2
    obtain ⟨s, hs⟩ : ∃ s, uAt 4 b 4 = some s := ⟨_, uAt_eq_some_iff.2 ⟨by omega, rfl⟩⟩
    refine ⟨?_, ?_, ?_⟩
    · have := Cut.block (b := b ++ t) (Trailer.uAt_some_more t h) hn (by rw [List.drop_append_of_le_length (by omega)]; exact h1)
      rwa [List.take_append_of_le_length (by omega), Trailer.uAt_some_more t hs, ← hs] at this
    · rw [List.map_cons, List.sum_cons]
      dsimp only
      omega
    · intro p hp
      rcases List.mem_cons.1 hp with rfl | hp
      · dsimp only
        rw [hs]
        rfl
      · exact h3 p hp

/-- The object with more bytes, read as blocks, behind it. -/
def joined (t : Bytes) (f h : LnkFile) : LnkFile :=
  { Trailer.extended t f with
    extras := ⟨f.extras.data ++ h.extras.data⟩
    size := f.size + h.size - 76 }

theorem bare_layout (t : Bytes) : layout (bareHeader ++ t) = some ⟨76, 0, 76, 76, 76⟩ := by
  have h1 : uAt 4 (bareHeader ++ t) 0 = some 76 := Trailer.uAt_some_more t (by decide +kernel)
  have h2 : uAt 4 ((bareHeader ++ t).take 76) 20 = some 0 := by
    rw [List.take_append_of_le_length (by decide +kernel)]
    decide +kernel
  unfold layout
  rw [h1]
  dsimp only
  rw [h2]
  rfl

theorem bare_strings (tp : TextProc) (t : Bytes) : StringData.init ⟨bareHeader⟩ tp t = pure ⟨[], 0⟩ := by
  rfl

/-- The extra data, as objects and their number of bytes. -/
def read (tp : TextProc) (allow : Bool) (t : Bytes) : Py (ExtraData × Nat) := do
  let extras ← ExtraData.init tp allow t
  let n ← extras.size
  pure (extras, n)

theorem process_bare (env : Env) (cp : Option String) (allow : Bool) (t : Bytes) : LnkFile.process env cp allow (bareHeader ++ t) = (do
    let r ← read (TextProc.mk' env cp) allow t
    pure ⟨bareHeader ++ t, ⟨bareHeader⟩, 78, none, none, ⟨[], 0⟩, r.1, 76 + r.2 + min (t.length - r.2) 4⟩) := by
  obtain ⟨-, -, -, -, hp⟩ := LnkFile.process_rest env cp allow (bareHeader ++ t) _ (bare_layout t)
  have ht : (bareHeader ++ t).take 76 = bareHeader := List.take_left' (by decide +kernel)
  have hd : ∀ n, (bareHeader ++ t).drop (76 + n) = t.drop n := by
    intro n
    rw [← List.drop_drop, List.drop_left' (by decide +kernel)]
  rw [hp]
  unfold LnkFile.rest read
  dsimp only
  rw [ht, bare_strings]
  simp only [pure_bind, bind_assoc]
  rw [show unlessEqual "size" (.int 76) (.int 76) = [] from rfl, if_neg fun h => absurd h.1 (by decide)]
  have hu : ∀ (x : Py LnkFile), (do let _ ← (⟨[], .ok ()⟩ : Py Unit); x) = x := fun x => rfl
  rw [hu, hu, hu]
  simp only [Nat.add_zero, hd, List.length_drop]
  rw [List.drop_left' (by decide +kernel)]
  rfl

theorem read_append {tp : TextProc} {allow : Bool} {b t : Bytes} {l : List Piece} (h : Cut b l [])
    (hw : ∀ p ∈ l, 8 ≤ p.declared ∧ p.bytes.length = p.declared) :
    read tp allow b = pure (⟨ExtraData.objects tp l⟩, b.length) ∧
    read tp allow (b ++ t) = (do
      let r ← read tp allow t
      pure (⟨ExtraData.objects tp l ++ r.1.data⟩, b.length + r.2)) := by
  obtain ⟨l', last, ht⟩ := ExtraData.cut_exists t
  obtain ⟨h1, h2, h3⟩ := cut_append h hw ht
  have hs : ExtraData.signed l = l := List.filter_eq_self.2 h3
  have hc : ∀ r : List Piece, ∀ x : Bytes, ExtraData.cutWarns (l ++ r) x = ExtraData.cutWarns r x := by
    intro r x
    unfold ExtraData.cutWarns
    rw [List.filterMap_append]
    congr 1
    rw [List.filterMap_eq_nil_iff.2, List.nil_append]
    intro p hp
    obtain ⟨s, hs⟩ := Option.isSome_iff_exists.1 (h3 p hp)
    rw [hs]
    rfl
  have hall : ∀ p ∈ l, 4 ≤ p.declared := fun p hp => by have := (hw p hp).1; omega
  have hz : (if ∀ p ∈ ExtraData.signed (l ++ l'), 4 ≤ p.declared then
      (pure (((ExtraData.signed (l ++ l')).map Piece.declared).sum + if allow = true ∧ 4 < last.length then last.length else 0) : Py Nat)
      else Py.raise .structError) = (do
      let n ← (if ∀ p ∈ ExtraData.signed l', 4 ≤ p.declared then
        pure (((ExtraData.signed l').map Piece.declared).sum + if allow = true ∧ 4 < last.length then last.length else 0)
        else Py.raise .structError)
      pure (b.length + n)) := by
    have : ExtraData.signed (l ++ l') = l ++ ExtraData.signed l' := by
      unfold ExtraData.signed at hs ⊢
      rw [List.filter_append, hs]
    rw [this]
    by_cases hq : ∀ p ∈ ExtraData.signed l', 4 ≤ p.declared
    · rw [if_pos hq, if_pos, pure_bind, List.map_append, List.sum_append, h2, Nat.add_assoc]
      intro p hp
      rcases List.mem_append.1 hp with hp | hp
      · exact hall p hp
      · exact hq p hp
    · rw [if_neg hq, if_neg fun h => hq fun p hp => h p (List.mem_append_right _ hp)]
      rfl
  constructor
  · unfold read
    rw [ExtraData.init_cut h]
    have hz := ExtraData.size_cut (tp := tp) (allow := allow) h
    simp only [List.length_nil, Nat.not_lt_zero, and_false, if_false, List.append_nil, hs, if_pos hall, h2, Nat.add_zero] at hz ⊢
    rw [show ExtraData.cutWarns l [] = [] by rw [← List.append_nil l, hc]; rfl]
    show (do let n ← ExtraData.size _; pure (_, n)) = _
    rw [hz]
    rfl
  · have ho : ExtraData.objects tp (l ++ l') = ExtraData.objects tp l ++ ExtraData.objects tp l' := by
      unfold ExtraData.objects
      rw [List.filterMap_append]
    have e1 := ExtraData.size_cut (tp := tp) (allow := allow) h1
    have e2 := ExtraData.size_cut (tp := tp) (allow := allow) ht
    unfold read
    rw [ExtraData.init_cut h1, ExtraData.init_cut ht, hc]
    rw [hz, ← e2, ho, List.append_assoc] at e1
    rw [ho, List.append_assoc]
    have hu : ∀ {α β : Type} (w : List Warn) (a : α) (f : α → Py β),
        ((⟨w, .ok a⟩ : Py α) >>= f) = (⟨w, .ok ()⟩ : Py Unit) >>= fun _ => f a := fun _ _ _ => rfl
    rw [hu, hu _ _ fun extras : ExtraData => (do let n ← extras.size; pure (extras, n)), bind_assoc]
    congr 1
    funext _
    rw [e1]
    simp only [bind_assoc, pure_bind]

theorem process_join (env : Env) (cp : Option String) (allow : Bool) (ht : Log.Tame (TextProc.mk' env cp)) {b : Bytes} {L : Layout}
    {l : List Piece} (hO : OpenEnd b L l) (t : Bytes) :
    LnkFile.process env cp allow (b ++ t) = (do
      let f ← LnkFile.process env cp allow b
      let h ← LnkFile.process env cp allow (bareHeader ++ t)
      pure (joined t f h)) := by
  have hlen : L.extraAt ≤ b.length := hO.there
  obtain ⟨hL, o1, o2, o3, hloc⟩ := Trailer.layout_more t hO.layout hlen hO.strings fun h => (hO.info h).1
  obtain ⟨-, -, hfl, hex, hp⟩ := LnkFile.process_rest env cp allow b L hO.layout
  obtain ⟨-, -, -, -, hp'⟩ := LnkFile.process_rest env cp allow (b ++ t) L hL
  have hhead : (b ++ t).take L.headerSize = b.take L.headerSize := List.take_append_of_le_length (by omega)
  have hw : (if infoAnnounced L.flags = true ∧ uAt 4 (b ++ t) (L.infoAt + 8) = none then [Warn.infoClass] else []) =
      if infoAnnounced L.flags = true ∧ uAt 4 b (L.infoAt + 8) = none then [.infoClass] else [] := by
    cases ha : infoAnnounced L.flags with
    | false => simp
    | true => rw [Trailer.uAt_more t (by have := (hO.info ha).1; omega)]
  rw [hp, hp', hw, process_bare]
  simp only [bind_assoc]
  congr 1; funext _
  congr 1; funext _
  congr 1; funext _
  unfold LnkFile.rest
  simp only [bind_assoc, pure_bind]
  have hstr : StringData.init ⟨(b ++ t).take L.headerSize⟩ (TextProc.mk' env cp) ((b ++ t).drop L.stringsAt) =
      StringData.init ⟨b.take L.headerSize⟩ (TextProc.mk' env cp) (b.drop L.stringsAt) := by
    rw [hhead]
    refine Trailer.loop_more (h := ⟨b.take L.headerSize⟩) hfl _ b t L.stringsAt (Strings.fields ⟨none, none, none, none, none⟩) _
      (StringData.matches_fields _) [] 0 (by omega) ?_ hO.strings
    show stringsEnd L.flags b stringLimits (L.stringsAt + 0) ≤ _
    have : L.extraAt = stringsEnd L.flags b stringLimits (L.stringsAt + 0) := hex
    omega
  rw [hstr]
  refine bind_congr_ok fun sd hsd => ?_
  have h6 := ((StringData.init_logs (h := ⟨b.take L.headerSize⟩) hfl ht b L.stringsAt).2 sd hsd).1
  rw [← hex] at h6
  obtain ⟨hr1, hr2⟩ := read_append (tp := TextProc.mk' env cp) (allow := allow) (t := t) hO.cut hO.whole
  -- both ends of the extra data, as `read` gives them
  have hread : ∀ (x : Bytes) (k : ExtraData → Nat → Py LnkFile), (do
      let extras ← ExtraData.init (TextProc.mk' env cp) allow x
      let n ← extras.size
      k extras n) = (do
      let r ← read (TextProc.mk' env cp) allow x
      k r.1 r.2) := by
    intro x k
    unfold read
    simp only [bind_assoc, pure_bind]
  rw [h6, hread ((b ++ t).drop L.extraAt), hread (b.drop L.extraAt), hr1, List.drop_append_of_le_length (by omega), hr2]
  simp only [pure_bind, bind_assoc]
  congr 1
  funext r
  congr 1
  unfold joined Trailer.extended
  simp only [hhead, List.length_drop, List.length_append]
  congr 1
  · rw [apply_ite (Option.map _)]
    simp only [Option.map_some, Option.map_none]
    rw [List.drop_append_of_le_length (by omega), Trailer.slice_more t (by omega)]
  · rw [apply_ite (Option.map _)]
    cases ha : infoAnnounced L.flags with
    | false => simp
    | true =>
      rw [hloc ha, List.drop_append_of_le_length (by omega)]
      simp [Function.comp_def]
  · omega

/-! ### the report -/

/-- The fields of the bare header. -/
def bare : Header := ⟨76, shellLinkCLSID, 0, 0, 0, 0, 0, 0, 0, 0, 0, 0, 0, 0, 0⟩

theorem bare_encode : bare.encode = bareHeader := by decide +kernel

theorem bare_header (f : LnkFile) (hf : f.header = ⟨bareHeader⟩) : ∃ d, f.jsonHeader = pure d := by
  have hr : HeaderRaw bare f.header.raw := by
    rw [hf, ← bare_encode]
    exact fun _ _ _ => rfl
  have h0 : parseFiletime (leI 8 0) = pure none := by rfl
  unfold LnkFile.jsonHeader
  open LnkHeader in
  rw [linkClsId_enc hr, rLinkFlags_enc hr, linkFlags_enc hr, rFileFlags_enc hr, fileFlags_enc hr,
    creationTime_enc hr, accessTime_enc hr, writeTime_enc hr, fileSize_enc hr, iconIndex_enc hr,
    windowStyle_enc hr, hotKey_enc hr, rawHotKey_enc hr, size_enc hr, reserved0_enc hr, reserved1_enc hr,
    reserved2_enc hr]
  rw [show bare.creationTime.toInt = 0 from rfl, show bare.accessTime.toInt = 0 from rfl, show bare.writeTime.toInt = 0 from rfl, h0]
  rw [show checkWarns "link_cls_id" (.str shellLinkCLSID.text) (.str bare.linkCLSID.text) = [] from if_pos rfl,
    show checkWarns "size" (.int 0x4C) (.int bare.headerSize.toNat) = [] from if_pos rfl,
    show checkWarns "reserved0" (.int 0) (.int bare.reserved1.toNat) = [] from if_pos rfl,
    show checkWarns "reserved1" (.int 0) (.int bare.reserved2.toNat) = [] from if_pos rfl,
    show checkWarns "reserved2" (.int 0) (.int bare.reserved3.toNat) = [] from if_pos rfl]
  exact ⟨_, rfl⟩

/-- The report. -/
theorem report_join {env : Env} {cp : Option String} {allow : Bool} {b : Bytes} {L : Layout} {l : List Piece} (hO : OpenEnd b L l)
    (t : Bytes) {f h : LnkFile} (hP : LnkFile.Parts env cp allow b L l [] f) (hh : h.header = ⟨bareHeader⟩) (ht : h.targets = none)
    (hi : h.info = none) (hs : 76 ≤ h.size) (all : Bool) :
    (joined t f h).getJson all = (do
      let r ← f.getJson all
      let s ← h.getJson all
      pure (joinReports r s)) := by
  have hlen : L.extraAt ≤ b.length := hO.there
  obtain ⟨hT, hI⟩ := Trailer.sections_more hO.layout hlen hO.strings hO.info t hP
  obtain ⟨d, hd⟩ := bare_header h hh
  have hT' : h.jsonTarget = pure none := by unfold LnkFile.jsonTarget; rw [ht]
  have hI' : h.jsonInfo = pure [] := by unfold LnkFile.jsonInfo; rw [hi]
  have hE : (joined t f h).extras.asDict = (do
      let a ← f.extras.asDict
      let d ← h.extras.asDict
      pure (mergeBlocks a d)) := asDict_append f.extras.data h.extras.data
  have e1 : (joined t f h).jsonHeader = f.jsonHeader := rfl
  have e2 : (joined t f h).jsonTarget = (Trailer.extended t f).jsonTarget := rfl
  have e3 : (joined t f h).jsonInfo = (Trailer.extended t f).jsonInfo := rfl
  have hz : ((f.size + h.size - 76 : Nat) : Int) = (f.size : Int) + h.size - 76 := by omega
  unfold LnkFile.getJson
  rw [e1, e2, e3, hT, hI, hE, hd, hT', hI']
  simp only [bind_assoc, pure_bind]
  congr 1; funext hdr
  congr 1; funext tgt
  congr 1; funext inf
  congr 1; funext a
  congr 1; funext x
  congr 1
  show [("size", PyVal.int ((f.size + h.size - 76 : Nat) : Int)), ("header", _)] ++ _ ++ [("link_info", _), ("data", PyVal.dict f.stringData.asDict), ("extra", PyVal.dict (mergeBlocks a x))] = _
  rw [hz]
  cases tgt <;> rfl

end OpenEnd

end Verif
