import Verif.Spec.Schema
import Verif.Lemmas.Reduced
import Verif.Props.Guid
import Verif.Props.Values
import Verif.Props.PrintedLength
import Verif.Props.File

/-
C85: the report, full and reduced, follows a schema that does not depend on the file.
-/

namespace Verif.Props.Schema
open Spec Py Verif.Values Values Spec.Schema

/-! ### kinds of values -/

theorem nat1 {b : Bytes} {o : Nat} (v : PyVal) (h : NatAt 1 b o v) : word 8 v := by
  obtain ⟨k, hk, rfl⟩ := h
  exact ⟨k, uAt_lt hk, rfl⟩

theorem nat2 {b : Bytes} {o : Nat} (v : PyVal) (h : NatAt 2 b o v) : word 16 v := by
  obtain ⟨k, hk, rfl⟩ := h
  exact ⟨k, uAt_lt hk, rfl⟩

theorem nat4 {b : Bytes} {o : Nat} (v : PyVal) (h : NatAt 4 b o v) : word 32 v := by
  obtain ⟨k, hk, rfl⟩ := h
  exact ⟨k, uAt_lt hk, rfl⟩

theorem int2 {b : Bytes} {o : Nat} (v : PyVal) (h : IntAt 2 b o v) : signed 16 v := by
  obtain ⟨i, hi, rfl⟩ := h
  obtain ⟨k, hk, rfl⟩ := Option.map_eq_some_iff.1 hi
  have := uAt_lt hk
  refine ⟨_, ?_, ?_, rfl⟩ <;> split <;> norm_num at * <;> omega

theorem int4 {b : Bytes} {o : Nat} (v : PyVal) (h : IntAt 4 b o v) : signed 32 v := by
  obtain ⟨i, hi, rfl⟩ := h
  obtain ⟨k, hk, rfl⟩ := Option.map_eq_some_iff.1 hi
  have := uAt_lt hk
  refine ⟨_, ?_, ?_, rfl⟩ <;> split <;> norm_num at * <;> omega

theorem hex4 {b : Bytes} {o : Nat} (v : PyVal) (h : HexAt b o v) : hex 32 v := by
  obtain ⟨k, hk, rfl⟩ := h
  exact ⟨k, uAt_lt hk, rfl⟩

theorem guidAt {b : Bytes} {o : Nat} (v : PyVal) (h : GuidAt b o v) : guid v := by
  obtain ⟨g, -, rfl⟩ := h
  exact ⟨_, rfl, guid_shape g⟩

theorem is (s : String) (v : PyVal) (h : Is s v) : oneOf [s] v := ⟨s, List.mem_singleton.2 rfl, h⟩

theorem filetime {b : Bytes} {o : Nat} (v : PyVal) (h : FiletimeAt b o v) : orNull date v := by
  obtain ⟨t, -, -, ⟨h, -⟩ | ⟨d, h, -, -, hd, -⟩⟩ := h
  · exact .inl h
  · exact .inr ⟨d, h, hd⟩

theorem dostime {b : Bytes} {o : Nat} (v : PyVal) (h : DostimeAt b o v) : orNull dosDate v := by
  obtain ⟨x, t, hx, -, rfl⟩ := h
  split
  case isTrue h =>
    have := uAt_lt hx
    refine .inr ⟨_, rfl, h.2, ?_, ?_, ?_, rfl⟩ <;> simp only [dosDateTime] <;> norm_num at this <;> omega
  case isFalse => exact .inl rfl

theorem narrow {tp : TextProc} {b : Bytes} (v : PyVal) (h : Narrow tp b v) : text v := by
  obtain ⟨s, -, rfl⟩ := h
  exact ⟨s, rfl⟩

theorem wide {b : Bytes} (v : PyVal) (h : Wide b v) : text v := by
  obtain ⟨s, -, rfl⟩ := h
  exact ⟨s, rfl⟩

theorem either {tp : TextProc} {w : Bool} {b : Bytes} (v : PyVal) (h : Either tp w b v) : text v := by
  unfold Either at h
  split at h
  · exact wide v h
  · exact narrow v h

theorem bits {names : List String} {b : Bytes} {o : Nat} (v : PyVal) (h : BitsAt names b o v) : someOf names v := by
  obtain ⟨k, -, rfl⟩ := h
  refine ⟨_, ?_, rfl⟩
  have key : ∀ n, n ≤ names.length →
      ((List.range n).filterMap fun i => if k.testBit i then names[i]? else none).Sublist (names.take n) := by
    intro n
    induction n with
    | zero => intro _; simp
    | succ n ih =>
      intro hn
      rw [List.range_succ, List.filterMap_append, List.take_add_one]
      refine (ih (by omega)).append ?_
      rw [List.getElem?_eq_getElem (show n < names.length by omega)]
      by_cases hb : k.testBit n
      · simp [List.getElem?_eq_getElem (show n < names.length by omega), hb]
      · simp [hb]
  simpa [setBitNames] using key _ le_rfl

theorem window {b : Bytes} (v : PyVal) (h : ∃ i, sAt 4 b 60 = some i ∧ v = .str (showCommandName i).toList) :
    oneOf ["SW_SHOWNORMAL", "SW_SHOWMAXIMIZED", "SW_SHOWMINNOACTIVE"] v := by
  obtain ⟨i, -, rfl⟩ := h
  refine ⟨_, ?_, rfl⟩
  unfold showCommandName
  split
  · decide
  · split <;> decide

theorem kind (t : UInt8) : fsKindText t ∈ kinds := by
  have : ∀ t : UInt8, fsKindText t ∈ kinds := by
    intro t
    have h : ∀ n : Fin 16, (fsKind n.1).getD "Unknown" ∈ kinds := by decide
    exact h ⟨t.toNat % 16, Nat.mod_lt _ (by decide)⟩
  exact this t

/-! ### dictionaries -/

/-- Each entry of the one list is, under the same key, of the kind asked for in the other. -/
def Weaker (es es' : Entries) : Prop := List.Forall₂ (fun e e' => e.1 = e'.1 ∧ ∀ v, e.2 v → e'.2 v) es es'

theorem fits_weaker {d : Dict} {es es' : Entries} (h : Fits d es) (hw : Weaker es es') : Fits d es' := by
  induction hw generalizing d with
  | nil => exact h
  | cons h1 _ ih =>
    cases d with
    | nil => exact h.elim
    | cons kv d => exact ⟨h.1.trans h1.1, h1.2 _ h.2.1, ih h.2.2⟩

theorem weaker_nil : Weaker [] [] := .nil

theorem weaker_cons {k : String} {p q : PyVal → Prop} {es es' : Entries} (h : ∀ v, p v → q v) (hw : Weaker es es') :
    Weaker ((k, p) :: es) ((k, q) :: es') := .cons ⟨rfl, h⟩ hw

theorem obj_need {es : Entries} {gs : List Group} {d : Dict} (h : ∃ d1 d2, d = d1 ++ d2 ∧ Fits d1 es ∧ Obj gs d2) :
    Obj (need es :: gs) d := .inl h

theorem obj_may {es : Entries} {gs : List Group} {d : Dict} (h : ∃ d1 d2, d = d1 ++ d2 ∧ Fits d1 es ∧ Obj gs d2) :
    Obj (may es :: gs) d := .inl h

theorem obj_skip {es : Entries} {gs : List Group} {d : Dict} (h : Obj gs d) : Obj (may es :: gs) d := .inr ⟨rfl, h⟩

/-- Leave out keys. -/
theorem fits_without (ks : List String) {d : Dict} {es : Entries} (h : Fits d es) :
    Fits (without ks d) (es.filter fun e => e.1 ∉ ks) := by
  induction d generalizing es with
  | nil => cases es with
    | nil => trivial
    | cons => exact h.elim
  | cons kv d ih => cases es with
    | nil => exact h.elim
    | cons e es =>
      obtain ⟨h1, h2, h3⟩ := h
      have := ih h3
      unfold without at *
      by_cases hk : e.1 ∈ ks
      · rw [List.filter_cons_of_neg (by simpa [h1] using hk), List.filter_cons_of_neg (by simpa using hk)]
        exact this
      · rw [List.filter_cons_of_pos (by simpa [h1] using hk), List.filter_cons_of_pos (by simpa using hk)]
        exact ⟨h1, h2, this⟩

theorem obj_without (ks : List String) {d : Dict} {gs : List Group} (h : Obj gs d) :
    Obj (gs.map fun g => (g.1, g.2.filter fun e => e.1 ∉ ks)) (without ks d) := by
  induction gs generalizing d with
  | nil => rw [show d = [] from h]; rfl
  | cons g gs ih =>
    obtain ⟨d1, d2, rfl, h1, h2⟩ | ⟨h1, h2⟩ := h
    · exact .inl ⟨_, _, by simp [without], fits_without ks h1, ih h2⟩
    · exact .inr ⟨h1, ih h2⟩

/-- Each entry of the one list, changed if it has the key `k`, is of the kind asked for in the other. -/
def Changed (k : String) (g : PyVal → PyVal) (es es' : Entries) : Prop :=
  List.Forall₂ (fun e e' => e.1 = e'.1 ∧ ∀ v, e.2 v → e'.2 (if e.1 = k then g v else v)) es es'

theorem fits_under {k : String} {g : PyVal → PyVal} {d : Dict} {es es' : Entries} (h : Fits d es) (hw : Changed k g es es') :
    Fits (under k g d) es' := by
  induction hw generalizing d with
  | nil => cases d with
    | nil => trivial
    | cons => exact h.elim
  | @cons e e' _ _ h1 _ ih =>
    cases d with
    | nil => exact h.elim
    | cons kv d =>
      obtain ⟨k', v⟩ := kv
      obtain ⟨ha, hb, hc⟩ := h
      obtain rfl : k' = e.1 := ha
      refine ⟨?_, ?_, ih hc⟩
      · show (if e.1 = k then (e.1, g v) else (e.1, v)).1 = e'.1
        split <;> exact h1.1
      · show e'.2 (if e.1 = k then (e.1, g v) else (e.1, v)).2
        have := h1.2 v hb
        split
        · rwa [if_pos (by assumption)] at this
        · rwa [if_neg (by assumption)] at this

theorem obj_under {k : String} {g : PyVal → PyVal} {d : Dict} {gs gs' : List Group} (h : Obj gs d)
    (hw : List.Forall₂ (fun a b => a.1 = b.1 ∧ Changed k g a.2 b.2) gs gs') : Obj gs' (under k g d) := by
  induction hw generalizing d with
  | nil => rw [show d = [] from h]; rfl
  | @cons a b _ _ h1 _ ih =>
    obtain ⟨m, es⟩ := a
    obtain ⟨m', es'⟩ := b
    obtain ⟨d1, d2, rfl, h3, h4⟩ | ⟨h3, h4⟩ := h
    · exact .inl ⟨under k g d1, under k g d2, by simp [under], fits_under h3 h1.2, ih h4⟩
    · exact .inr ⟨h1.1.symm.trans h3, ih h4⟩

theorem changed_same {k k' : String} {g : PyVal → PyVal} {t : PyVal → Prop} {es es' : Entries} (hk : k' ≠ k) (h : Changed k g es es') :
    Changed k g ((k', t) :: es) ((k', t) :: es') := .cons ⟨rfl, fun v hv => by rwa [if_neg hk]⟩ h

theorem changed_here {k : String} {g : PyVal → PyVal} {t t' : PyVal → Prop} {es es' : Entries} (ht : ∀ v, t v → t' (g v))
    (h : Changed k g es es') : Changed k g ((k, t) :: es) ((k, t') :: es') :=
  .cons ⟨rfl, fun v hv => by rw [if_pos rfl]; exact ht v hv⟩ h

/-! ### the full report -/

/-- Entry by entry. -/
macro "weaken" : tactic => `(tactic| repeat first
  | exact weaker_nil
  | with_reducible refine weaker_cons nat4 ?_
  | with_reducible refine weaker_cons nat2 ?_
  | with_reducible refine weaker_cons nat1 ?_
  | with_reducible refine weaker_cons int4 ?_
  | with_reducible refine weaker_cons int2 ?_
  | with_reducible refine weaker_cons hex4 ?_
  | with_reducible refine weaker_cons guidAt ?_
  | with_reducible refine weaker_cons (is _) ?_
  | with_reducible refine weaker_cons filetime ?_
  | with_reducible refine weaker_cons dostime ?_
  | with_reducible refine weaker_cons narrow ?_
  | with_reducible refine weaker_cons wide ?_
  | with_reducible refine weaker_cons either ?_
  | with_reducible refine weaker_cons bits ?_
  | with_reducible refine weaker_cons window ?_)

theorem header_schema {b : Bytes} {d : Dict} (h : Fits d (headerEntries b)) : Fits d (Spec.Schema.header true) := by
  refine fits_weaker h ?_
  simp only [headerEntries, Spec.Schema.header, if_true, List.cons_append, List.nil_append]
  weaken
  refine weaker_cons (fun v ⟨l, h, _, _, e⟩ => ⟨l, h, e⟩) ?_
  weaken

theorem file_schema {tp : TextProc} {b : Bytes} {d : Dict} (h : Fits d (fileEntries tp b)) : Fits d (fileEntry true) := by
  refine fits_weaker h ?_
  simp only [fileEntries, fileEntry, if_true, List.cons_append, List.nil_append]
  weaken
  refine weaker_cons (fun v ⟨t, _, e⟩ => ⟨_, kind t, e⟩) ?_
  weaken
  exact weaker_cons (fun v ⟨_, _, h⟩ => either v h) weaker_nil

theorem piece {tp : TextProc} {a : Bool} {p : Option Bytes} (v : PyVal) (h : PieceText tp a p v) : orNull text v := by
  unfold PieceText at h
  split at h
  · obtain ⟨b, -, h⟩ := h
    exact .inr (narrow v h)
  · exact .inl h

theorem cplText {tp : TextProc} {w : Bytes} {n : Nat} (v : PyVal) (h : CplText tp w n v) : text v := by
  unfold CplText at h
  split at h
  · exact wide v h
  · exact narrow v h

theorem getD_unknown {names : List String} (f : Nat → Option String) (hf : ∀ k s, f k = some s → s ∈ names) (hu : "Unknown" ∈ names)
    (k : Nat) : (f k).getD "Unknown" ∈ names := by
  cases h : f k with
  | none => exact hu
  | some s => exact hf k s h

theorem anyOf_at {ts : List Ty} {t : Ty} {v : PyVal} (i : Nat) (ht : ts[i]? = some t) (h : t v) : anyOf ts v :=
  ⟨t, List.mem_of_getElem? ht, h⟩

/-- An item, by its class. -/
theorem item_schema {tp : TextProc} {n : Nat} (hn : n ≠ 0) (hn' : n < 65536) {t : UInt8} {w : Bytes} {cls : String}
    (hc : cls ∈ ["Volume Item", "File entry", "Network location", "Control panel CPL file", "Control panel category", "Root Folder",
      "Compressed folder", "Internet", "Control panel", "Printers", "Common places folder", "Users files folder", "Unknown"])
    {d : Dict} (h : Fits d (("class", Is cls) :: itemFields tp n t w cls)) : anyOf (items true) (.dict d) := by
  unfold items
  simp only [List.mem_cons, List.not_mem_nil, or_false] at hc
  rcases hc with rfl | rfl | rfl | rfl | rfl | rfl | rfl | rfl | rfl | rfl | rfl | rfl | rfl
  · simp only [itemFields, String.reduceEq, if_false, if_true] at h
    by_cases ht : t.toNat.testBit 0
    · rw [if_pos ht] at h
      refine anyOf_at 3 rfl ⟨d, rfl, fits_weaker h ?_⟩
      weaken
      refine weaker_cons (fun v e => ⟨_, Nat.mod_lt _ (by decide), e⟩) ?_
      weaken
    · rw [if_neg ht] at h
      refine anyOf_at 4 rfl ⟨d, rfl, fits_weaker h ?_⟩
      weaken
      refine weaker_cons (fun v e => ⟨_, Nat.mod_lt _ (by decide), e⟩) ?_
      weaken
  · simp only [itemFields, String.reduceEq, if_false, if_true] at h
    exact anyOf_at 5 rfl ⟨d, rfl, file_schema (tp := tp) (b := w) h⟩
  · simp only [itemFields, String.reduceEq, if_false, if_true] at h
    refine anyOf_at 6 rfl ⟨d, rfl, fits_weaker h ?_⟩
    weaken
    refine weaker_cons (fun v e => ⟨_, kind t, e⟩) ?_
    weaken
    refine weaker_cons (fun v h => ?_) (weaker_cons (fun v ⟨_, _, h⟩ => piece v h) (weaker_cons (fun v ⟨_, _, h⟩ => piece v h) weaker_nil))
    simp only [PieceText, if_true] at h
    obtain ⟨b, -, h⟩ := h
    exact narrow v h
  · simp only [itemFields, String.reduceEq, if_false, if_true] at h
    refine anyOf_at 0 rfl ⟨d, rfl, fits_weaker h ?_⟩
    weaken
    refine weaker_cons (fun v ⟨k, hk, e⟩ => ⟨k, uAt_lt hk, e⟩) (weaker_cons cplText (weaker_cons (fun v ⟨_, _, h⟩ => cplText v h)
      (weaker_cons (fun v h => ?_) weaker_nil)))
    by_cases h0 : uAt 2 w (if cplWide w then 20 else 8) = some 0
    · rw [if_pos h0] at h
      exact ⟨_, h⟩
    · rw [if_neg h0] at h
      obtain ⟨_, -, h⟩ := h
      exact cplText v h
  · simp only [itemFields, String.reduceEq, if_false, if_true] at h
    refine anyOf_at 1 rfl ⟨d, rfl, fits_weaker h ?_⟩
    weaken
    refine weaker_cons (fun v ⟨k, _, e⟩ => ⟨_, getD_unknown categoryName (fun k s h => ?_) (by simp) k, e⟩) weaker_nil
    have := List.mem_of_getElem? h
    exact List.mem_of_mem_dropLast this
  · simp only [itemFields, String.reduceEq, if_false, if_true] at h
    refine anyOf_at 2 rfl ⟨d, rfl, fits_weaker h ?_⟩
    weaken
    refine weaker_cons (fun v ⟨k, _, e⟩ => ⟨_, getD_unknown sortIndexName (fun k s h => ?_) (by simp) k, e⟩) (by weaken)
    unfold sortIndexName at h
    repeat' split at h
    all_goals first | (obtain rfl := Option.some.inj h; simp) | cases h
  iterate 2
    · exact anyOf_at 9 rfl ⟨d, rfl, fits_weaker h (weaker_cons (fun v e => ⟨_, by simp, e⟩) weaker_nil)⟩
  · simp only [itemFields, String.reduceEq, if_false, if_true] at h
    refine anyOf_at 7 rfl ⟨d, rfl, fits_weaker h ?_⟩
    weaken
  iterate 2
    · exact anyOf_at 9 rfl ⟨d, rfl, fits_weaker h (weaker_cons (fun v e => ⟨_, by simp, e⟩) weaker_nil)⟩
  · simp only [itemFields, String.reduceEq, if_false, if_true] at h
    refine anyOf_at 8 rfl ⟨d, rfl, fits_weaker h ?_⟩
    weaken
    exact weaker_cons (fun v e => ⟨_, e⟩) (weaker_cons (fun v ⟨_, d, _, e, h⟩ => ⟨d, e, file_schema h⟩)
      (weaker_cons (fun v ⟨_, _, h⟩ => guidAt v h) (weaker_cons (fun v ⟨_, _, h⟩ => guidAt v h) weaker_nil)))
  · simp only [itemFields, String.reduceEq, if_false, if_true] at h
    refine anyOf_at 10 rfl ⟨d, rfl, fits_weaker h ?_⟩
    weaken
    exact weaker_cons (fun v e => ⟨n + 2, by omega, by omega, e⟩) weaker_nil

theorem class_mem (t : UInt8) : (itemClass t.toNat).getD "Unknown" ∈
    ["Volume Item", "File entry", "Network location", "Control panel CPL file", "Control panel category", "Root Folder",
      "Compressed folder", "Internet", "Control panel", "Printers", "Common places folder", "Users files folder", "Unknown"] := by
  unfold itemClass
  repeat' split
  all_goals simp

theorem items_schema {tp : TextProc} {b : Bytes} {l : List PyVal} (h : ItemsAt tp b l) : ∀ x ∈ l, anyOf (items true) x := by
  induction h with
  | stop => simp
  | item h1 hn h2 hd _ ih =>
    intro x hx
    rcases List.mem_cons.1 hx with rfl | hx
    · exact item_schema hn (by simpa using uAt_lt h1) (class_mem _) hd
    · exact ih x hx

theorem layout_size {b : Bytes} {L : Layout} (hL : layout b = some L) : uAt 4 b 0 = some L.headerSize := by
  unfold layout at hL
  split at hL
  · cases hL
  · rename_i hs h0
    split at hL
    · cases hL
    · split at hL
      · cases hL
      · cases hL
        exact h0

theorem target_schema {tp : TextProc} {b : Bytes} {L : Layout} (hL : layout b = some L) {d : Dict} (h : Fits d (targetEntries tp b L)) :
    Fits d (Spec.Schema.target true) := by
  refine fits_weaker h ?_
  simp only [targetEntries, Spec.Schema.target, if_true, List.cons_append, List.nil_append]
  weaken
  refine weaker_cons (fun v ⟨l, e, h⟩ => ⟨l, e, items_schema h⟩) (weaker_cons (fun v e => ⟨_, ?_, ?_, e⟩) weaker_nil)
  · have h24 := (layout_flags hL).1
    unfold uAt at h24
    split at h24
    case isFalse => cases h24
    case isTrue hlen =>
      rw [List.length_take] at hlen
      omega
  · have := uAt_lt (layout_size hL)
    norm_num at this
    omega

/-! ### link info -/

theorem volume_schema {tp : TextProc} {i : Bytes} {o : Nat} {d : Dict} (h : Fits d (volumeEntries tp i o)) :
    obj (volume true) (.dict d) := by
  obtain ⟨d1, d2, rfl, h1, h2⟩ := fits_split h
  refine ⟨_, rfl, obj_need ⟨d1, d2, rfl, fits_weaker h1 ?_, ?_⟩⟩
  · simp only [if_true, List.cons_append, List.nil_append]
    weaken
    refine weaker_cons (fun v ⟨k, _, e⟩ => ?_) (weaker_cons (fun v ⟨k, _, e⟩ => ?_) weaker_nil)
    · subst e
      unfold driveTypeName
      split
      iterate 7 exact .inr ⟨_, by simp, rfl⟩
      exact .inl rfl
    · split at e
      · exact .inl e
      · exact .inr (narrow v e)
  · split at h2
    · exact obj_may ⟨d2, [], by simp, fits_weaker h2 (by weaken), rfl⟩
    · cases d2 with
      | nil => exact obj_skip rfl
      | cons => exact h2.elim

theorem provider_mem {k : Nat} {name : String} (h : reportedProvider k = some name) : name ∈ providers := by
  unfold reportedProvider at h
  split at h
  case isFalse => cases h
  case isTrue hd =>
    have : ∀ kv ∈ providerTable, (Nat.toDigits 16 kv.1).all Char.isDigit = true → kv.2 ∈ providers := by decide +kernel
    exact this _ (Verif.lookup_mem h) hd

theorem fits_nil {d : Dict} (h : Fits d []) : d = [] := by
  cases d with
  | nil => rfl
  | cons => exact h.elim

/-- A group that may be missing. -/
theorem obj_if {c : Prop} [Decidable c] {es es' : Entries} {gs : List Group} {d d' : Dict} (h : Fits d (if c then [] else es))
    (hw : Weaker es es') (h' : Obj gs d') : Obj (may es' :: gs) (d ++ d') := by
  split at h
  · rw [fits_nil h]
    exact obj_skip h'
  · exact obj_may ⟨_, _, rfl, fits_weaker h hw, h'⟩

theorem numbers_schema {i : Bytes} {o : Nat} {names : List Group} {d d' : Dict} (h : Fits d (networkNumbers i o)) (h' : Obj names d') :
    Obj (networkOf true names) (d ++ d') := by
  obtain ⟨d1, d2, rfl, h1, h2⟩ := fits_split h
  refine obj_need ⟨d1, d2 ++ d', by simp, fits_weaker h1 ?_, ?_⟩
  · simp only [if_true, List.cons_append, List.nil_append]
    weaken
  · split at h2
    · rw [fits_nil h2]
      exact obj_skip h'
    · rename_i name hn
      split at hn
      · exact obj_may ⟨d2, d', rfl, fits_weaker h2 (weaker_cons (fun v e => ⟨_, provider_mem hn, e⟩) weaker_nil), h'⟩
      · cases hn

theorem network_schema {tp : TextProc} {i : Bytes} {o : Nat} {d : Dict} (h : NetworkReport tp i o d) :
    anyOf (network true) (.dict d) := by
  unfold NetworkReport at h
  split at h
  · obtain ⟨d1, d3, rfl, h1, h3⟩ := fits_split h
    obtain ⟨d1, d2, rfl, h1, h2⟩ := fits_split h1
    rw [List.append_assoc]
    refine anyOf_at 0 rfl ⟨_, rfl, numbers_schema h1 (obj_if h2 (by weaken) ?_)⟩
    have := obj_if (gs := []) (d' := []) (es' := [("device_name_offset_unicode", word 32), ("device_name_unicode", text)]) h3
      (by weaken) rfl
    rwa [List.append_nil] at this
  · obtain ⟨name, device, -, -, h⟩ := h
    obtain ⟨d1, d3, rfl, h1, h3⟩ := fits_split h
    obtain ⟨d1, d2, rfl, h1, h2⟩ := fits_split h1
    rw [List.append_assoc]
    refine anyOf_at 1 rfl ⟨_, rfl, numbers_schema h1 (obj_if h2 (weaker_cons (fun v e => ⟨_, e⟩) weaker_nil) ?_)⟩
    have := obj_if (gs := []) (d' := []) (es' := [("device_name", text)]) h3 (weaker_cons (fun v e => ⟨_, e⟩) weaker_nil) rfl
    rwa [List.append_nil] at this

theorem info_schema {tp : TextProc} {i : Bytes} {kind : String} {loc : Ty} {d : Dict} (h : Fits d (infoEntries tp i kind))
    (hl : ∀ d, (if kind = "Local" then Fits d (volumeEntries tp i (u4 i 12)) else NetworkReport tp i (u4 i 20) d) → loc (.dict d)) :
    obj (infoOf true loc kind) (.dict d) := by
  obtain ⟨d1, d6, rfl, h1, h6⟩ := fits_split h
  obtain ⟨d1, d5, rfl, h1, h5⟩ := fits_split h1
  obtain ⟨d1, d4, rfl, h1, h4⟩ := fits_split h1
  obtain ⟨d1, d3, rfl, h1, h3⟩ := fits_split h1
  obtain ⟨d1, d2, rfl, h1, h2⟩ := fits_split h1
  simp only [List.append_assoc]
  refine ⟨_, rfl, obj_need ⟨d1, _, rfl, fits_weaker h1 ?_, ?_⟩⟩
  · simp only [if_true, List.cons_append, List.nil_append]
    weaken
  refine obj_if h2 (by weaken) (obj_if h3 (by weaken) (obj_if h4 (by weaken) (obj_if h5 (by weaken) ?_)))
  refine obj_need ⟨d6, [], by simp, fits_weaker h6 ?_, rfl⟩
  refine weaker_cons (fun v ⟨d, e, h⟩ => ?_) (weaker_cons (is _) weaker_nil)
  rw [e]
  exact hl d h

/-! ### strings -/

theorem strings_schema {tp : TextProc} {flags : Nat} {b : Bytes} (fs : List (String × Nat × Nat)) (pos : Nat) {d : Dict}
    (h : Fits d (stringEntries tp flags b fs pos)) : Obj (fs.map fun f => may [(f.1, text)]) d := by
  have skip : ∀ l : List (String × Nat × Nat), Obj (l.map fun f => may [(f.1, text)]) [] := by
    intro l
    induction l with
    | nil => rfl
    | cons f l ih => exact obj_skip ih
  induction fs generalizing pos d with
  | nil => exact fits_nil h
  | cons f fs ih =>
    obtain ⟨key, bit, limit⟩ := f
    unfold stringEntries at h
    split at h
    · split at h
      · rw [fits_nil h]
        exact skip _
      · cases d with
        | nil => exact h.elim
        | cons kv d => exact obj_may ⟨[kv], d, rfl, ⟨h.1, either _ h.2.1, trivial⟩, ih _ h.2.2⟩
    · exact obj_skip (ih _ h)

/-! ### extra blocks -/

theorem fitsEach_mem {f : Bytes → Entries} {vs : List PyVal} {bs : List Bytes} (h : FitsEach f vs bs) :
    ∀ v ∈ vs, ∃ b d, v = .dict d ∧ Fits d (f b) := by
  induction vs generalizing bs with
  | nil => simp
  | cons v vs ih => cases bs with
    | nil => exact h.elim
    | cons b bs =>
      intro x hx
      rcases List.mem_cons.1 hx with rfl | hx
      · obtain ⟨d, e, h⟩ := h.1
        exact ⟨b, d, e, h⟩
      · exact ih h.2 x hx

theorem typed_schema (v : Bytes) : Weaker (typedEntries v) [("value", orNull text), ("value_type", typeLabel)] := by
  refine weaker_cons (fun x ⟨t, p, _, _, h⟩ => ?_) (weaker_cons (fun x ⟨t, name, _, h, e⟩ => ⟨t, name, h, e⟩) weaker_nil)
  split at h
  · obtain ⟨n, -, h⟩ := h
    exact .inr (wide x h)
  · exact .inl h

theorem property_schema {named : Bool} {v : Bytes} {d : Dict} (h : Fits d (propertyEntries named v)) :
    anyOf property (.dict d) := by
  unfold propertyEntries at h
  split at h
  · refine anyOf_at 1 rfl ⟨d, rfl, fits_weaker h ?_⟩
    simp only [List.cons_append, List.nil_append]
    weaken
    exact typed_schema _
  · refine anyOf_at 0 rfl ⟨d, rfl, fits_weaker h ?_⟩
    simp only [List.cons_append, List.nil_append]
    weaken
    exact typed_schema _

theorem storage_schema {s : Bytes} {d : Dict} (h : Fits d (storageEntries s)) : storage (.dict d) := by
  refine ⟨d, rfl, fits_weaker h ?_⟩
  unfold storageEntries
  weaken
  refine weaker_cons (fun v ⟨vs, l, e, _, h⟩ => ⟨vs, e, fun x hx => ?_⟩) weaker_nil
  obtain ⟨b, d, rfl, hd⟩ := fitsEach_mem h x hx
  exact property_schema hd

theorem feature_schema (s : List Char) : orNull text (featureName s) := by
  unfold featureName
  split
  · exact .inr ⟨_, rfl⟩
  all_goals
    split
    · exact .inl rfl
    · exact .inr ⟨_, rfl⟩

/-- A block, by its signature. -/
theorem block_schema {tp : TextProc} {s : Nat} {p : Piece} (m : Nat) (hp : p.declared < 2 ^ 32) {d : Dict} (h : BlockReport tp s p d) :
    if blockName s = "UNKNOWN_BLOCK" then block [("extra_data_sha256", text)] (.dict d)
    else ∃ t, (blockName s, t) ∈ blocks m ∧ t (.dict d) := by
  obtain ⟨rest, rfl, h⟩ := h
  have size : ∀ {es : Entries}, Fits rest es → block es (.dict (("size", .int p.declared) :: rest)) :=
    fun h => ⟨_, rfl, rfl, ⟨_, hp, rfl⟩, h⟩
  have known : ∀ {sig : Nat} {name : String} {es : Entries} (i : Nat), blockName sig = name → name ≠ "UNKNOWN_BLOCK" →
      (blocks m)[i]? = some (name, block es) → Fits rest es →
      if blockName sig = "UNKNOWN_BLOCK" then block [("extra_data_sha256", text)] (.dict (("size", .int p.declared) :: rest))
      else ∃ t, (blockName sig, t) ∈ blocks m ∧ t (.dict (("size", .int p.declared) :: rest)) := by
    intro sig name es i hn hu hi hf
    rw [hn, if_neg hu]
    exact ⟨_, List.mem_of_getElem? hi, size hf⟩
  by_cases h0 : s = 0xA0000001
  · subst h0
    simp only [blockFields, Nat.reduceEqDiff, or_false, if_false, if_true] at h
    exact known 0 rfl (by decide) rfl (fits_weaker h (by weaken))
  by_cases h1 : s = 0xA0000002
  · subst h1
    simp only [blockFields, Nat.reduceEqDiff, or_false, if_false, if_true] at h
    exact known 1 rfl (by decide) rfl (fits_weaker h (by weaken))
  by_cases h2 : s = 0xA0000003
  · subst h2
    simp only [blockFields, Nat.reduceEqDiff, or_false, if_false, if_true] at h
    exact known 2 rfl (by decide) rfl (fits_weaker h (by weaken))
  by_cases h3 : s = 0xA0000004
  · subst h3
    simp only [blockFields, Nat.reduceEqDiff, or_false, if_false, if_true] at h
    exact known 3 rfl (by decide) rfl (fits_weaker h (by weaken))
  by_cases h4 : s = 0xA0000005
  · subst h4
    simp only [blockFields, Nat.reduceEqDiff, or_false, if_false, if_true] at h
    exact known 4 rfl (by decide) rfl (fits_weaker h (by weaken))
  by_cases h5 : s = 0xA0000006
  · subst h5
    simp only [blockFields, Nat.reduceEqDiff, or_false, if_false, if_true] at h
    obtain ⟨s, -, h⟩ := h
    refine known 5 rfl (by decide) rfl (fits_weaker h ?_)
    unfold descriptorEntries
    weaken
    refine weaker_cons (fun v e => ⟨_, e⟩) (weaker_cons (fun v e => ⟨_, e⟩) (weaker_cons (fun v e => e ▸ feature_schema s)
      (weaker_cons (fun v e => ?_) weaker_nil)))
    subst e
    split
    · exact .inl rfl
    · exact .inr ⟨_, rfl⟩
  by_cases h6 : s = 0xA0000007
  · subst h6
    simp only [blockFields, Nat.reduceEqDiff, or_true, if_false, if_true] at h
    exact known 6 rfl (by decide) rfl (fits_weaker h (by weaken))
  by_cases h7 : s = 0xA0000008
  · subst h7
    simp only [blockFields, Nat.reduceEqDiff, or_false, if_false, if_true] at h
    exact known 7 rfl (by decide) rfl (fits_weaker h (by weaken))
  by_cases h8 : s = 0xA0000009
  · subst h8
    simp only [blockFields, Nat.reduceEqDiff, or_false, if_false, if_true] at h
    refine known 8 rfl (by decide) rfl (fits_weaker h ?_)
    refine weaker_cons (fun v ⟨vs, l, e, _, h⟩ => ⟨vs, e, fun x hx => ?_⟩) weaker_nil
    obtain ⟨b, d, rfl, hd⟩ := fitsEach_mem h x hx
    exact storage_schema hd
  by_cases h9 : s = 0xA000000B
  · subst h9
    simp only [blockFields, Nat.reduceEqDiff, or_false, if_false, if_true] at h
    exact known 9 rfl (by decide) rfl (fits_weaker h (by weaken))
  by_cases h10 : s = 0xA000000C
  · subst h10
    simp only [blockFields, Nat.reduceEqDiff, or_false, if_false, if_true] at h
    exact known 10 rfl (by decide) rfl (fits_weaker h (weaker_cons (fun v ⟨l, e, h⟩ => ⟨l, e, items_schema h⟩) weaker_nil))
  have hn : blockName s = "UNKNOWN_BLOCK" := by
    unfold blockName
    rw [List.lookup_eq_none_iff.2]
    · rfl
    · simp [blockNames, h0, h1, h2, h3, h4, h5, h6, h7, h8, h9, h10]
  rw [if_pos hn]
  simp only [blockFields, h0, h1, h2, h3, h4, h5, h6, h7, h8, h9, h10, or_false, if_false] at h
  exact size (fits_weaker h (weaker_cons (fun v e => ⟨_, e⟩) weaker_nil))

theorem pieces_small {b last : Bytes} {l : List Piece} (h : Cut b l last) : ∀ p ∈ l, p.declared < 2 ^ 32 := by
  induction h with
  | stop => simp
  | block h hn _ ih =>
    intro p hp
    rcases List.mem_cons.1 hp with rfl | hp
    · exact uAt_lt h
    · exact ih p hp

theorem unknown_schema {tp : TextProc} {vs : List PyVal} {ps : List Piece} (hs : ∀ p ∈ ps, p.declared < 2 ^ 32)
    (hu : ∀ p ∈ ps, p.signature.map blockName = some "UNKNOWN_BLOCK") (h : UnknownReports tp vs ps) :
    ∀ v ∈ vs, block [("extra_data_sha256", text)] v := by
  induction vs generalizing ps with
  | nil => simp
  | cons v vs ih => cases ps with
    | nil => exact h.elim
    | cons p ps =>
      intro x hx
      rcases List.mem_cons.1 hx with rfl | hx
      · obtain ⟨s, d, e, rfl, hr⟩ := h.1
        have := block_schema 0 (hs p (by simp)) hr
        have hu := hu p (by simp)
        rw [e] at hu
        rwa [if_pos (Option.some.inj hu)] at this
      · exact ih (fun p hp => hs p (by simp [hp])) (fun p hp => hu p (by simp [hp])) h.2 x hx

theorem extra_schema {tp : TextProc} {allow : Bool} {b last : Bytes} {l : List Piece} (hc : Cut b l last) {E : Dict} {m : Nat}
    (hm : last.length ≤ m) (h : ExtraReport tp allow l last E) : table (blocks m) (.dict E) := by
  refine ⟨E, rfl, extra_nodup h, fun ⟨name, v⟩ hv => ?_⟩
  have hl := pieces_small hc
  have hg := Dict.get?_of_mem (extra_nodup h) hv
  have hk : name ∈ E.keys := List.mem_map_of_mem hv
  by_cases hu : name = "UNKNOWN_BLOCK"
  · subst hu
    obtain ⟨vs, rfl, hvs⟩ := h.unknown v hg
    refine ⟨listOf (block [("extra_data_sha256", text)]), by simp [blocks], vs, rfl, unknown_schema (fun p hp => hl p (List.mem_of_mem_filter hp))
      (fun p hp => ?_) hvs⟩
    simpa using (List.mem_filter.1 hp).2
  rcases (extra_mem_names h name).1 hk with hr | ⟨rfl, -⟩
  · obtain ⟨pre, p, post, e, hp, hpost⟩ := last_with (ReportedAs name) hr
    obtain ⟨s, hs, hb, -⟩ := id hp
    obtain ⟨d, hd, hr⟩ := h.named name pre p post s hu e hp hs hpost
    rw [hg] at hd
    cases hd
    have := block_schema m (hl p (by simp [e])) hr
    rw [hb, if_neg hu] at this
    exact this
  · obtain ⟨d, rfl, hd⟩ := h.terminal v hg
    refine ⟨record [("size", range 0 m), ("appended_data_sha256", text)], by simp [blocks], d, rfl, fits_weaker hd ?_⟩
    exact weaker_cons (fun v e => ⟨_, Nat.zero_le _, hm, e⟩) (weaker_cons (fun v e => ⟨_, e⟩) weaker_nil)

/-! ### the report -/

/-- The pieces of the extra data, and what follows them, are not much longer than the file: only the last piece can declare more bytes
than there are. -/
theorem cut_total {b last : Bytes} {l : List Piece} (h : Cut b l last) :
    (l.map Piece.declared).sum + last.length ≤ b.length + 2 ^ 32 := by
  induction h with
  | stop => simp
  | @block b n l last h hn hl ih =>
    rw [List.length_drop] at ih
    simp only [List.map_cons, List.sum_cons]
    by_cases hb : n ≤ b.length
    · omega
    · have hlt := uAt_lt h
      rw [List.drop_eq_nil_of_le (by omega)] at hl
      cases hl with
      | stop => simp only [List.map_nil, List.sum_nil, List.length_nil]; omega
      | block h => simp [uAt] at h

theorem size_le {b last : Bytes} {l : List Piece} {L : Layout} (hL : layout b = some L) (hc : Cut (b.drop L.extraAt) l last) (allow : Bool) :
    sizeRead b L allow l last ≤ b.length + 2 ^ 34 ∧ last.length ≤ b.length + 2 ^ 34 := by
  have h1 := (layout_le hL).2
  have h2 := cut_total hc
  have h3 := (cut_sum hc).2
  rw [List.length_drop] at h2 h3
  have h4 : ((l.filter fun p => p.signature.isSome).map Piece.declared).sum ≤ (l.map Piece.declared).sum :=
    (List.filter_sublist.map _).sum_le_sum (by simp)
  unfold sizeRead
  refine ⟨?_, by omega⟩
  dsimp only
  split <;> omega

theorem full_schema {tp : TextProc} {b : Bytes} {L : Layout} (hL : layout b = some L) {allow : Bool} {l : List Piece} {last : Bytes}
    (hc : Cut (b.drop L.extraAt) l last) {j : Dict} (h : Fits j (reportEntries tp b L allow l last)) : Obj (report (b.length + 2 ^ 34) true) j := by
  obtain ⟨hsize, hlast⟩ := size_le hL hc allow
  obtain ⟨d1, d3, rfl, h1, h3⟩ := fits_split h
  obtain ⟨d1, d2, rfl, h1, h2⟩ := fits_split h1
  rw [List.append_assoc]
  refine obj_need ⟨d1, _, rfl, fits_weaker h1 (weaker_cons (fun v e => ⟨_, Nat.zero_le _, hsize, e⟩)
    (weaker_cons (fun v ⟨d, e, h⟩ => ⟨d, e, header_schema h⟩) weaker_nil)), ?_⟩
  have hr : Obj [need [("link_info", anyOf (info true)), ("data", obj strings), ("extra", table (blocks (b.length + 2 ^ 34)))]] d3 := by
    refine obj_need ⟨d3, [], by simp, fits_weaker h3 (weaker_cons (fun v ⟨d, e, h⟩ => ?_)
      (weaker_cons (fun v ⟨d, e, h⟩ => ⟨d, e, strings_schema _ _ h⟩) (weaker_cons (fun v ⟨d, e, h⟩ => ?_) weaker_nil))), rfl⟩
    · subst e
      split at h
      · exact anyOf_at 0 rfl ⟨d, rfl, h⟩
      · rename_i kind hk
        split at hk
        case isFalse => cases hk
        case isTrue =>
          unfold infoLocation at hk
          split at hk
          · cases hk
          · split at hk
            · cases hk
              refine anyOf_at 1 rfl (info_schema h fun d hd => ?_)
              rw [if_pos rfl] at hd
              exact volume_schema hd
            · split at hk
              · cases hk
                refine anyOf_at 2 rfl (info_schema h fun d hd => ?_)
                rw [if_neg (by decide)] at hd
                exact network_schema hd
              · cases hk
    · subst e
      exact extra_schema hc hlast h
  split at h2
  · exact obj_may ⟨d2, d3, rfl, fits_weaker h2 (weaker_cons (fun v ⟨d, e, h⟩ => ⟨d, e, target_schema hL h⟩) weaker_nil), hr⟩
  · rw [fits_nil h2]
    exact obj_skip hr

/-! ### the reduced report -/

/-- A record without some keys. -/
theorem record_without (ks : List String) {es es' : Entries} (he : es.filter (fun e => e.1 ∉ ks) = es') (v : PyVal) (h : record es v) :
    record es' (onDict (without ks) v) := by
  obtain ⟨d, rfl, h⟩ := h
  exact ⟨_, rfl, he ▸ fits_without ks h⟩

/-- Groups of entries without some keys. -/
theorem objs_without (ks : List String) {gs gs' : List Group}
    (he : gs.map (fun g => (g.1, g.2.filter fun e => e.1 ∉ ks)) = gs') (v : PyVal) (h : obj gs v) :
    obj gs' (onDict (without ks) v) := by
  obtain ⟨d, rfl, h⟩ := h
  exact ⟨_, rfl, he ▸ obj_without ks h⟩

theorem item_reduced (v : PyVal) (h : anyOf (items true) v) : anyOf (items false) (onDict (without ["modification_time"]) v) := by
  obtain ⟨t, ht, h⟩ := h
  simp only [items, List.mem_cons, List.not_mem_nil, or_false] at ht
  rcases ht with rfl | rfl | rfl | rfl | rfl | rfl | rfl | rfl | rfl | rfl | rfl
  · exact anyOf_at 0 rfl (record_without _ (by simp) v h)
  · exact anyOf_at 1 rfl (record_without _ (by simp) v h)
  · exact anyOf_at 2 rfl (record_without _ (by simp) v h)
  · exact anyOf_at 3 rfl (record_without _ (by simp) v h)
  · exact anyOf_at 4 rfl (record_without _ (by simp) v h)
  · exact anyOf_at 5 rfl (record_without _ (by simp [fileEntry]) v h)
  · exact anyOf_at 6 rfl (record_without _ (by simp) v h)
  · exact anyOf_at 7 rfl (record_without _ (by simp) v h)
  · exact anyOf_at 8 rfl (record_without _ (by simp) v h)
  · exact anyOf_at 9 rfl (record_without _ (by simp) v h)
  · exact anyOf_at 10 rfl (record_without _ (by simp) v h)

theorem target_reduced (v : PyVal) (h : record (Spec.Schema.target true) v) :
    record (Spec.Schema.target false)
      (onDict (fun t => under "items" (onList (onDict (without ["modification_time"]))) (without ["size", "index"] t)) v) := by
  obtain ⟨d, rfl, h⟩ := h
  refine ⟨_, rfl, fits_under (fits_without _ h) ?_⟩
  simp only [Spec.Schema.target, if_true, List.cons_append, List.nil_append, List.append_nil, Bool.false_eq_true, if_false]
  rw [show ([("size", word 16), ("items", listOf (anyOf (items true))), ("index", range 26 (2 ^ 32 + 1))] : Entries).filter
    (fun e => e.1 ∉ ["size", "index"]) = [("items", listOf (anyOf (items true)))] by simp]
  refine changed_here (fun v hv => ?_) .nil
  obtain ⟨l, rfl, hl⟩ := hv
  refine ⟨_, rfl, fun x hx => ?_⟩
  obtain ⟨y, hy, rfl⟩ := List.mem_map.1 hx
  exact item_reduced y (hl y hy)

/-- The keys of a location that are only in the full report. -/
def locationKeys : List String :=
  [ "volume_id_size", "volume_label_offset", "common_network_relative_link_size", "net_name_offset", "device_name_offset" ]

theorem volume_reduced (v : PyVal) (h : obj (volume true) v) : obj (volume false) (onDict (without locationKeys) v) :=
  objs_without _ (by simp [volume, locationKeys]) v h

theorem network_reduced (v : PyVal) (h : anyOf (network true) v) : anyOf (network false) (onDict (without locationKeys) v) := by
  obtain ⟨t, ht, h⟩ := h
  simp only [network, List.mem_cons, List.not_mem_nil, or_false] at ht
  rcases ht with rfl | rfl
  · exact anyOf_at 0 rfl (objs_without _ (by simp [networkOf, locationKeys]) v h)
  · exact anyOf_at 1 rfl (objs_without _ (by simp [networkOf, locationKeys]) v h)

/-- The keys of the link info that are only in the full report. -/
def infoKeys : List String :=
  [ "link_info_size", "link_info_header_size", "volume_id_offset", "local_base_path_offset", "common_network_relative_link_offset",
    "common_path_suffix_offset" ]

theorem infoOf_reduced {loc loc' : Ty} (hl : ∀ v, loc v → loc' (onDict (without locationKeys) v)) (kind : String) (v : PyVal)
    (h : obj (infoOf true loc kind) v) :
    obj (infoOf false loc' kind) (onDict (fun i => under "location_info" (onDict (without locationKeys)) (without infoKeys i)) v) := by
  obtain ⟨d, rfl, h⟩ := h
  refine ⟨_, rfl, obj_under (gs := infoOf false loc kind) ?_ ?_⟩
  · have := obj_without infoKeys h
    rwa [show ((infoOf true loc kind).map fun g => (g.1, g.2.filter fun e => e.1 ∉ infoKeys)) = infoOf false loc kind by
      simp [infoOf, infoKeys]] at this
  · refine .cons ⟨rfl, changed_same (by decide) .nil⟩ (.cons ⟨rfl, changed_same (by decide) .nil⟩
      (.cons ⟨rfl, changed_same (by decide) .nil⟩ (.cons ⟨rfl, changed_same (by decide) (changed_same (by decide) .nil)⟩
        (.cons ⟨rfl, changed_same (by decide) (changed_same (by decide) .nil)⟩
          (.cons ⟨rfl, changed_here hl (changed_same (by decide) .nil)⟩ .nil)))))

theorem info_reduced (v : PyVal) (h : anyOf (info true) v) :
    anyOf (info false) (onDict (fun i => under "location_info" (onDict (without locationKeys)) (without infoKeys i)) v) := by
  obtain ⟨t, ht, h⟩ := h
  simp only [info, List.mem_cons, List.not_mem_nil, or_false] at ht
  rcases ht with rfl | rfl | rfl
  · obtain ⟨d, rfl, h⟩ := h
    rw [fits_nil h]
    exact anyOf_at 0 rfl ⟨[], rfl, trivial⟩
  · exact anyOf_at 1 rfl (infoOf_reduced volume_reduced _ v h)
  · exact anyOf_at 2 rfl (infoOf_reduced network_reduced _ v h)

theorem reduced_schema {m : Nat} {j : Dict} (h : Obj (report m true) j) : Obj (report m false) (reduced j) := by
  refine obj_under (gs := [ need [("size", range 0 m), ("header", record (Spec.Schema.header true))],
    may [("target", record (Spec.Schema.target false))],
    need [("link_info", anyOf (info false)), ("data", obj strings), ("extra", table (blocks m))] ]) ?_ ?_
  · refine obj_under (gs := [ need [("size", range 0 m), ("header", record (Spec.Schema.header true))],
      may [("target", record (Spec.Schema.target true))],
      need [("link_info", anyOf (info false)), ("data", obj strings), ("extra", table (blocks m))] ]) ?_ ?_
    · refine obj_under h ?_
      exact .cons ⟨rfl, changed_same (by decide) (changed_same (by decide) .nil)⟩ (.cons ⟨rfl, changed_same (by decide) .nil⟩
        (.cons ⟨rfl, changed_here info_reduced (changed_same (by decide) (changed_same (by decide) .nil))⟩ .nil))
    · exact .cons ⟨rfl, changed_same (by decide) (changed_same (by decide) .nil)⟩ (.cons ⟨rfl, changed_here target_reduced .nil⟩
        (.cons ⟨rfl, changed_same (by decide) (changed_same (by decide) (changed_same (by decide) .nil))⟩ .nil))
  · exact .cons ⟨rfl, changed_same (by decide) (changed_here (record_without _ (by simp [Spec.Schema.header])) .nil)⟩
      (.cons ⟨rfl, changed_same (by decide) .nil⟩
        (.cons ⟨rfl, changed_same (by decide) (changed_same (by decide) (changed_same (by decide) .nil))⟩ .nil))

/-! ### numbers -/

section
variable {m : Nat}

/-- Of a value of this kind, every number is from -2^31 to `m`. -/
def Num (m : Nat) (t : Ty) : Prop := ∀ v, t v → ∀ i : Int, Inside (.int i) v → -2 ^ 31 ≤ i ∧ i ≤ m

theorem num_text : Num m text := by
  rintro _ ⟨s, rfl⟩ i h
  cases h

theorem num_oneOf (l : List String) : Num m (oneOf l) := by
  rintro _ ⟨s, -, rfl⟩ i h
  cases h

theorem num_word {n : Nat} (hm : 2 ^ n ≤ m) : Num m (word n) := by
  rintro _ ⟨k, hk, rfl⟩ i h
  cases h
  omega

theorem num_signed {n : Nat} (hn : n ≤ 32) (hm : 2 ^ 32 ≤ m) : Num m (signed n) := by
  rintro _ ⟨k, h1, h2, rfl⟩ i h
  cases h
  have : (2 : Int) ^ (n - 1) ≤ 2 ^ 31 := pow_le_pow_right₀ (by decide) (by omega)
  omega

theorem num_range {a b : Nat} (hm : b ≤ m) : Num m (range a b) := by
  rintro _ ⟨k, _, hk, rfl⟩ i h
  cases h
  omega

theorem num_hex (n : Nat) : Num m (hex n) := by
  rintro _ ⟨k, _, rfl⟩ i h
  cases h

theorem num_hex8 : Num m hex8 := by
  rintro _ ⟨k, _, rfl⟩ i h
  cases h

theorem num_guid : Num m guid := by
  rintro _ ⟨s, rfl, _⟩ i h
  cases h

theorem num_date : Num m date := by
  rintro _ ⟨s, rfl, _⟩ i h
  cases h

theorem num_dosDate : Num m dosDate := by
  rintro _ ⟨s, rfl, _⟩ i h
  cases h

theorem num_hotKey : Num m hotKey := by
  rintro _ ⟨_, _, rfl⟩ i h
  cases h

theorem num_typeLabel : Num m typeLabel := by
  rintro _ ⟨_, _, _, rfl⟩ i h
  cases h

theorem num_orNull {t : Ty} (ht : Num m t) : Num m (orNull t) := by
  rintro v (rfl | hv) i h
  · cases h
  · exact ht v hv i h

theorem num_someOf (names : List String) : Num m (someOf names) := by
  rintro _ ⟨l, -, rfl⟩ i h
  cases h with
  | element hy h =>
    obtain ⟨s, -, rfl⟩ := List.mem_map.1 hy
    cases h

theorem num_listOf {t : Ty} (ht : Num m t) : Num m (listOf t) := by
  rintro _ ⟨l, rfl, hl⟩ i h
  cases h with
  | element hy h => exact ht _ (hl _ hy) i h

theorem num_anyOf {ts : List Ty} (hts : ∀ t ∈ ts, Num m t) : Num m (anyOf ts) := by
  rintro v ⟨t, ht, hv⟩ i h
  exact hts t ht v hv i h

theorem fits_mem {d : Dict} {es : Entries} (h : Fits d es) : ∀ kv ∈ d, ∃ e ∈ es, kv.1 = e.1 ∧ e.2 kv.2 := by
  induction d generalizing es with
  | nil => simp
  | cons x d ih => cases es with
    | nil => exact h.elim
    | cons e es =>
      intro kv hkv
      rcases List.mem_cons.1 hkv with rfl | hkv
      · exact ⟨e, by simp, h.1, h.2.1⟩
      · obtain ⟨e', he, h'⟩ := ih h.2.2 kv hkv
        exact ⟨e', by simp [he], h'⟩

theorem obj_mem {d : Dict} {gs : List Group} (h : Obj gs d) : ∀ kv ∈ d, ∃ g ∈ gs, ∃ e ∈ g.2, kv.1 = e.1 ∧ e.2 kv.2 := by
  induction gs generalizing d with
  | nil => rw [show d = [] from h]; simp
  | cons g gs ih =>
    intro kv hkv
    obtain ⟨d1, d2, rfl, h1, h2⟩ | ⟨-, h⟩ := h
    · rcases List.mem_append.1 hkv with hkv | hkv
      · obtain ⟨e, he, h⟩ := fits_mem h1 kv hkv
        exact ⟨g, by simp, e, he, h⟩
      · obtain ⟨g', hg, h⟩ := ih h2 kv hkv
        exact ⟨g', by simp [hg], h⟩
    · obtain ⟨g', hg, h⟩ := ih h kv hkv
      exact ⟨g', by simp [hg], h⟩

theorem num_record {es : Entries} (hes : ∀ e ∈ es, Num m e.2) : Num m (record es) := by
  rintro _ ⟨d, rfl, hd⟩ i h
  cases h with
  | entry hkv h =>
    obtain ⟨e, he, -, hv⟩ := fits_mem hd _ hkv
    exact hes e he _ hv i h

theorem num_obj {gs : List Group} (hgs : ∀ g ∈ gs, ∀ e ∈ g.2, Num m e.2) : Num m (obj gs) := by
  rintro _ ⟨d, rfl, hd⟩ i h
  cases h with
  | entry hkv h =>
    obtain ⟨g, hg, e, he, -, hv⟩ := obj_mem hd _ hkv
    exact hgs g hg e he _ hv i h

theorem num_table {ts : List (String × Ty)} (hts : ∀ t ∈ ts, Num m t.2) : Num m (table ts) := by
  rintro _ ⟨d, rfl, -, hd⟩ i h
  cases h with
  | entry hkv h =>
    obtain ⟨t, ht, hv⟩ := hd _ hkv
    exact hts _ ht _ hv i h

theorem num_block {es : Entries} (hm : 2 ^ 34 ≤ m) (hes : ∀ e ∈ es, Num m e.2) : Num m (block es) := by
  refine num_record fun e he => ?_
  rcases List.mem_cons.1 he with rfl | he
  · exact num_word (by omega)
  · exact hes e he

/-- Entry by entry. -/
macro "numbers" : tactic => `(tactic| repeat first
  | with_reducible assumption | exact num_text | exact num_oneOf _ | exact num_word (by omega) | exact num_signed (by decide) (by omega) | exact num_range (by omega)
  | exact num_hex _ | exact num_hex8 | exact num_guid | exact num_date | exact num_dosDate | exact num_hotKey | exact num_typeLabel
  | exact num_someOf _ | with_reducible refine num_orNull ?_ | with_reducible refine num_listOf ?_
  | (with_reducible refine num_record ?_; simp only [List.forall_mem_cons, List.not_mem_nil, false_imp_iff, implies_true, and_true])
  | (with_reducible refine num_anyOf ?_; simp only [List.forall_mem_cons, List.not_mem_nil, false_imp_iff, implies_true, and_true])
  | (with_reducible refine num_block ‹_› ?_; simp only [List.forall_mem_cons, List.not_mem_nil, false_imp_iff, implies_true, and_true])
  | (with_reducible refine num_obj ?_; simp only [List.forall_mem_cons, List.not_mem_nil, false_imp_iff, implies_true, and_true])
  | with_reducible refine ⟨?_, ?_⟩)

theorem num_items (hm : 2 ^ 34 ≤ m) : Num m (anyOf (items true)) := by
  simp only [items, fileEntry, if_true, List.cons_append, List.nil_append]
  numbers

theorem num_report (hm : 2 ^ 34 ≤ m) : Num m (obj (report m true)) := by
  have hi := num_items hm
  refine num_obj ?_
  simp only [report, List.forall_mem_cons, List.not_mem_nil, false_imp_iff, implies_true, and_true]
  refine ⟨⟨num_range le_rfl, ?_⟩, ?_, ?_, ?_, ?_⟩
  · simp only [Spec.Schema.header, if_true, List.cons_append, List.nil_append]
    numbers
  · simp only [Spec.Schema.target, if_true, List.cons_append, List.nil_append]
    numbers
  · simp only [info, infoOf, volume, network, networkOf, if_true, List.cons_append, List.nil_append]
    numbers
  · simp only [strings]
    numbers
  · refine num_table ?_
    simp only [blocks, storage, property, List.forall_mem_cons, List.not_mem_nil, false_imp_iff, implies_true, and_true]
    numbers

end

end Verif.Props.Schema

namespace Verif.Props
open Spec Py

/-- C85: the report, full or reduced, of any file follows the schema. -/
theorem report_schema (env : Env) (cp : Option String) (hcp : UsableCodePage (TextProc.mk' env cp)) (allow all : Bool) (src : Source)
    (f : LnkFile) (hf : (LnkFile.init env cp allow src).res = .ok f) (j : Dict) (hj : (f.getJson all).res = .ok j) :
    Spec.Schema.Obj (Spec.Schema.report (src.bytes.length + 2 ^ 34) all) j := by
  obtain ⟨L, l, last, hL, hc, h⟩ := report_values env cp hcp allow src f hf
  cases all with
  | true => exact Schema.full_schema hL hc (h j hj)
  | false =>
    rw [f.getJson_false] at hj
    rw [show (reduced <$> f.getJson true) = (f.getJson true >>= fun j => pure (reduced j)) from rfl, Py.bind_ok_iff] at hj
    obtain ⟨j', hj', hr⟩ := hj
    simp only [Py.pure_res, Except.ok.injEq] at hr
    subst hr
    exact Schema.reduced_schema (Schema.full_schema hL hc (h j' hj'))

/-- C85: every number in the full report is from -2^31 to 2^34 more than the length of the file; so a reader that has only 53 bits for
numbers loses nothing, unless the file is absurdly long. -/
theorem report_numbers (env : Env) (cp : Option String) (hcp : UsableCodePage (TextProc.mk' env cp)) (allow : Bool) (src : Source)
    (f : LnkFile) (hf : (LnkFile.init env cp allow src).res = .ok f) (j : Dict) (hj : (f.getJson true).res = .ok j) (i : Int)
    (hi : Spec.Schema.Inside (.int i) (.dict j)) : -2 ^ 31 ≤ i ∧ i ≤ src.bytes.length + 2 ^ 34 := by
  have := Schema.num_report (m := src.bytes.length + 2 ^ 34) (by omega) _
    ⟨j, rfl, report_schema env cp hcp allow true src f hf j hj⟩ i hi
  simpa using this

namespace Schema
open Spec.Schema

/-- An environment without further code pages. -/
def bareEnv : Env := ⟨fun _ => none, fun _ => []⟩

/-- A link with an ID list, a link info, strings and a block: both reports follow the schema. -/
example : ∃ f j r, (LnkFile.init bareEnv none true (.indata exampleLink.encode)).res = .ok f ∧ (f.getJson true).res = .ok j ∧
    (f.getJson false).res = .ok r ∧ Obj (report (347 + 2 ^ 34) true) j ∧ Obj (report (347 + 2 ^ 34) false) r := by
  have h : (((LnkFile.init bareEnv none true (.indata exampleLink.encode)).res.toOption.bind fun f =>
    (f.getJson true).res.toOption.bind fun _ => (f.getJson false).res.toOption)).isSome := by decide +kernel
  have hl : exampleLink.encode.length = 347 := by decide +kernel
  have hcp := usable_default bareEnv
  rcases hf : (LnkFile.init bareEnv none true (.indata exampleLink.encode)).res with e | f
  · rw [hf] at h; cases h
  rw [hf] at h
  rcases hj : (f.getJson true).res with e | j
  · simp [Except.toOption, hj] at h
  rcases hr : (f.getJson false).res with e | r
  · simp [Except.toOption, hj, hr] at h
  refine ⟨f, j, r, rfl, hj, hr, ?_, ?_⟩
  · have := report_schema bareEnv none hcp true true _ f hf j hj
    rwa [show (Source.indata exampleLink.encode).bytes.length = 347 from hl] at this
  · have := report_schema bareEnv none hcp true false _ f hf r hr
    rwa [show (Source.indata exampleLink.encode).bytes.length = 347 from hl] at this

/-- The schema does not allow everything: a file entry must have its entries. -/
example : ¬ anyOf (items true) (.dict [("class", .lit "File entry")]) := by
  rintro ⟨t, ht, h⟩
  simp only [items, List.mem_cons, List.not_mem_nil, or_false] at ht
  rcases ht with rfl | rfl | rfl | rfl | rfl | rfl | rfl | rfl | rfl | rfl | rfl
  all_goals
    obtain ⟨d, e, h⟩ := h
    cases e
    first
    | exact h.2.2.elim
    | (obtain ⟨s, hs, e⟩ := h.2.1
       simp only [List.mem_cons, List.not_mem_nil, or_false] at hs
       rcases hs with rfl | rfl | rfl | rfl <;> cases e)

/-- The numbers, texts and nulls are told apart. -/
example : ¬ word 16 (.int 65536) ∧ ¬ word 16 (.int (-1)) ∧ signed 16 (.int (-1)) ∧ ¬ text .none ∧ orNull text .none ∧
    ¬ orNull text (.int 0) := by
  refine ⟨?_, ?_, ⟨-1, by decide, by decide, rfl⟩, ?_, .inl rfl, ?_⟩
  · rintro ⟨k, hk, e⟩
    cases e
    exact absurd hk (by decide)
  · rintro ⟨k, -, e⟩
    cases e
  · rintro ⟨s, e⟩
    cases e
  · rintro (e | ⟨s, e⟩) <;> cases e

/-- The reduced report has no sizes of the header. -/
example : (Spec.Schema.header false).map Prod.fst =
    [ "guid", "r_link_flags", "r_file_flags", "creation_time", "accessed_time", "modified_time", "file_size", "icon_index",
      "windowstyle", "hotkey", "r_hotkey", "link_flags", "file_flags" ] := rfl

end Schema

end Verif.Props
