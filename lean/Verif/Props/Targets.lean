import Verif.Lemmas.TargetsOutcome

/-
C22-C25, C48: the target ID list.
-/

namespace Verif.Props

open Spec

/-- A list of well-formed items, small enough for the 2-byte size fields. -/
structure GoodItems (tp : TextProc) (items : List Item) : Prop where
  valid : ∀ it ∈ items, it.Valid tp
  small : (encodeItems items).length + 2 < 65536

theorem payload_le (items : List Item) : ∀ it ∈ items, it.payload.length + 2 ≤ (encodeItems items).length := by
  induction items with
  | nil => simp
  | cons a items ih =>
    intro it hit
    have hl : a.encode.length = a.payload.length + 2 := by simp [Item.encode, itemBytes]; omega
    rw [encodeItems_cons, List.length_append, hl]
    rcases List.mem_cons.1 hit with rfl | hit
    · omega
    · have := ih it hit; omega

theorem GoodItems.each {tp : TextProc} {items : List Item} (h : GoodItems tp items) :
    ∀ it ∈ items, it.Valid tp ∧ it.payload.length + 2 < 65536 := fun it hit =>
  ⟨h.valid it hit, by have := payload_le items it hit; have := h.small; omega⟩

/-- A file entry, a volume and an item of a type nobody knows. -/
def exampleItems : List Item :=
  [ .root 0x1F 0x50 ⟨0x20D04FE0, 0x3AEA, 0x1069, 0xA2, 0xD8, 0x08, 0x00, 0x2B, 0x30, 0x30, 0x9D⟩ [],
    .file ⟨0x36, 0, 1234, 0x5A21, 0x6000, 0x20, ⟨utf16 "Größe.txt".toList, "Größe.txt".toList⟩, [1, 2, 3]⟩,
    .other 0x99 [7, 7] ]

theorem exampleItems_good (tp : TextProc) : GoodItems tp exampleItems := by
  constructor
  · intro it hit
    simp only [exampleItems, List.mem_cons, List.not_mem_nil, or_false] at hit
    rcases hit with rfl | rfl | rfl
    · exact .inr rfl
    · refine ⟨by decide, ?_⟩
      show Text.Valid tp true _
      exact ⟨rfl, by decide⟩
    · show itemClass _ = none
      decide
  · decide +kernel

/-! ### C22 -/

/-- C22: an encoded ID list is read back from the start of any data; its size is the number of encoded bytes. -/
theorem id_list_init (tp : TextProc) (items : List Item) (h : GoodItems tp items) (rest : Bytes) :
    ∃ l, LnkTargets.init tp (encodeIdList items ++ rest) = pure l ∧ l.size = pure (encodeIdList items).length ∧
      l.idListSize = pure ((encodeIdList items).length - 2) := by
  refine ⟨_, init_encodeIdList items rest h.small, ?_⟩
  have e0 : slice (encodeIdList items ++ rest) 0 2 = le 2 ((encodeItems items).length + 2) := by
    unfold encodeIdList; slices
  have hlen : (encodeIdList items).length = (encodeItems items).length + 4 := by simp [encodeIdList]; omega
  have hsz := h.small
  simp only [LnkTargets.size, LnkTargets.idListSize, LnkTargets.idListSizeOf, e0]
  rw [unpackU_le (by omega)]
  simp [hlen]

/-- C22: the iteration yields one target per item, in order; the `i`-th one is built from the bytes that start at
the `i`-th item, has the class of its type byte, and its window starts with the item's contents. -/
theorem id_list_iterates (tp : TextProc) (items : List Item) (h : GoodItems tp items) (rest : Bytes) (l : LnkTargets)
    (hl : (LnkTargets.init tp (encodeIdList items ++ rest)).res = .ok l) :
    l.iter.length = items.length ∧
      ∀ i it, items[i]? = some it → ∃ t w, l.iter[i]? = some ⟨w, .ok t⟩ ∧
        t.raw = encodeItems (items.drop i) ++ [0, 0] ∧ t.rawTarget.take it.payload.length = it.payload ∧
        t.cls.name = (itemClass it.typ.toNat).getD "Unknown" := by
  rw [init_encodeIdList items rest h.small] at hl
  simp only [Py.pure_res, Except.ok.injEq] at hl
  subst hl
  show (LnkTargets.idLists tp (encodeItems items ++ [0, 0])).length = _ ∧ _
  have hv := h.each
  clear h
  show _ ∧ ∀ i it, items[i]? = some it → ∃ t w, (LnkTargets.idLists tp (encodeItems items ++ [0, 0]))[i]? = _ ∧ _
  induction items with
  | nil => simp [encodeItems, idLists_ends (tail := [0, 0]) (.inr ⟨[], rfl⟩)]
  | cons a items ih =>
    obtain ⟨h1, h2⟩ := ih fun i hi => hv i (List.mem_cons_of_mem _ hi)
    obtain ⟨hv1, hv2⟩ := hv a List.mem_cons_self
    obtain ⟨t, w1, w2, hs, -, -, hraw, hwin, hc⟩ := step_item a hv1 hv2 (encodeItems items ++ [0, 0])
    have hb : encodeItems (a :: items) ++ [0, 0] = a.encode ++ (encodeItems items ++ [0, 0]) := by
      rw [encodeItems_cons, List.append_assoc]
    have hlen : (encodeItems items ++ [0, 0]).length < (a.encode ++ (encodeItems items ++ [0, 0])).length := by
      have : a.encode.length = a.payload.length + 2 := by simp [Item.encode, itemBytes]; omega
      simp [this]
    rw [hb, idLists_cons hs hlen]
    refine ⟨by simp [h1], ?_⟩
    intro i it hi
    cases i with
    | zero =>
      simp only [List.getElem?_cons_zero, Option.some.injEq] at hi
      subst hi
      refine ⟨t, w1, rfl, by rw [List.drop_zero, hb]; exact hraw, by rw [hwin]; simp, ?_⟩
      rw [hc, Target.kindOf_name]
    | succ i => simpa using h2 i it (by simpa using hi)

/-- Items by type byte and arbitrary contents. -/
def encodeRaw (items : List (UInt8 × Bytes)) : Bytes := items.flatMap fun it => itemBytes ([it.1] ++ it.2)

/-- C22: also for items with arbitrary, possibly malformed contents (network locations excepted, whose strings are
read at once: `network_too_few_strings`): one target per item, up to the terminal id or the end of the list. -/
theorem id_list_iterates_raw (tp : TextProc) (items : List (UInt8 × Bytes)) (tail : Bytes)
    (htail : tail = [] ∨ ∃ r, tail = 0 :: 0 :: r)
    (hsmall : ∀ it ∈ items, it.2.length + 3 < 65536) (hk : ∀ it ∈ items, it.1.toNat / 16 % 8 ≠ 4) :
    (LnkTargets.idLists tp (encodeRaw items ++ tail)).length = items.length ∧
      ∀ i it, items[i]? = some it → ∃ t w, (LnkTargets.idLists tp (encodeRaw items ++ tail))[i]? = some ⟨w, .ok t⟩ ∧
        t.raw = encodeRaw (items.drop i) ++ tail ∧ t.rawTarget.take (it.2.length + 1) = it.1 :: it.2 ∧
        t.cls.name = (itemClass it.1.toNat).getD "Unknown" ∧
        w = if itemClass it.1.toNat = none then [.itemType it.1.toNat] else [] := by
  induction items with
  | nil => simp [encodeRaw, idLists_ends htail]
  | cons a items ih =>
    obtain ⟨h1, h2⟩ := ih (fun i hi => hsmall i (List.mem_cons_of_mem _ hi)) fun i hi => hk i (List.mem_cons_of_mem _ hi)
    obtain ⟨t, b⟩ := a
    have hl : ([t] ++ b).length + 2 < 65536 := by
      have := hsmall (t, b) List.mem_cons_self
      simp at this ⊢; omega
    have hn : Target.kindOf t.toNat ≠ .networkLocation := by
      have := hk (t, b) List.mem_cons_self
      exact fun hc => this (Target.kindOf_network hc)
    have hb : encodeRaw ((t, b) :: items) ++ tail = itemBytes ([t] ++ b) ++ (encodeRaw items ++ tail) := by
      simp [encodeRaw]
    have hinit : Target.init (Target.kindOf t.toNat) tp (itemBytes ([t] ++ b) ++ (encodeRaw items ++ tail)) =
        Target.initBase (Target.kindOf t.toNat) tp (itemBytes ([t] ++ b) ++ (encodeRaw items ++ tail)) := by
      generalize Target.kindOf t.toNat = k at hn
      cases k <;> first | rfl | exact absurd rfl hn
    have hs := step_itemBytes (tp := tp) (rest := encodeRaw items ++ tail) hl
    rw [hinit, Target.window_itemBytes hl] at hs
    have hlen : (encodeRaw items ++ tail).length < (itemBytes ([t] ++ b) ++ (encodeRaw items ++ tail)).length := by
      rw [List.length_append (as := itemBytes _)]
      simp [itemBytes]
    have hs' : LnkTargets.step tp (itemBytes ([t] ++ b) ++ (encodeRaw items ++ tail)) =
        ⟨if itemClass t.toNat = none then [.itemType t.toNat] else [],
          .ok (some (Target.mk (Target.kindOf t.toNat) tp (itemBytes ([t] ++ b) ++ (encodeRaw items ++ tail))
            (([t] ++ b) ++ (encodeRaw items ++ tail).take 2) [] none none, encodeRaw items ++ tail))⟩ := by
      rw [hs]; simp [bind, Py.andThen, pure, Py.ret]
    rw [hb, idLists_cons hs' hlen]
    refine ⟨by simp [h1], ?_⟩
    intro i it hi
    cases i with
    | zero =>
      simp only [List.getElem?_cons_zero, Option.some.injEq] at hi
      subst hi
      exact ⟨_, _, rfl, by rw [List.drop_zero, hb], by simp, Target.kindOf_name _, rfl⟩
    | succ i => simpa using h2 i it (by simpa using hi)

/-- Two malformed items, then the terminal id and an arbitrary byte. -/
example (tp : TextProc) : (LnkTargets.idLists tp (encodeRaw [(0x1F, []), (0x99, [1])] ++ [0, 0, 5])).length = 2 :=
  (id_list_iterates_raw tp _ _ (.inr ⟨[5], rfl⟩) (by simp) (by decide)).1

/-- C22: on arbitrary bytes the iteration ends, after at most as many steps as there are bytes, and no step of the
loop leaves the position unchanged (unless the code page's decoder itself does not return). -/
theorem id_list_terminates (tp : TextProc) (hcp : ∀ b, Py.Only (· ≠ .diverge) (tp.ansiToStr b)) (b : Bytes) :
    (LnkTargets.idLists tp b).length ≤ b.length ∧ ∀ x ∈ LnkTargets.idLists tp b, x.res ≠ .error .diverge := by
  refine ⟨LnkTargets.idLists_length tp b, ?_⟩
  refine LnkTargets.idLists_forall (Q := fun x => x.res ≠ .error .diverge) (fun _ => True) (fun _ _ _ => trivial) ?_ ?_ b trivial
  · intro b w e _ hg
    have := LnkTargets.only_genBody (P := (· ≠ .diverge)) (LnkTargets.only_step_list (tp := tp)
      (P := fun e => e = .stopIteration ∨ e ≠ .diverge) b (.inr (by simp)) (.inl rfl)
      (fun b => (hcp b).mono fun _ => .inr)) (by simp)
    rw [hg] at this
    intro h
    simp only [Except.error.injEq] at h
    exact this.out e rfl h
  · intros; simp

/-! ### C23 -/

/-- C23: the class of the item at the start of `raw` depends on its type byte alone; bytes without a class are
reported as Unknown with a warning. -/
theorem item_dispatch (raw : Bytes) (n : Nat) (t : UInt8) (hn : uAt 2 raw 0 = some n) (h0 : n ≠ 0)
    (ht : raw[2]? = some t) :
    ∃ c w, TargetFactory.targetClass raw = ⟨w, .ok (some c)⟩ ∧ c.name = (itemClass t.toNat).getD "Unknown" ∧
      w = if itemClass t.toNat = none then [.itemType t.toNat] else [] := by
  unfold TargetFactory.targetClass TargetFactory.itemSize TargetFactory.itemType
  have hs : slice raw 2 3 = [t] := by
    obtain ⟨hlt, he⟩ := List.getElem?_eq_some_iff.1 ht
    unfold slice
    rw [List.drop_eq_getElem_cons hlt, he]; rfl
  have e0 := unpackU_slice raw 2 0 (by omega)
  rw [hn] at e0
  simp only [Nat.zero_add] at e0
  have hd := Target.dispatch t
  simp only [e0, pure_bind, hs, unpackU_byte]
  rw [if_neg h0]
  refine ⟨Target.kindOf t.toNat, _, ?_, Target.kindOf_name _, rfl⟩
  by_cases hc : t.toNat &&& 112 = 32 ∨ t.toNat &&& 112 = 48 ∨ t.toNat &&& 112 = 64
  · rw [if_pos hc] at hd ⊢
    rw [hd]; simp [bind, Py.andThen, pure, Py.ret]
  · rw [if_neg hc] at hd ⊢
    rw [hd]; simp [bind, Py.andThen, pure, Py.ret]

/-- C23: size 0 is the end of the list; a missing size, or a non-zero size with nothing behind it, is
`struct.error`. -/
theorem item_dispatch_end (raw : Bytes) :
    (uAt 2 raw 0 = some 0 → TargetFactory.targetClass raw = pure none) ∧
    (raw.length < 2 → TargetFactory.targetClass raw = Py.raise .structError) ∧
    (∀ n, uAt 2 raw 0 = some n → n ≠ 0 → raw.length = 2 → TargetFactory.targetClass raw = Py.raise .structError) := by
  have e0 := unpackU_slice raw 2 0 (by omega)
  simp only [Nat.zero_add] at e0
  unfold TargetFactory.targetClass TargetFactory.itemSize TargetFactory.itemType
  rw [e0]
  refine ⟨?_, ?_, ?_⟩
  · intro h; rw [h]; simp
  · intro h
    have : uAt 2 raw 0 = none := by unfold uAt; rw [if_neg (by omega)]
    rw [this]; rfl
  · intro n h hn hl
    rw [h]
    simp only [pure_bind, if_neg hn]
    have : slice raw 2 3 = [] := by apply List.eq_nil_of_length_eq_zero; simp [hl]
    rw [this]
    rfl

example : ∃ c w, TargetFactory.targetClass [4, 0, 0x99, 1] = ⟨w, .ok (some c)⟩ ∧ c.name = "Unknown" ∧ w = [.itemType 0x99] :=
  item_dispatch [4, 0, 0x99, 1] 4 0x99 (by decide) (by decide) (by decide)

example : TargetFactory.targetClass [0, 0, 0x1F] = pure none ∧ TargetFactory.targetClass [5, 0] = Py.raise .structError :=
  ⟨(item_dispatch_end _).1 (by decide), (item_dispatch_end _).2.2 5 (by decide) (by decide) (by decide)⟩

/-- C23: whatever the contents, a report of an item names the class its type byte selects. -/
theorem item_class_reported (t : Target) (d : Dict) (h : t.asItem.res = .ok d) :
    d.lookup "class" = some (.str t.cls.name.toList) := by
  obtain ⟨cls, tp, raw, rt, loc, desc, comm⟩ := t
  unfold Target.asItem at h
  cases cls <;> simp only at h
  case myComputer =>
    rw [Target.volumeName_identifier] at h
    obtain ⟨c, -, h⟩ := Py.bind_ok_iff.1 h
    split at h
    all_goals
      obtain ⟨x, -, h⟩ := Py.bind_ok_iff.1 h
      simp only [Py.pure_res, Except.ok.injEq] at h
      subst h; rfl
  case shellFSFolder => 
    unfold Target.fsAsItem at h
    simp only [Py.bind_ok_iff, Py.pure_res, Except.ok.injEq] at h
    obtain ⟨_, -, _, -, _, -, _, -, _, -, rfl⟩ := h
    rfl
  all_goals
    simp only [Py.bind_ok_iff, Py.pure_res, Except.ok.injEq] at h
    first
      | (subst h; rfl)
      | (obtain ⟨_, -, rfl⟩ := h; rfl)
      | (obtain ⟨_, -, _, -, rfl⟩ := h; rfl)
      | (obtain ⟨_, -, _, -, _, -, rfl⟩ := h; rfl)
      | (obtain ⟨_, -, _, -, _, -, _, -, rfl⟩ := h; rfl)

/-- The 14 known type bytes outside the three families, and one byte of each family. -/
example : ([0x00, 0x01, 0x1E, 0x1F, 0x2F, 0xB1, 0x46, 0x52, 0x61, 0x70, 0x71, 0x72, 0x73, 0x74, 0x75, 0x10].map itemClass) =
    [some "Control panel CPL file", some "Control panel category", some "Root Folder", some "Root Folder",
     some "Volume Item", some "File entry", some "Network location", some "Compressed folder", some "Internet",
     some "Control panel", some "Control panel", some "Printers", some "Common places folder",
     some "Users files folder", none, none] := by decide

/-! ### C24 -/

/-- C24: listing an encoded ID list reports every item with its serialized fields, in order, with the warnings
those fields call for. -/
theorem id_list_report (tp : TextProc) (items : List Item) (h : GoodItems tp items) (rest : Bytes) :
    (do
      let l ← LnkTargets.init tp (encodeIdList items ++ rest)
      l.asList) = ⟨items.flatMap Item.warns, .ok (items.map fun it => .dict it.report)⟩ := by
  rw [init_encodeIdList items rest h.small, pure_bind]
  exact (idLists_items items (.inr ⟨[], rfl⟩) h.each).2

/-- C24: one item, followed by anything. -/
theorem item_report (tp : TextProc) (it : Item) (hv : it.Valid tp) (hl : it.payload.length + 2 < 65536) (rest : Bytes) :
    ∃ t w1 w2, LnkTargets.step tp (it.encode ++ rest) = ⟨w1, .ok (some (t, rest))⟩ ∧ t.asItem = ⟨w2, .ok it.report⟩ ∧
      w1 ++ w2 = it.warns := by
  obtain ⟨t, w1, w2, h1, h2, h3, -⟩ := step_item it hv hl rest
  exact ⟨t, w1, w2, h1, h2, h3⟩

/-- `exampleItems` reported: a root folder, a file of 1234 bytes written 2025-01-01 12:00:00, an unknown item. -/
example (tp : TextProc) (rest : Bytes) :
    (do
      let l ← LnkTargets.init tp (encodeIdList exampleItems ++ rest)
      l.asList) =
    ⟨[.itemType 0x99],
     .ok [ .dict [("class", .str "Root Folder".toList), ("sort_index", .str "My Computer".toList),
             ("sort_index_value", .int 0x50), ("guid", .str "20D04FE0-3AEA-1069-A2D8-08002B30309D".toList)],
           .dict [("class", .str "File entry".toList), ("flags", .str "Is Unicode file".toList), ("file_size", .int 1234),
             ("modification_time", .dt ⟨2025, 1, 1, 12, 0, 0, 0⟩), ("file_attribute_flags", .int 0x20),
             ("primary_name", .str "Größe.txt".toList)],
           .dict [("class", .str "Unknown".toList), ("size", .int 7)] ]⟩ := by
  rw [id_list_report tp exampleItems (exampleItems_good tp) rest]
  rfl

/-! ### C25 -/

/-- C25: on arbitrary bytes, with a usable code page, reading and listing an ID list returns or raises
`struct.error` or `RuntimeError`. -/
theorem id_list_outcome (tp : TextProc) (hcp : UsableCodePage tp) (raw : Bytes) (e : PyErr)
    (h : (do
      let l ← LnkTargets.init tp raw
      l.asList).res = .error e) : e = .structError ∨ e = .runtimeError := by
  refine Py.Only.out (P := fun e => e = .structError ∨ e = .runtimeError) ?_ e h
  apply Py.only_bind'
  · unfold LnkTargets.init LnkTargets.idListSizeOf
    have : (fun e => e = PyErr.structError ∨ e = PyErr.runtimeError) .structError := .inl rfl
    only
  · intro l hl
    refine LnkTargets.only_asList l (.inl rfl) (.inr rfl) ?_
    intro b
    apply only_ansiToStr
    unfold LnkTargets.init at hl
    obtain ⟨n, -, h2⟩ := Py.bind_ok_iff.1 hl
    simp only [Py.pure_res, Except.ok.injEq] at h2
    rw [← h2]; exact hcp

/-- A root folder item whose GUID is cut. -/
def cutRoot (si : UInt8) (body : Bytes) : Bytes := itemBytes ([0x1F] ++ (si :: body))

/-- C25: a malformed item is not skipped: one root folder item with a cut GUID makes the whole listing raise
`struct.error`, whatever precedes it, and the items after it are lost too. -/
theorem malformed_item_raises (tp : TextProc) (items : List Item) (h : GoodItems tp items) (si : UInt8) (body rest : Bytes)
    (hb : body.length < 14) :
    (LnkTargets.asListLoop (LnkTargets.idLists tp (encodeItems items ++ (cutRoot si body ++ rest)))).res =
      .error .structError := by
  have hv := h.each
  clear h
  induction items with
  | nil =>
    have hl : ([0x1F] ++ (si :: body)).length + 2 < 65536 := by simp; omega
    have hs := step_itemBytes (tp := tp) (rest := rest) hl
    have hk : Target.kindOf (0x1F : UInt8).toNat = .rootFolder := by simp [Target.kindOf]
    rw [hk] at hs
    have hinit : Target.init .rootFolder tp (itemBytes ([0x1F] ++ (si :: body)) ++ rest) =
        Target.initBase .rootFolder tp (itemBytes ([0x1F] ++ (si :: body)) ++ rest) := rfl
    rw [hinit, Target.window_itemBytes hl] at hs
    have hs' : LnkTargets.step tp (cutRoot si body ++ rest) =
        ⟨[], .ok (some (Target.mk .rootFolder tp (itemBytes ([0x1F] ++ (si :: body)) ++ rest)
            (([0x1F] ++ (si :: body)) ++ rest.take 2) [] none none, rest))⟩ := by
      unfold cutRoot; rw [hs]; simp [bind, Py.andThen, pure, Py.ret, itemClass]
    have hlen : rest.length < (cutRoot si body ++ rest).length := by simp [cutRoot, itemBytes]; omega
    simp only [encodeItems, List.flatMap_nil, List.nil_append]
    rw [idLists_cons hs' hlen, LnkTargets.asListLoop]
    have hu : parseUuid (slice (([0x1F] ++ (si :: body)) ++ rest.take 2) 2 18) = Py.raise .structError := by
      unfold parseUuid
      have : (slice (slice (([0x1F] ++ (si :: body)) ++ rest.take 2) 2 18) 8 16).length ≠ 8 := by
        simp; omega
      simp only [this, if_true, ne_eq, not_false_eq_true]
      split <;> rfl
    have : (LnkTargets.itemOf (Target.mk .rootFolder tp (itemBytes ([0x1F] ++ (si :: body)) ++ rest)
            (([0x1F] ++ (si :: body)) ++ rest.take 2) [] none none)).res = .error .structError := by
      unfold LnkTargets.itemOf
      have h1 : slice (([0x1F] ++ (si :: body)) ++ rest.take 2) 1 2 = [si] := by simp [slice]
      rw [Py.tryExcept_res]
      simp only [Target.asItem, Target.rootGuid, hu, Target.sortIndex, Target.sortIndexValue, h1, unpackU_byte, pure_bind]
      cases Target.SORT_INDEX.lookup si.toNat <;> rfl
    simp only [Py.bind_res, this]
  | cons a items ih =>
    have h2 := ih fun i hi => hv i (List.mem_cons_of_mem _ hi)
    obtain ⟨hv1, hv2⟩ := hv a List.mem_cons_self
    obtain ⟨t, w1, w2, hs, ha, -⟩ := step_item a hv1 hv2 (encodeItems items ++ (cutRoot si body ++ rest))
    have hb : encodeItems (a :: items) ++ (cutRoot si body ++ rest) =
        a.encode ++ (encodeItems items ++ (cutRoot si body ++ rest)) := by
      rw [encodeItems_cons, List.append_assoc]
    have hlen : (encodeItems items ++ (cutRoot si body ++ rest)).length <
        (a.encode ++ (encodeItems items ++ (cutRoot si body ++ rest))).length := by
      rw [List.length_append (as := a.encode)]
      simp [Item.encode, itemBytes]
    rw [hb, idLists_cons hs hlen, LnkTargets.asListLoop]
    simp only [Py.bind_res, itemOf_ok ha, h2]

/-- C25: a network location that announces more strings than it has ends the iteration with `RuntimeError`. -/
theorem network_too_few_strings (tp : TextProc) (hcp : UsableCodePage tp) (typ u cf : UInt8) (s : Bytes)
    (ht : typ.toNat / 16 % 8 = 4) (hcf : cf.toNat.testBit 7 = true) (h0 : 0 ∉ s) (hl : s.length < 65000) :
    ∃ w, LnkTargets.idLists tp (itemBytes ([typ] ++ (u :: cf :: s))) = [⟨w, .error .runtimeError⟩] := by
  have hl' : ([typ] ++ (u :: cf :: s)).length + 2 < 65536 := by simp; omega
  have hs := step_itemBytes (tp := tp) (rest := []) hl'
  have hk : Target.kindOf typ.toNat = .networkLocation := by simp [Target.kindOf, ht]
  rw [hk, List.append_nil] at hs
  have hw := Target.window_itemBytes hl' .networkLocation tp (rest := [])
  rw [List.append_nil] at hw
  have hin : ∃ w, Target.initNetwork tp (itemBytes ([typ] ++ (u :: cf :: s))) = ⟨w, .error .stopIteration⟩ := by
    obtain ⟨x, w, hx⟩ := Py.only_false_iff.1 (only_ansiToStr (P := fun _ => False) hcp s)
    have b7 : cf.toNat &&& 128 ≠ 0 := by
      have := and_two_pow_ne_zero cf.toNat 7
      rw [hcf] at this
      simpa using this
    have hcf' : slice ([typ] ++ (u :: cf :: s) ++ List.take 2 []) 2 3 = [cf] := by simp [slice]
    have hd : ([typ] ++ (u :: cf :: s) ++ List.take 2 []).drop 3 = s := by simp
    refine ⟨w, ?_⟩
    unfold Target.initNetwork
    rw [hw]
    simp only [pure_bind, Target.contentFlags, hcf', unpackU_byte, hd, readStrings_last tp h0, TextProc.next, hx, if_pos b7]
    simp [bind, Py.andThen, pure, Py.ret, Py.raise]
  obtain ⟨w, hin⟩ := hin
  have hst : ∃ w, LnkTargets.step tp (itemBytes ([typ] ++ (u :: cf :: s))) = ⟨w, .error .stopIteration⟩ := by
    simp only [Target.init, hin] at hs
    rw [hs]
    exact ⟨_, rfl⟩
  obtain ⟨w', hst⟩ := hst
  refine ⟨w', ?_⟩
  rw [LnkTargets.idLists.eq_def, if_neg (by simp [itemBytes])]
  have hg : LnkTargets.genBody (LnkTargets.step tp (itemBytes ([typ] ++ (u :: cf :: s)))) = ⟨w', .error .runtimeError⟩ := by
    rw [hst]; simp [LnkTargets.genBody, Py.tryExcept, Py.raise]
  simp only [hg]

/-- Both exceptions occur: a list with one cut root folder, a list with one network location `0xC3`/`a`. -/
example (env : Env) :
    (LnkTargets.asListLoop (LnkTargets.idLists (TextProc.mk' env none) (encodeItems [] ++ (cutRoot 0 [] ++ [])))).res =
      .error .structError ∧
    ∃ w, LnkTargets.idLists (TextProc.mk' env none) (itemBytes ([0x43] ++ (0 :: 0x80 :: [0x61]))) =
      [⟨w, .error .runtimeError⟩] :=
  ⟨malformed_item_raises _ [] ⟨by simp, by decide⟩ 0 [] [] (by decide),
   network_too_few_strings _ (usable_default env) 0x43 0 0x80 [0x61] (by decide) (by decide) (by decide) (by decide)⟩

/-! ### C48 -/

/-- C48: what is reported for an item depends only on the item's own bytes and on the two bytes that follow. -/
theorem item_window (tp : TextProc) (cls : TargetClass) (p rest rest' : Bytes) (hl : p.length + 2 < 65536)
    (h2 : rest.take 2 = rest'.take 2) :
    (do
      let t ← Target.init cls tp (itemBytes p ++ rest)
      t.asItem) =
    (do
      let t ← Target.init cls tp (itemBytes p ++ rest')
      t.asItem) := by
  have hz : Target.sizeOf (itemBytes p ++ rest) = Target.sizeOf (itemBytes p ++ rest') := by
    have a : Target.sizeOf (itemBytes p ++ rest) = pure (p.length + 2) := itemSize_itemBytes hl
    have b : Target.sizeOf (itemBytes p ++ rest') = pure (p.length + 2) := itemSize_itemBytes hl
    rw [a, b]
  have hw := Target.window_itemBytes hl (rest := rest)
  have hw' := Target.window_itemBytes hl (rest := rest')
  cases cls
  case networkLocation =>
    simp only [Target.init, Target.initNetwork, hw, hw', pure_bind, h2, bind_assoc]
    rfl
  case unknown =>
    simp only [Target.init, hw, hw', pure_bind, h2, Target.asItem, hz]
  all_goals
    simp only [Target.init, hw, hw', pure_bind, h2]
    rfl

/-- C48: the two following bytes do matter: a root folder whose GUID lacks two bytes borrows them from the next
item. -/
theorem item_window_leak (tp : TextProc) (si x y : UInt8) (body rest : Bytes) (hb : body.length = 14) :
    (do
      let t ← Target.init .rootFolder tp (itemBytes ([0x1F] ++ (si :: body)) ++ x :: y :: rest)
      t.asItem).res.toOption.bind (·.lookup "guid") =
    (parseUuid (body ++ [x, y])).res.toOption.map .str := by
  have hl : ([0x1F] ++ (si :: body)).length + 2 < 65536 := by simp [hb]
  simp only [Target.init, Target.window_itemBytes hl, pure_bind, Target.asItem, Target.rootGuid, Target.sortIndex,
    Target.sortIndexValue]
  have h1 : slice ([0x1F] ++ (si :: body) ++ List.take 2 (x :: y :: rest)) 1 2 = [si] := by simp [slice]
  have h2 : slice ([0x1F] ++ (si :: body) ++ List.take 2 (x :: y :: rest)) 2 18 = body ++ [x, y] := by
    simp [slice, List.take_append, hb]
  rw [h1, h2, unpackU_byte]
  simp only [pure_bind]
  rcases parseUuid (body ++ [x, y]) with ⟨w, e | g⟩ <;> cases Target.SORT_INDEX.lookup si.toNat <;> rfl

/-- C48: an Unknown item is reported with a size two larger than the one it has in the list. -/
theorem unknown_size (tp : TextProc) (typ : UInt8) (body rest : Bytes) (ht : itemClass typ.toNat = none)
    (hl : body.length + 3 < 65536) :
    ∃ t w1 w2, LnkTargets.step tp (itemBytes ([typ] ++ body) ++ rest) = ⟨w1, .ok (some (t, rest))⟩ ∧
      t.asItem = ⟨w2, .ok [("class", .str "Unknown".toList),
        ("size", .int (((itemBytes ([typ] ++ body)).length + 2 : Nat) : Int))]⟩ := by
  obtain ⟨t, w1, w2, h1, h2, -⟩ := step_item (tp := tp) (.other typ body) ht (by simp [Item.payload]; omega) rest
  refine ⟨t, w1, w2, h1, ?_⟩
  rw [h2]
  simp [Item.report, itemBytes]
  omega

/-- An unknown item of seven bytes. -/
example (tp : TextProc) (rest : Bytes) : ∃ t w1 w2, LnkTargets.step tp (itemBytes [0x99, 1, 2, 3, 4] ++ rest) = ⟨w1, .ok (some (t, rest))⟩ ∧
    t.asItem = ⟨w2, .ok [("class", .str "Unknown".toList), ("size", .int 9)]⟩ :=
  unknown_size tp 0x99 [1, 2, 3, 4] rest (by decide) (by decide)

end Verif.Props
