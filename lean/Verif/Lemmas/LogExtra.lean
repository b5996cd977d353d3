import Verif.Lemmas.LogList
import Verif.Lemmas.ValuesExtra

/-
What the extra blocks say and raise.
-/

namespace Verif

open Spec Spec.Log Py

/-! ### properties -/

namespace Metadata

theorem logs_chain (b : Bytes) : (∃ l, Records b l ∧ sizeChain b = pure l) ∨ (∀ l, ¬ Records b l) ∧ sizeChain b = Py.raise .structError := by
  generalize hm : b.length = m
  induction m using Nat.strong_induction_on generalizing b with
  | _ m ih =>
    rw [sizeChain_eq]
    have hr := reads_unpackU (b := b) (n := 4) (s := 0) (e := 4) (by omega) (by omega)
    by_cases hl : 4 ≤ b.length
    · obtain ⟨k, hk⟩ := LnkInfo.uAt_exists (raw := b) (off := 0) (by omega)
      rw [hr.ok hl, hk, Option.getD_some, pure_bind]
      by_cases h0 : k = 0
      · subst h0
        exact .inl ⟨[], .stop hk, rfl⟩
      · have hd : (b.drop k).length < b.length := by simp; omega
        rw [if_neg h0, if_pos hd]
        rcases ih _ (hm ▸ hd) _ rfl with ⟨l, h1, h2⟩ | ⟨h1, h2⟩
        · exact .inl ⟨b :: l, .next hk h0 h1, by rw [h2, pure_bind]⟩
        · refine .inr ⟨fun l hl => ?_, by rw [h2]; rfl⟩
          cases hl with
          | stop h => rw [hk] at h; exact h0 (Option.some.inj h)
          | next h _ h' => rw [hk] at h; cases h; exact h1 _ h'
    · refine .inr ⟨fun l hl' => ?_, by rw [hr.err (by omega)]; rfl⟩
      cases hl' with
      | stop h => have := ExtraData.uAt_some_length h; omega
      | next h => have := ExtraData.uAt_some_length h; omega

theorem logs_collect {f : Bytes → Py Dict} {g : Bytes → Log} (hf : ∀ b, Logs (f b) (g b)) (l : List Bytes) :
    Logs (collect f l) (all (l.map g)) := by
  induction l with
  | nil => exact logs_nil _
  | cons x xs ih => exact logs_cons (hf x) fun _ _ => logs_map _ ih

theorem logs_records {f : Bytes → Py Dict} {g : Bytes → Log} (hf : ∀ b, Logs (f b) (g b)) (b : Bytes) :
    Logs (sizeChain b >>= collect f) (records g b) := by
  rcases logs_chain b with ⟨l, h1, h2⟩ | ⟨h1, h2⟩
  · rw [h2, pure_bind]
    exact .inl ⟨l, h1, logs_collect hf l⟩
  · rw [h2]
    exact .inr ⟨h1, logs_raise _⟩

theorem logs_typeName (t : Nat) : Logs (propertyTypeName t) (need (typeName t ≠ none) .valueError) := by
  rw [propertyTypeName_eq]
  rcases typeName t with _ | s
  · rw [need_neg (by simp)]; exact logs_raise _
  · rw [need_pos (by simp)]; exact logs_pure _

theorem logs_typed (v : Bytes) (g : PyVal → String → Dict) : Logs (do
    let value ← typedValue v
    let t ← valueType v
    let value_type ← propertyTypeName t
    pure (g value value_type)) (typed v) := by
  unfold typed typedValue
  simp only [bind_assoc]
  refine read_last (reads_unpackU (by omega) (by omega)) fun hl => ?_
  have ht : valueType v = pure (u2 v 0) := (reads_unpackU (by omega) (by omega)).ok (by omega)
  simp only [ht, pure_bind]
  refine logs_cons (l := given (u2 v 2 = 0) _) ?_ fun _ _ => logs_single (logs_map _ (logs_typeName _))
  by_cases h2 : u2 v 2 = 0
  · rw [given_pos h2, if_neg (show ¬ (uAt 2 v 2).getD 0 ≠ 0 from not_not.2 h2)]
    by_cases h0 : u2 v 0 = 2
    · rw [if_pos h0, if_pos h0]
      have : unpackI 4 (slice v 4 6) = Py.raise .structError := by
        unfold unpackI
        rw [if_neg (by simp; omega)]
      rw [this]
      exact logs_raise _
    · rw [if_neg h0, if_neg h0]
      by_cases h1 : u2 v 0 = 0x1F
      · rw [if_pos h1, given_pos h1]
        refine read_last (reads_unpackU (by omega) (by omega)) fun hl => ?_
        exact logs_single (logs_map _ (logs_wide _))
      · rw [if_neg h1, given_neg h1]
        exact logs_pure _
  · rw [given_neg h2, if_pos (show (uAt 2 v 2).getD 0 ≠ 0 from h2)]
    exact logs_pure _

theorem logs_integer (v : Bytes) : Logs (integerNameAsDict v) (property false v) := by
  unfold integerNameAsDict property
  refine read_step (reads_unpackU (by omega) (by omega)) (by omega) ?_
  refine read_last (reads_unpackU (by omega) (by omega)) fun _ => ?_
  rw [given_neg (by simp), all_quiet]
  exact logs_single (logs_typed _ _)

theorem logs_string (v : Bytes) : Logs (stringNameAsDict v) (property true v) := by
  unfold stringNameAsDict property
  refine read_step (reads_unpackU (by omega) (by omega)) (by omega) ?_
  refine read_last (reads_unpackU (by omega) (by omega)) fun _ => ?_
  rw [given_pos rfl]
  exact logs_cons (logs_wide _) fun _ _ => logs_single (logs_typed _ _)

theorem logs_storage (s : Bytes) : Logs (storageAsDict s) (storage s) := by
  unfold storageAsDict storage
  refine read_step (reads_unpackU (by omega) (by omega)) (by omega) ?_
  refine read_step (reads_unpackU (by omega) (by omega)) (by omega) ?_
  have hr : Reads (formatId s) 24 s (val (formatId s)) := reads_parseUuid rfl
  refine read_last hr fun h24 => ?_
  obtain ⟨g, hg⟩ := Props.guid_every_16_bytes (slice s 8 24) (by simp; omega)
  have hf : formatId s = pure g.text := by
    unfold formatId
    rw [← hg, parseUuid_encode]
  have hd : (between s 8 24 = stringNamedFormat.encode) ↔ g.text = stringNameFormat := by
    rw [formatText_inj]
    have : between s 8 24 = g.encode := hg.symm
    rw [this]
    exact ⟨fun h => Guid_encode_inj h, fun h => by rw [h]⟩
  generalize val (formatId s) = fid
  rw [hf, pure_bind]
  have hP : ∀ v, Logs ((if g.text = stringNameFormat then stringNameAsDict else integerNameAsDict) v)
      (property (decide (between s 8 24 = stringNamedFormat.encode)) v) := by
    intro v
    by_cases h : g.text = stringNameFormat
    · rw [decide_eq_true (hd.2 h), if_pos h]
      exact logs_string v
    · rw [decide_eq_false (mt hd.1 h), if_neg h]
      exact logs_integer v
  generalize property (decide (between s 8 24 = stringNamedFormat.encode)) = P at hP ⊢
  generalize (if g.text = stringNameFormat then stringNameAsDict else integerNameAsDict) = f at hP ⊢
  have := logs_map (g := fun items => ([("storage_size", .nat ((uAt 4 s 0).getD 0)), ("version", .str (pyHex ((uAt 4 s 4).getD 0))),
    ("format_id", .str fid), ("serialized_property_values", .list items)] : Dict)) (logs_records hP (s.drop 24))
  rw [bind_assoc] at this
  exact logs_single this

end Metadata

/-! ### blocks -/

namespace Extra

theorem reads_uint (x : Extra) {s e : Nat} (h : s < e) : Reads (x.uint s e) e x.raw ((uAt (e - s) x.raw s).getD 0) := reads_unpackU h rfl
theorem reads_sint (x : Extra) {s e : Nat} (h : s < e) : Reads (x.sint s e) e x.raw (val (x.sint s e)) := reads_unpackI h rfl

theorem packed_pure (t : Str) : parsePackedUuid (some t) = (if 20 ≤ t.length then pure (val (parsePackedUuid (some t))) else Py.raise .indexError) := by
  have hw := (warned_parsePackedUuid (P := fun _ => False) (some t))
  have h0 : (parsePackedUuid (some t)).warns = [] := by
    rcases hx : (parsePackedUuid (some t)).warns with _ | ⟨w, ws⟩
    · rfl
    · exact absurd (hw.out w (by rw [hx]; simp)) id
  rcases hp : parsePackedUuid (some t) with ⟨w, r⟩
  rw [hp] at h0
  simp only at h0
  subst h0
  split
  · rename_i h
    obtain ⟨u, hu⟩ := parsePackedUuid_long t h
    rw [hp] at hu
    simp only at hu
    subst hu
    rfl
  · rename_i h
    have hu := Props.parsePackedUuid_short t (by omega)
    rw [hp] at hu
    simp only at hu
    subst hu
    rfl

theorem logs_packed (t : Str) : Logs (parsePackedUuid (some t)) (need (20 ≤ t.length) .indexError) := by
  rw [packed_pure]
  split
  · rw [need_pos ‹_›]; exact logs_pure _
  · rw [need_neg ‹_›]; exact logs_raise _

theorem logs_target (x : Extra) : Logs x.targetFields (all [narrow x.tp (between x.raw 8 268), wide (between x.raw 268 788)]) :=
  logs_cons (logs_narrow _ _) fun _ _ => logs_single (logs_map _ (logs_wide _))

theorem logs_console (x : Extra) : Logs x.consoleFields (all [room 44 x.raw, wide (between x.raw 44 108), room 144 x.raw]) := by
  unfold consoleFields
  refine read_step (reads_uint x (by omega)) (by omega) ?_
  refine read_step (reads_uint x (by omega)) (by omega) ?_
  refine read_step (reads_sint x (by omega)) (by omega) ?_
  refine read_step (reads_sint x (by omega)) (by omega) ?_
  refine read_step (reads_sint x (by omega)) (by omega) ?_
  refine read_step (reads_sint x (by omega)) (by omega) ?_
  refine read_step (reads_sint x (by omega)) (by omega) ?_
  refine read_step (reads_sint x (by omega)) (by omega) ?_
  refine read_step (reads_uint x (by omega)) (by omega) ?_
  refine read_step (reads_uint x (by omega)) (by omega) ?_
  refine read_last (reads_uint x (by omega)) fun _ => ?_
  refine logs_cons (logs_wide _) fun _ _ => ?_
  refine read_step (reads_uint x (by omega)) (by omega) ?_
  refine read_step (reads_uint x (by omega)) (by omega) ?_
  refine read_step (reads_uint x (by omega)) (by omega) ?_
  refine read_step (reads_uint x (by omega)) (by omega) ?_
  refine read_step (reads_uint x (by omega)) (by omega) ?_
  refine read_step (reads_uint x (by omega)) (by omega) ?_
  refine read_step (reads_uint x (by omega)) (by omega) ?_
  refine read_step (reads_uint x (by omega)) (by omega) ?_
  exact read_last (reads_uint x (by omega)) fun _ => logs_nil _

theorem logs_tracker (x : Extra) : Logs x.trackerFields (all
    [ room 12 x.raw, say (unlessEqual "length" (.int 0x58) (.int (u4 x.raw 8))), room 16 x.raw,
      say (unlessEqual "version" (.int 0) (.int (u4 x.raw 12))), narrow x.tp (between x.raw 16 32), room 96 x.raw ]) := by
  unfold trackerFields
  refine logs_app (ls := [_, _]) (logs_mustBe (b := x.raw) "length" 0x58 (by omega) rfl) fun _ _ => ?_
  refine logs_app (ls := [_, _]) (logs_mustBe (b := x.raw) "version" 0 (by omega) rfl) fun _ _ => ?_
  refine logs_cons (logs_narrow _ _) fun _ _ => ?_
  refine read_step (reads_parseUuid (b := x.raw) rfl) (by omega) ?_
  refine read_step (reads_parseUuid (b := x.raw) rfl) (by omega) ?_
  refine read_step (reads_parseUuid (b := x.raw) rfl) (by omega) ?_
  exact read_last (reads_parseUuid (b := x.raw) rfl) fun _ => logs_nil _

theorem logs_darwin (x : Extra) : Logs x.darwinFields (all [narrow x.tp (between x.raw 8 268), descriptor (between x.raw 268 788)]) := by
  unfold darwinFields
  refine logs_cons (logs_narrow _ _) fun _ _ => logs_single ?_
  unfold descriptor productCodeId featureName componentId
  have hw : Logs x.darwinDataUnicode (wide (between x.raw 268 788)) := logs_wide _
  have hv : ∀ t, x.darwinDataUnicode.res = .ok t ↔ WideText (between x.raw 268 788) t := wideText_iff _
  refine logs_cons hw fun s hs => ?_
  have hu : ∀ t, WideText (between x.raw 268 788) t ↔ t = s := by
    intro t
    rw [← hv, hs]
    constructor
    · intro h; cases h; rfl
    · rintro rfl; rfl
  simp only [hu, bind_assoc]
  refine logs_cons hw fun s' hs' => ?_
  obtain rfl : s' = s := (hu _).1 ((hv _).1 hs')
  have e1 : (∃ t, t = s' ∧ 20 ≤ t.length) ↔ 20 ≤ (slice s' 0 20).length := by
    have : 20 ≤ (slice s' 0 20).length ↔ 20 ≤ s'.length := by simp
    rw [this]
    constructor
    · rintro ⟨t, rfl, h⟩; exact h
    · exact fun h => ⟨s', rfl, h⟩
  rw [e1]
  refine logs_cons (logs_packed _) fun _ _ => ?_
  refine logs_cons hw fun s'' hs'' => ?_
  obtain rfl : s'' = s' := (hu _).1 ((hv _).1 hs'')
  have hf : ∃ o : Option Str, (if max (strFind s'' '>') (strFind s'' '<') = 20 then pure none
      else pure (some (sliceTo s'' 20 (max (strFind s'' '>') (strFind s'' '<')))) : Py (Option Str)) = pure o := by
    split <;> exact ⟨_, rfl⟩
  obtain ⟨o, hf⟩ := hf
  rw [hf, pure_bind]
  refine logs_cons hw fun s3 hs3 => logs_single (logs_map _ ?_)
  obtain rfl : s3 = s'' := (hu _).1 ((hv _).1 hs3)
  by_cases h0 : '>' ∈ s3
  · obtain ⟨pre, post, rfl, hp⟩ : ∃ pre post, s3 = pre ++ '>' :: post ∧ '>' ∉ pre := List.eq_append_cons_of_mem h0
    rw [strFind_append hp, if_neg (by omega)]
    have : (pre ++ '>' :: post).drop ((pre.length : Int) + 1).toNat = post := by
      have : ((pre.length : Int) + 1).toNat = pre.length + 1 := by omega
      rw [this]
      simp
    rw [this]
    have e2 : (∀ pre' post', pre' ++ '>' :: post' = pre ++ '>' :: post → '>' ∉ pre' → 20 ≤ post'.length) ↔ 20 ≤ post.length := by
      constructor
      · exact fun h => h _ _ rfl hp
      · intro h pre' post' he hp'
        have h1 := strFind_append (b := post) hp
        have h2 := strFind_append (b := post') hp'
        rw [he, h1] at h2
        have hl : pre.length = pre'.length := by omega
        have := List.append_inj he hl.symm
        rw [(List.cons.inj this.2).2]
        exact h
    rw [e2]
    exact logs_packed _
  · rw [strFind_none h0, if_pos rfl, need_pos]
    · exact logs_pure _
    · rintro pre post rfl
      simp at h0

theorem logs_known (x : Extra) : Logs x.knownFolderFields (room 28 x.raw) := by
  unfold knownFolderFields
  rw [← all_one (room 28 x.raw)]
  refine read_step (reads_parseUuid (b := x.raw) rfl) (by omega) ?_
  exact read_last (reads_uint x (by omega)) fun _ => logs_nil _

theorem logs_special (x : Extra) : Logs x.specialFolderFields (room 16 x.raw) := by
  unfold specialFolderFields
  rw [← all_one (room 16 x.raw)]
  refine read_step (reads_uint x (by omega)) (by omega) ?_
  exact read_last (reads_uint x (by omega)) fun _ => logs_nil _

theorem logs_codePage (x : Extra) : Logs x.codePageFields (room 12 x.raw) := by
  unfold codePageFields
  rw [← all_one (room 12 x.raw)]
  exact read_last (reads_uint x (by omega)) fun _ => logs_nil _

theorem logs_metadata (x : Extra) : Logs x.metadataFields (records storage (x.raw.drop 8)) := logs_map _ (Metadata.logs_records Metadata.logs_storage _)

theorem logs_shellItem {x : Extra} (ht : Tame x.tp) {n : Nat} (hn : uAt 4 x.raw 0 = some n) (hl : x.raw.length ≤ n) :
    Logs x.shellItemFields (Log.list x.tp (x.raw.drop 8)) := by
  unfold shellItemFields
  have h4 := ExtraData.uAt_some_length hn
  have hu := (reads_uint x (s := 0) (e := 4) (by omega)).ok (by omega)
  rw [show (4 : Nat) - 0 = 4 from rfl, hn, Option.getD_some] at hu
  rw [shellItemIter_eq hu]
  have : slice x.raw 8 n = x.raw.drop 8 := by
    unfold slice
    exact List.take_of_length_le (by simp; omega)
  rw [this]
  exact logs_map _ (LnkTargets.logs_list ht _)

theorem logs_fields {tp : TextProc} (ht : Tame tp) {b : Bytes} {s n : Nat} (hn : uAt 4 b 0 = some n) (hl : b.length ≤ n) :
    Logs (fields ⟨extraKind s, tp, b⟩) (block tp s b) := by
  by_cases hs : s ∈ extraKinds.map Prod.fst
  · simp only [extraKinds, List.map_cons, List.map_nil, List.mem_cons, List.not_mem_nil, or_false] at hs
    rcases hs with rfl | rfl | rfl | rfl | rfl | rfl | rfl | rfl | rfl | rfl | rfl
    · exact logs_target ⟨.environment, tp, b⟩
    · exact logs_console ⟨.console, tp, b⟩
    · exact logs_tracker ⟨.distributedTracker, tp, b⟩
    · exact logs_codePage ⟨.codePage, tp, b⟩
    · exact logs_special ⟨.specialFolder, tp, b⟩
    · exact logs_darwin ⟨.darwin, tp, b⟩
    · exact logs_target ⟨.icon, tp, b⟩
    · exact logs_map _ (logs_narrow tp (b.drop 8))
    · exact logs_metadata ⟨.metadata, tp, b⟩
    · exact logs_known ⟨.knownFolder, tp, b⟩
    · exact logs_shellItem (x := ⟨.shellItem, tp, b⟩) ht hn hl
  · rw [Values.extraKind_unknown hs]
    simp only [extraKinds, List.map_cons, List.map_nil, List.mem_cons, List.not_mem_nil, or_false, not_or] at hs
    obtain ⟨h1, h2, h3, h4, h5, h6, h7, h8, h9, hB, hC⟩ := hs
    unfold block
    simp only [h1, h2, h3, h4, h5, h6, h7, h8, h9, hB, hC, or_self, if_false]
    exact logs_pure _

theorem logs_asDict {tp : TextProc} (ht : Tame tp) {b : Bytes} {s n : Nat} (hn : uAt 4 b 0 = some n) (hl : b.length ≤ n) :
    Logs (asDict ⟨extraKind s, tp, b⟩) (block tp s b) := by
  unfold asDict
  rw [ExtraData.size_eq _ (extraKind_ne_terminal s), hn]
  simp only [pure_bind]
  exact logs_map _ (logs_fields ht hn hl)

end Extra

/-! ### the extra data -/

namespace ExtraData

theorem logs_asDictLoop_cons {x : Extra} {l : Log} {xs : List Extra} {m : Log} (hx : Logs x.asDict l) (hm : ∀ res, Logs (asDictLoop xs res) m)
    (res : Dict) : Logs (asDictLoop (x :: xs) res) (Log.andThen (Log.caught x.cls.name l) m) := by
  rw [asDictLoop]
  generalize (if x.cls = .unknown ∧ ¬ res.has x.cls.name then res.set x.cls.name (.list []) else res) = res
  rcases hd : x.asDict with ⟨w, e | d⟩
  · rw [hd] at hx
    by_cases he : e = .structError ∨ e.isValueError = true
    · have : Py.attempt (⟨w, .error e⟩ : Py Dict) (fun e => e = .structError ∨ e.isValueError) = ⟨w, .ok (.error e)⟩ := by
        unfold Py.attempt
        simp [he]
      rw [this]
      have hc : Log.caught x.cls.name l (w ++ [.extraBlock x.cls.name e]) none := by
        refine .inl ⟨w, e, ?_, hx, rfl, rfl⟩
        rcases he with he | he
        · exact .inl he
        · right
          cases e <;> simp_all [PyErr.isValueError]
      refine .inr ⟨_, (asDictLoop xs res).warns, ?_, hc, ?_⟩
      · show w ++ ([Warn.extraBlock x.cls.name e] ++ _) = _
        rw [List.append_assoc]
      · exact hm res
    · have : Py.attempt (⟨w, .error e⟩ : Py Dict) (fun e => e = .structError ∨ e.isValueError) = ⟨w, .error e⟩ := by
        unfold Py.attempt
        simp [he]
      rw [this]
      refine .inl ⟨.inr ⟨hx, ?_⟩, ?_⟩
      · intro y hy
        obtain rfl : e = y := Option.some.inj hy
        refine ⟨?_, ?_, ?_⟩ <;> rintro rfl <;> simp [PyErr.isValueError] at he
      · exact fun h => nomatch h
  · rw [hd] at hx
    have hc : Log.caught x.cls.name l w none := .inr ⟨hx, fun _ h => nomatch h⟩
    refine .inr ⟨w, ((if x.cls = .unknown then
        asDictLoop xs (res.set x.cls.name (.list (listAt res x.cls.name ++ [.dict d])))
      else asDictLoop xs (res.set x.cls.name (.dict d)))).warns, rfl, hc, ?_⟩
    have : ∀ y : Py Dict, Logs y m → m y.warns (Py.err (⟨w ++ y.warns, y.res⟩ : Py Dict)) := fun y hy => hy
    refine this _ ?_
    split
    · exact hm _
    · exact hm _

theorem logs_asDict {tp : TextProc} (ht : Tame tp) {b : Bytes} {l : List Piece} {last : Bytes} (hc : Cut b l last)
    (h4 : ∀ p ∈ signed l, 4 ≤ p.declared) (T : List Extra) (hT : ∀ x ∈ T, x.cls = .terminal) :
    Logs (asDict ⟨objects tp l ++ T⟩) (all (l.map (extra tp))) := by
  have hd := cut_declared hc
  clear hc
  unfold asDict
  simp only
  have hE : ∀ res, Logs (asDictLoop T res) quiet := by
    induction T with
    | nil => exact fun res => logs_pure _
    | cons x T ih =>
      intro res
      have h1 : Logs x.asDict quiet := by
        have : x.cls = .terminal := hT x (by simp)
        unfold Extra.asDict Extra.size Extra.fields
        rw [this]
        exact ⟨rfl, rfl⟩
      have := logs_asDictLoop_cons h1 (ih fun y hy => hT y (by simp [hy])) res
      rw [andThen_quiet] at this
      have hq : Log.caught x.cls.name quiet = quiet := by
        funext w e
        apply propext
        constructor
        · rintro (⟨u, y, -, h, -⟩ | ⟨h, -⟩)
          · cases h.2
          · exact h
        · rintro ⟨rfl, rfl⟩
          exact .inr ⟨⟨rfl, rfl⟩, fun _ h => nomatch h⟩
      rwa [hq] at this
  have key : ∀ res, Logs (asDictLoop (objects tp l ++ T) res) (all (l.map (extra tp))) := by
    induction l with
    | nil => exact hE
    | cons p l ih =>
      have ih := ih (fun q hq => h4 q (by simp only [signed, List.mem_filter, List.mem_cons] at hq ⊢; exact ⟨.inr hq.1, hq.2⟩))
        (fun q hq => hd q (by simp [hq]))
      intro res
      rcases hs : p.signature with _ | s
      · have e1 : objects tp (p :: l) = objects tp l := by simp [objects, hs]
        rw [e1, List.map_cons, all_cons]
        have : extra tp p = quiet := by unfold extra; rw [hs]
        rw [this, quiet_andThen]
        exact ih res
      · have e1 : objects tp (p :: l) = ⟨extraKind s, tp, p.bytes⟩ :: objects tp l := by simp [objects, hs]
        rw [e1, List.map_cons, all_cons, List.cons_append]
        have : extra tp p = Log.caught (blockName s) (block tp s p.bytes) := by unfold extra; rw [hs]
        rw [this, ← extraKind_name]
        have hp := hd p (by simp)
        have h4' := h4 p (by simp [signed, hs])
        rw [if_pos h4'] at hp
        exact logs_asDictLoop_cons (x := ⟨extraKind s, tp, p.bytes⟩) (Extra.logs_asDict ht hp.2.1 hp.2.2.1) ih res
  exact key []

end ExtraData

end Verif
