import Verif.Lemmas.VisibleInfo
import Verif.Props.Link

/-
C66: what the report says about the file.
-/

namespace Verif.Props

open Spec LnkHeader

/-! ### header -/

theorem time_same {v v' : Int64} {r : Option DateTime} {w w' : List Warn} (h : TimeRead v r w) (h' : TimeRead v' r w') :
    SameTime v v' := by
  rcases r with _ | d
  · refine .inr ⟨?_, ?_⟩
    · by_cases h0 : v = 0
      · exact .inl h0
      · exact .inr (h.missing h0 rfl).2
    · by_cases h0 : v' = 0
      · exact .inl h0
      · exact .inr (h'.missing h0 rfl).2
  · have h1 := (h.near d rfl).2.1
    have h2 := (h'.near d rfl).2.1
    have s1 := h.stamp d rfl
    have s2 := h'.stamp d rfl
    have z1 : v ≠ 0 := fun h0 => by simpa using (h.zero h0).1
    have z2 : v' ≠ 0 := fun h0 => by simpa using (h'.zero h0).1
    refine .inl ⟨fun hn => hn.elim z1 s1.2, fun hn => hn.elim z2 s2.2, ?_, _, s1.1, s2.1⟩
    rw [abs_le] at *
    omega

theorem sameTime_refl (v : Int64) : SameTime v v := by
  by_cases h : SameTime.NoDate v
  · exact .inr ⟨h, h⟩
  · exact .inl ⟨h, h, by simp, _, filetimeMicros_stamp _, filetimeMicros_stamp _⟩

/-- What is read for values that cannot be told apart. -/
theorem same_time {v v' : Int64} {r r' : Option DateTime} {w w' : List Warn} (h : TimeRead v r w) (h' : TimeRead v' r' w')
    (e : SameTime v v') : r = r' := by
  have none_of : ∀ {v : Int64} {r : Option DateTime} {w : List Warn}, TimeRead v r w → SameTime.NoDate v → r = none := by
    intro v r w h hn
    rcases hn with hn | hn
    · exact (h.zero hn).1
    · rcases r with _ | d
      · rfl
      · exact absurd hn (h.stamp d rfl).2
  rcases e with ⟨h1, h2, -, n, s1, s2⟩ | ⟨h1, h2⟩
  · rcases r with _ | d
    · exact absurd (h.missing (fun h0 => h1 (.inl h0)) rfl).2 (fun hc => h1 (.inr hc))
    rcases r' with _ | d'
    · exact absurd (h'.missing (fun h0 => h2 (.inl h0)) rfl).2 (fun hc => h2 (.inr hc))
    have e1 := stamp_unique (h.stamp d rfl).1 s1
    have e2 := stamp_unique (h'.stamp d' rfl).1 s2
    rw [instant_inj (h.near d rfl).1 (h'.near d' rfl).1 (by omega)]
  · rw [none_of h h1, none_of h' h2]

theorem showCommand_same {v v' : Int32} (h : showCommandName v.toInt = showCommandName v'.toInt) :
    v = v' ∨ (v ∉ [3, 7] ∧ v' ∉ [3, 7]) := by
  have e : ∀ x : Int32, (x.toInt = 3 ↔ x = 3) ∧ (x.toInt = 7 ↔ x = 7) := fun x =>
    ⟨by rw [← Int32.toInt_inj]; rfl, by rw [← Int32.toInt_inj]; rfl⟩
  unfold showCommandName at h
  simp only [(e v).1, (e v).2, (e v').1, (e v').2] at h
  by_cases a : v = 3
  · by_cases a' : v' = 3
    · exact .inl (a.trans a'.symm)
    · by_cases b' : v' = 7 <;> simp [a, a', b'] at h
  · by_cases b : v = 7
    · by_cases b' : v' = 7
      · exact .inl (b.trans b'.symm)
      · by_cases a' : v' = 3 <;> simp [a', b, b'] at h
    · by_cases a' : v' = 3
      · simp [a, b, a'] at h
      · by_cases b' : v' = 7
        · simp [a, b, b'] at h
        · exact .inr (by simp [a, b, a', b'])

/-- Equal header objects come from headers that are the same up to the precision of the times and unknown show commands. -/
theorem header_same {h h' : Header} {c a w c' a' w' : Option DateTime} {wc wa ww wc' wa' ww' : List Warn}
    (tc : TimeRead h.creationTime c wc) (ta : TimeRead h.accessTime a wa) (tw : TimeRead h.writeTime w ww)
    (tc' : TimeRead h'.creationTime c' wc') (ta' : TimeRead h'.accessTime a' wa') (tw' : TimeRead h'.writeTime w' ww')
    (e : headerObject h c a w = headerObject h' c' a' w') : SameHeader h h' := by
  unfold headerObject at e
  simp only [List.cons.injEq, Prod.mk.injEq, true_and, and_true, PyVal.int.injEq, PyVal.str.injEq, Nat.cast_inj, opt_dt_inj,
    text_inj, UInt32.toNat_inj, UInt16.toNat_inj, String.toList_inj, Int32.toInt_inj] at e
  obtain ⟨e1, e2, e3, rfl, rfl, rfl, e4, e5, e6, -, e7, -, -, e8, e9, e10, e11⟩ := e
  have l1 := h.hotKeyLow.toNat_lt
  have l2 := h'.hotKeyLow.toNat_lt
  have k1 : h.hotKeyLow = h'.hotKeyLow := UInt8.toNat_inj.1 (by omega)
  have k2 : h.hotKeyHigh = h'.hotKeyHigh := UInt8.toNat_inj.1 (by omega)
  exact ⟨by simp only [e1, e2, e3, e4, e5, e8, e9, e10, e11, k1, k2], time_same tc tc', time_same ta ta', time_same tw tw',
    showCommand_same e6⟩

/-! ### strings -/

theorem strings_same {s s' : Strings} (h : stringsObject s = stringsObject s') : s.texts = s'.texts := by
  have g : ∀ s : Strings, ((stringsObject s).get? "description" = s.name.map fun c => .str c.2) ∧
      ((stringsObject s).get? "relative_path" = s.relativePath.map fun c => .str c.2) ∧
      ((stringsObject s).get? "working_directory" = s.workingDir.map fun c => .str c.2) ∧
      ((stringsObject s).get? "command_line_arguments" = s.arguments.map fun c => .str c.2) ∧
      ((stringsObject s).get? "icon_location" = s.iconLocation.map fun c => .str c.2) := by
    rintro ⟨a, b, c, d, e⟩
    cases a <;> cases b <;> cases c <;> cases d <;> cases e <;>
      simp [stringsObject, Strings.fields, Dict.get?_cons]
  have i : ∀ o o' : Option (List UInt8 × List Char), o.map (fun c => PyVal.str c.2) = o'.map (fun c => .str c.2) →
      o.map (·.2) = o'.map (·.2) := by
    intro o o' h
    cases o <;> cases o' <;> simp_all
  obtain ⟨a, b, c, d, e⟩ := g s
  obtain ⟨a', b', c', d', e'⟩ := g s'
  rw [h] at a b c d e
  unfold Strings.texts Strings.fields
  simp only [List.map_cons, List.map_nil]
  rw [i _ _ (a.symm.trans a'), i _ _ (b.symm.trans b'), i _ _ (c.symm.trans c'), i _ _ (d.symm.trans d'), i _ _ (e.symm.trans e')]

theorem strings_object_same {s s' : Strings} : stringsObject s = stringsObject s' ↔ s.texts = s'.texts := by
  refine ⟨strings_same, fun h => ?_⟩
  have i : ∀ (k : String) {o o' : Option (List UInt8 × List Char)}, o.map (·.2) = o'.map (·.2) →
      o.map (fun c => (k, PyVal.str c.2)) = o'.map (fun c => (k, .str c.2)) := by
    intro k o o' h
    cases o <;> cases o' <;> simp_all
  unfold Strings.texts Strings.fields at h
  simp only [List.map_cons, List.map_nil, List.cons.injEq, and_true] at h
  obtain ⟨h1, h2, h3, h4, h5⟩ := h
  unfold stringsObject Strings.fields
  simp only [List.filterMap_cons, List.filterMap_nil]
  rw [i _ h1, i _ h2, i _ h3, i _ h4, i _ h5]

/-! ### blocks -/

theorem not_terminal (n : Nat) : blockName n ≠ "TERMINAL_BLOCK" := by
  unfold blockName
  rcases h : blockNames.lookup n with _ | x
  · simp
  · have := (List.lookup_eq_some_iff.1 h)
    obtain ⟨l1, l2, e, -⟩ := this
    have hm : x ∈ blockNames.map (·.2) := by rw [e]; simp
    rw [Option.getD_some]
    rintro rfl
    revert hm
    decide

/-- The blocks with a name. -/
theorem named_reports (hash : Bytes → Str) (s : ShellLink) (k : String) :
    named (s.blockReports hash) k =
      (s.blocks.filter fun b => blockName b.1.signature.toNat = k).map fun b => b.1.report hash b.2 := by
  unfold named ShellLink.blockReports
  rw [List.filter_map, List.map_map]
  rfl

/-- Names and contents including the data after the link. -/
def seenBlocks (hash : Bytes → Str) (s : ShellLink) (t : Option Bytes) : List (String × Dict) :=
  s.blockReports hash ++ t.toList.map fun b => ("TERMINAL_BLOCK", terminalReport hash b)

theorem named_seen (hash : Bytes → Str) (s : ShellLink) (t : Option Bytes) {k : String} (hk : k ≠ "TERMINAL_BLOCK") :
    named (seenBlocks hash s t) k = named (s.blockReports hash) k := by
  unfold named seenBlocks
  cases t <;> simp [List.filter_append, Ne.symm hk]

theorem names_seen (hash : Bytes → Str) (s : ShellLink) (t : Option Bytes) :
    (seenBlocks hash s t).map (·.1) = s.blocks.map (fun b => blockName b.1.signature.toNat) ++
      t.toList.map fun _ => "TERMINAL_BLOCK" := by
  unfold seenBlocks ShellLink.blockReports
  simp [Function.comp_def]

theorem first_seen (hash : Bytes → Str) (s : ShellLink) (t : Option Bytes) :
    firstOccurrences ((seenBlocks hash s t).map (·.1)) =
      firstOccurrences (s.blocks.map fun b => blockName b.1.signature.toNat) ++ t.toList.map fun _ => "TERMINAL_BLOCK" := by
  rw [names_seen]
  cases t with
  | none => simp
  | some b =>
    simp only [Option.toList_some, List.map_cons, List.map_nil]
    rw [ExtraData.first_snoc, if_neg]
    intro h
    obtain ⟨b, -, hb⟩ := List.mem_map.1 h
    exact not_terminal _ hb

theorem get_terminal (hash : Bytes → Str) (s : ShellLink) (t : Option Bytes) :
    (extraObject (seenBlocks hash s t)).get? "TERMINAL_BLOCK" = t.map fun b => .dict (terminalReport hash b) := by
  have hn : ¬ "TERMINAL_BLOCK" ∈ s.blocks.map fun b => blockName b.1.signature.toNat := by
    intro h
    obtain ⟨b, -, hb⟩ := List.mem_map.1 h
    exact not_terminal _ hb
  rw [ExtraData.get_object, names_seen]
  cases t with
  | none => simp [not_terminal]
  | some b =>
    rw [if_pos (by simp), if_neg (by decide)]
    unfold named seenBlocks
    simp [List.filter_append]

theorem get_block (hash : Bytes → Str) (s : ShellLink) (t : Option Bytes) {k : String} (hk : k ≠ "TERMINAL_BLOCK")
    (hu : k ≠ "UNKNOWN_BLOCK") :
    (extraObject (seenBlocks hash s t)).get? k = (s.lastBlock k).map fun b => .dict (b.1.report hash b.2) := by
  rw [ExtraData.get_object, named_seen hash s t hk, if_neg hu, named_reports, List.getLast?_map, names_seen]
  unfold ShellLink.lastBlock
  have hm : (k ∈ s.blocks.map (fun b => blockName b.1.signature.toNat) ++ t.toList.map fun _ => "TERMINAL_BLOCK") ↔
      (s.blocks.filter fun b => blockName b.1.signature.toNat = k) ≠ [] := by
    rw [ne_eq, List.filter_eq_nil_iff]
    cases t <;> simp [hk]
  simp only [hm]
  rcases hl : (s.blocks.filter fun b => blockName b.1.signature.toNat = k).getLast? with _ | b
  · rw [List.getLast?_eq_none_iff] at hl
    simp [hl]
  · rw [if_pos (by rintro h; rw [h] at hl; simp at hl), hl]
    rfl

theorem get_unknown (hash : Bytes → Str) (s : ShellLink) (t : Option Bytes) :
    (extraObject (seenBlocks hash s t)).get? "UNKNOWN_BLOCK" = if s.unknownBlocks = [] then none else
      some (.list (s.unknownBlocks.map fun b => .dict (b.1.report hash b.2))) := by
  rw [ExtraData.get_object, named_seen hash s t (by decide), if_pos rfl, named_reports, names_seen]
  have hm : ("UNKNOWN_BLOCK" ∈ s.blocks.map (fun b => blockName b.1.signature.toNat) ++ t.toList.map fun _ => "TERMINAL_BLOCK") ↔
      ¬ s.unknownBlocks = [] := by
    unfold ShellLink.unknownBlocks
    rw [List.filter_eq_nil_iff]
    cases t <;> simp
  simp only [hm]
  by_cases h : s.unknownBlocks = []
  · simp [h]
  · rw [if_pos h, if_neg h, List.map_map]
    rfl

theorem lastBlock_mem {s : ShellLink} {k : String} {b : Block × List UInt8} (h : s.lastBlock k = some b) :
    b ∈ s.blocks ∧ blockName b.1.signature.toNat = k := by
  have := List.mem_of_getLast? h
  simpa using List.mem_filter.1 this

theorem terminal_same {hash : Bytes → Str} {b b' : Bytes} :
    terminalReport hash b = terminalReport hash b' ↔ b.length = b'.length ∧ hash b = hash b' := by
  unfold terminalReport
  simp only [List.cons.injEq, Prod.mk.injEq, true_and, and_true, PyVal.int.injEq, PyVal.str.injEq, Nat.cast_inj,
    Nat.add_left_cancel_iff]

theorem appended_same {hash : Bytes → Str} {t t' : Option Bytes} :
    (t.map fun b => PyVal.dict (terminalReport hash b)) = (t'.map fun b => .dict (terminalReport hash b)) ↔
      SameAppended hash t t' := by
  unfold SameAppended
  cases t <;> cases t' <;> simp [terminal_same]

/-- What is under the names in the extra data object determines, and is determined by: the last block of each known kind, all
unknown blocks, length and digest of what follows. -/
theorem extra_values_same (tp tp' : TextProc) (hash : Bytes → Str) (s s' : ShellLink) (hv : ∀ b ∈ s.blocks, b.1.Valid tp)
    (hv' : ∀ b ∈ s'.blocks, b.1.Valid tp') (t t' : Option Bytes) :
    (∀ k, (extraObject (seenBlocks hash s t)).get? k = (extraObject (seenBlocks hash s' t')).get? k) ↔
      (∀ name, name ≠ "UNKNOWN_BLOCK" → Option.Rel (SameBlock hash) (s.lastBlock name) (s'.lastBlock name)) ∧
      List.Forall₂ (SameBlock hash) s.unknownBlocks s'.unknownBlocks ∧ SameAppended hash t t' := by
  have unk : (s.unknownBlocks.map fun b => PyVal.dict (b.1.report hash b.2)) =
      (s'.unknownBlocks.map fun b => PyVal.dict (b.1.report hash b.2)) ↔
        List.Forall₂ (SameBlock hash) s.unknownBlocks s'.unknownBlocks := by
    refine map_same fun x hx y hy => ?_
    rw [PyVal.dict.injEq, ← block_same hash tp tp' x y (hv x (List.mem_filter.1 hx).1) (hv' y (List.mem_filter.1 hy).1)]
    have h1 : _ = _ := of_decide_eq_true (List.mem_filter.1 hx).2
    have h2 : _ = _ := of_decide_eq_true (List.mem_filter.1 hy).2
    rw [h1, h2]
    simp
  have last : ∀ k, ((s.lastBlock k).map fun b => PyVal.dict (b.1.report hash b.2)) =
      ((s'.lastBlock k).map fun b => .dict (b.1.report hash b.2)) ↔ Option.Rel (SameBlock hash) (s.lastBlock k) (s'.lastBlock k) := by
    intro k
    rcases h : s.lastBlock k with _ | b <;> rcases h' : s'.lastBlock k with _ | b'
    · simp
    · simp
    · simp
    · obtain ⟨m, n⟩ := lastBlock_mem h
      obtain ⟨m', n'⟩ := lastBlock_mem h'
      simp only [Option.map_some, Option.some.injEq, PyVal.dict.injEq]
      have := block_same hash tp tp' b b' (hv b m) (hv' b' m')
      rw [n, n'] at this
      constructor
      · exact fun e => .some (this.1 ⟨rfl, e⟩)
      · rintro (e | _)
        exact (this.2 e).2
  constructor
  · intro hg
    have ht := hg "TERMINAL_BLOCK"
    rw [get_terminal, get_terminal, appended_same] at ht
    refine ⟨fun k hu => ?_, ?_, ht⟩
    · by_cases hT : k = "TERMINAL_BLOCK"
      · have : ∀ s : ShellLink, s.lastBlock k = none := by
          intro s
          rcases h : s.lastBlock k with _ | b
          · rfl
          · exact absurd ((lastBlock_mem h).2.trans hT) (not_terminal _)
        rw [this, this]
        exact .none
      · have := hg k
        rw [get_block hash s t hT hu, get_block hash s' t' hT hu] at this
        exact (last k).1 this
    · have := hg "UNKNOWN_BLOCK"
      rw [get_unknown, get_unknown] at this
      refine unk.1 ?_
      by_cases a : s.unknownBlocks = [] <;> by_cases b : s'.unknownBlocks = [] <;> simp_all
  · rintro ⟨h2, h3, h4⟩ k
    by_cases hT : k = "TERMINAL_BLOCK"
    · rw [hT, get_terminal, get_terminal, appended_same]
      exact h4
    · by_cases hu : k = "UNKNOWN_BLOCK"
      · rw [hu, get_unknown, get_unknown, unk.2 h3]
        have : s.unknownBlocks = [] ↔ s'.unknownBlocks = [] := by
          rw [← List.length_eq_zero_iff, h3.length_eq, List.length_eq_zero_iff]
        simp only [this]
      · rw [get_block hash s t hT hu, get_block hash s' t' hT hu]
        exact (last k).2 (h2 k hu)

/-- The extra data object determines, and is determined by: the names in order, the last block of each known kind, all unknown
blocks, length and digest of what follows. -/
theorem extra_same (tp tp' : TextProc) (hash : Bytes → Str) (s s' : ShellLink) (hv : ∀ b ∈ s.blocks, b.1.Valid tp)
    (hv' : ∀ b ∈ s'.blocks, b.1.Valid tp') (t t' : Option Bytes) :
    extraObject (seenBlocks hash s t) = extraObject (seenBlocks hash s' t') ↔
      firstOccurrences (s.blocks.map fun b => blockName b.1.signature.toNat) =
        firstOccurrences (s'.blocks.map fun b => blockName b.1.signature.toNat) ∧
      (∀ name, name ≠ "UNKNOWN_BLOCK" → Option.Rel (SameBlock hash) (s.lastBlock name) (s'.lastBlock name)) ∧
      List.Forall₂ (SameBlock hash) s.unknownBlocks s'.unknownBlocks ∧ SameAppended hash t t' := by
  have hval := extra_values_same tp tp' hash s s' hv hv' t t'
  have names : SameAppended hash t t' → (t.toList.map fun _ => "TERMINAL_BLOCK") = t'.toList.map fun _ => "TERMINAL_BLOCK" := by
    intro ht
    unfold SameAppended at ht
    cases t <;> cases t' <;> simp_all
  constructor
  · intro h
    have hk := congrArg Dict.keys h
    have hg := hval.1 fun k => congrArg (fun d : Dict => d.get? k) h
    refine ⟨?_, hg⟩
    rw [ExtraData.keys_object, ExtraData.keys_object, first_seen, first_seen, names hg.2.2, List.append_cancel_right_eq] at hk
    exact hk
  · rintro ⟨h1, h2⟩
    refine Dict.ext_get? ?_ (by rw [ExtraData.keys_object]; exact ExtraData.first_nodup _) (hval.2 h2)
    rw [ExtraData.keys_object, ExtraData.keys_object, first_seen, first_seen, h1, names h2.2.2]

/-! ### whole links -/

/-- The same items and sizes: target objects. -/
theorem target_same {tp tp' : TextProc} {l l' : List Item} (hv : ∀ it ∈ l, it.Valid tp) (hv' : ∀ it ∈ l', it.Valid tp') (p : Nat) :
    targetObject l p = targetObject l' p ↔ (encodeItems l).length = (encodeItems l').length ∧ List.Forall₂ SameItem l l' := by
  rw [← items_same tp tp' hv hv']
  unfold targetObject
  simp only [List.cons.injEq, Prod.mk.injEq, true_and, and_true, PyVal.int.injEq, PyVal.list.injEq, Nat.cast_inj,
    Nat.add_right_cancel_iff]

theorem linkReport_same {s s' : ShellLink} {c a w c' a' w' : Option DateTime} {n n' : Nat} {x x' : List (String × Dict)} :
    linkReport s c a w n x = linkReport s' c' a' w' n' x' ↔
      n = n' ∧ headerObject s.header c a w = headerObject s'.header c' a' w' ∧
        s.items.map (targetObject · 78) = s'.items.map (targetObject · 78) ∧
        (s.info.map Info.report).getD [] = (s'.info.map Info.report).getD [] ∧
        stringsObject s.strings = stringsObject s'.strings ∧ extraObject x = extraObject x' := by
  unfold linkReport
  generalize headerObject s.header c a w = H
  generalize headerObject s'.header c' a' w' = H'
  generalize extraObject x = X
  generalize extraObject x' = X'
  rcases s.items with _ | l <;> rcases s'.items with _ | l' <;>
    simp only [Option.toList_none, Option.toList_some, List.map_cons, List.map_nil, List.append_nil, List.cons_append, List.nil_append,
      List.cons.injEq, Prod.mk.injEq, true_and, and_true, PyVal.int.injEq, PyVal.dict.injEq, Nat.cast_inj, Option.map_none,
      Option.map_some, Option.some.injEq, reduceCtorEq, false_and, and_false]

theorem info_objects_same {tp tp' : TextProc} {i i' : Option Info} (hv : ∀ x, i = some x → x.Valid tp)
    (hv' : ∀ x, i' = some x → x.Valid tp') :
    (i.map Info.report).getD [] = (i'.map Info.report).getD [] ↔ Option.Rel SameInfo i i' := by
  have hne : ∀ x : Info, x.report ≠ [] := by
    intro x
    unfold Info.report infoReport
    cases x.location <;> simp
  rcases i with _ | i <;> rcases i' with _ | i'
  · simp
  · simpa using (hne i').symm
  · simpa using hne i
  · simp only [Option.map_some, Option.getD_some, Option.rel_some_some]
    exact info_same (hv i rfl) (hv' i' rfl)

theorem target_objects_same {tp tp' : TextProc} {l l' : Option (List Item)} (hv : ∀ x, l = some x → ∀ it ∈ x, it.Valid tp)
    (hv' : ∀ x, l' = some x → ∀ it ∈ x, it.Valid tp') :
    l.map (targetObject · 78) = l'.map (targetObject · 78) ↔
      l.map (fun x => (encodeItems x).length) = l'.map (fun x => (encodeItems x).length) ∧
        Option.Rel (List.Forall₂ SameItem) l l' := by
  rcases l with _ | l <;> rcases l' with _ | l'
  · simp
  · simp
  · simp
  · simp only [Option.map_some, Option.some.injEq, Option.rel_some_some]
    exact target_same (hv l rfl) (hv' l' rfl) 78

/-- C66: two well-formed links with the same report have the same contents and sizes, whatever their code pages, and whatever
follows them: what is seen of the data after them has the same length and digest. -/
theorem report_determines (env : Env) (cp cp' : Option String) (allow allow' : Bool) (s s' : ShellLink)
    (hv : s.Valid (TextProc.mk' env cp)) (hv' : s'.Valid (TextProc.mk' env cp')) (trailer trailer' : Bytes) (src src' : Source)
    (hs : src.bytes = s.encode ++ trailer) (hs' : src'.bytes = s'.encode ++ trailer') (f f' : LnkFile)
    (hf : (LnkFile.init env cp allow src).Returns f) (hf' : (LnkFile.init env cp' allow' src').Returns f')
    (h : (f.getJson true).res = (f'.getJson true).res) :
    SameLink env.sha256hex s s' ∧ SameAppended env.sha256hex (appended allow trailer) (appended allow' trailer') ∧
      s.items.map (fun x => (encodeItems x).length) = s'.items.map (fun x => (encodeItems x).length) ∧ f.size = f'.size := by
  obtain ⟨g, ⟨h1, -, c, a, w, wc, wa, ww, tc, ta, tw, h2⟩, hg⟩ := parses_link env cp allow s hv trailer src hs
  obtain ⟨g', ⟨h1', -, c', a', w', wc', wa', ww', tc', ta', tw', h2'⟩, hg'⟩ := parses_link env cp' allow' s' hv' trailer' src' hs'
  unfold Py.Returns at hf hf'
  rw [h1] at hf
  rw [h1'] at hf'
  simp only [Py.pure_res, Except.ok.injEq] at hf hf'
  subst hf hf'
  rw [h2, h2'] at h
  have hb : ∀ (s : ShellLink) (allow : Bool) (trailer : Bytes), (s.blockReports env.sha256hex ++
      if allow = true ∧ trailer ≠ [] then [("TERMINAL_BLOCK", terminalReport env.sha256hex trailer)] else []) =
      seenBlocks env.sha256hex s (appended allow trailer) := by
    intro s allow trailer
    unfold seenBlocks appended
    split <;> rfl
  rw [hb, hb, ← hg.size, ← hg'.size] at h
  have hj : linkReport s c a w _ _ = linkReport s' c' a' w' _ _ := Except.ok.inj h
  obtain ⟨e0, e1, e2, e3, e4, e5⟩ := linkReport_same.1 hj
  have e2 := (target_objects_same (fun x hx => (hv.items x hx).1) (fun x hx => (hv'.items x hx).1)).1 e2
  have e3 := (info_objects_same hv.info hv'.info).1 e3
  obtain ⟨e5, e6, e7, e8⟩ := (extra_same _ _ _ s s' (fun b hb => (hv.blocks b hb).1) (fun b hb => (hv'.blocks b hb).1) _ _).1 e5
  exact ⟨⟨header_same tc ta tw tc' ta' tw' e1, e2.2, e3, strings_same e4, e5, e6, e7⟩, e8, e2.1, e0⟩

/-- The tree of a well-formed link with the times as they are read. -/
theorem json_exact {env : Env} {cp : Option String} {s : ShellLink} (hv : s.Valid (TextProc.mk' env cp)) {allow : Bool} {trailer : Bytes}
    {f : LnkFile} (hb : Built (TextProc.mk' env cp) s allow trailer f) {c a w : Option DateTime} {wc wa ww : List Warn}
    (hc : parseFiletime (leI 8 s.header.creationTime.toInt) = ⟨wc, .ok c⟩)
    (ha : parseFiletime (leI 8 s.header.accessTime.toInt) = ⟨wa, .ok a⟩)
    (hw : parseFiletime (leI 8 s.header.writeTime.toInt) = ⟨ww, .ok w⟩) :
    (f.getJson true).res = .ok (linkReport s c a w f.size (seenBlocks env.sha256hex s (appended allow trailer))) := by
  have h1 := header_link _ s hv f hb.toHead hc ha hw
  have h2 := target_link _ s hv f hb.toHead
  have h3 := info_link _ s hv f hb.toHead
  have h4 := extras_link _ s hv allow trailer f hb
  have h5 : f.stringData.asDict = stringsObject s.strings := by
    have : f.stringData = ⟨fieldTexts s.strings.fields, f.stringData.size⟩ := by rw [← hb.strings]
    rw [this, string_data_dict]
    rfl
  have hb : (s.blockReports env.sha256hex ++
      if allow = true ∧ trailer ≠ [] then [("TERMINAL_BLOCK", terminalReport env.sha256hex trailer)] else []) =
      seenBlocks env.sha256hex s (appended allow trailer) := by
    unfold seenBlocks appended
    split <;> rfl
  unfold LnkFile.getJson
  rw [h1, h2, h3, h4, h5, ← hb]
  simp only [bind, Py.andThen, pure, Py.ret, List.nil_append, List.append_nil, if_true]
  unfold linkReport
  generalize headerObject _ _ _ _ = hd
  refine congrArg Except.ok ?_
  rcases s.items with _ | l <;> rfl

theorem header_object_same {h h' : Header}
    (h1 : { h with creationTime := 0, accessTime := 0, writeTime := 0, showCommand := 0 } =
      { h' with creationTime := 0, accessTime := 0, writeTime := 0, showCommand := 0 })
    (h2 : h.showCommand = h'.showCommand ∨ (h.showCommand ∉ [3, 7] ∧ h'.showCommand ∉ [3, 7])) (c a w : Option DateTime) :
    headerObject h c a w = headerObject h' c a w := by
  have h2 : showCommandName h.showCommand.toInt = showCommandName h'.showCommand.toInt := by
    rcases h2 with h | ⟨h, h'⟩
    · rw [h]
    · have e : ∀ x : Int32, (x.toInt = 3 ↔ x = 3) ∧ (x.toInt = 7 ↔ x = 7) := fun x =>
        ⟨by rw [← Int32.toInt_inj]; rfl, by rw [← Int32.toInt_inj]; rfl⟩
      simp only [List.mem_cons, List.not_mem_nil, or_false, not_or] at h h'
      unfold showCommandName
      simp only [(e _).1, (e _).2, h.1, h.2, h'.1, h'.2, if_false]
  simp only [Header.mk.injEq, true_and] at h1
  obtain ⟨e1, e2, e3, e4, e5, e6, e7, e8, e9, e10, e11⟩ := h1
  unfold headerObject
  rw [h2, e1, e2, e3, e4, e5, e6, e7, e8, e9, e10, e11]

/-- C66, the other direction: links with the same contents and the same sizes have the same report. -/
theorem report_determined (env : Env) (cp cp' : Option String) (allow allow' : Bool) (s s' : ShellLink)
    (hv : s.Valid (TextProc.mk' env cp)) (hv' : s'.Valid (TextProc.mk' env cp')) (trailer trailer' : Bytes) (src src' : Source)
    (hs : src.bytes = s.encode ++ trailer) (hs' : src'.bytes = s'.encode ++ trailer') (f f' : LnkFile)
    (hf : (LnkFile.init env cp allow src).Returns f) (hf' : (LnkFile.init env cp' allow' src').Returns f')
    (h : SameLink env.sha256hex s s') (ht : SameAppended env.sha256hex (appended allow trailer) (appended allow' trailer'))
    (hl : s.items.map (fun x => (encodeItems x).length) = s'.items.map fun x => (encodeItems x).length)
    (hn : f.size = f'.size) : (f.getJson true).res = (f'.getJson true).res := by
  obtain ⟨g, ⟨h1, h2, -⟩, hb⟩ := parses_link env cp allow s hv trailer src hs
  obtain ⟨g', ⟨h1', h2', -⟩, hb'⟩ := parses_link env cp' allow' s' hv' trailer' src' hs'
  unfold Py.Returns at hf hf'
  rw [h1] at hf
  rw [h1'] at hf'
  simp only [Py.pure_res, Except.ok.injEq] at hf hf'
  subst hf hf'
  obtain ⟨c, wc, rc, tc⟩ := time_read s.header.creationTime
  obtain ⟨a, wa, ra, ta⟩ := time_read s.header.accessTime
  obtain ⟨w, ww, rw', tw⟩ := time_read s.header.writeTime
  obtain ⟨c', wc', rc', tc'⟩ := time_read s'.header.creationTime
  obtain ⟨a', wa', ra', ta'⟩ := time_read s'.header.accessTime
  obtain ⟨w', ww', rw'', tw'⟩ := time_read s'.header.writeTime
  obtain rfl := same_time tc tc' h.header.creation
  obtain rfl := same_time ta ta' h.header.access
  obtain rfl := same_time tw tw' h.header.write
  rw [json_exact hv hb rc ra rw', json_exact hv' hb' rc' ra' rw'']
  exact congrArg Except.ok (linkReport_same.2 ⟨hn, header_object_same h.header.exact h.header.showCommand c a w,
    (target_objects_same (fun x hx => (hv.items x hx).1) (fun x hx => (hv'.items x hx).1)).2 ⟨hl, h.items⟩,
    (info_objects_same hv.info hv'.info).2 h.info, strings_object_same.2 h.strings,
    (extra_same _ _ _ s s' (fun b hb => (hv.blocks b hb).1) (fun b hb => (hv'.blocks b hb).1) _ _).2
      ⟨h.blockNames, h.blocks, h.unknown, ht⟩⟩)

/-! ### examples -/

/-- `exampleItems` with other bytes after the name of the file and in the unknown item. -/
def otherBytesItems : List Item :=
  [ .root 0x1F 0x50 ⟨0x20D04FE0, 0x3AEA, 0x1069, 0xA2, 0xD8, 0x08, 0x00, 0x2B, 0x30, 0x30, 0x9D⟩ [],
    .file ⟨0x36, 0xFF, 1234, 0x5A21, 0x6000, 0x20, ⟨utf16 "Größe.txt".toList, "Größe.txt".toList⟩, [9, 8, 7]⟩,
    .other 0x98 [6, 6] ]

def otherBytesLink : ShellLink := { exampleLink with items := some otherBytesItems }

theorem otherBytesLink_valid (env : Env) : otherBytesLink.Valid (TextProc.mk' env none) := by
  have h := exampleLink_valid env
  refine ⟨h.headerSize, rfl, ?_, h.hasInfo, h.info, h.announced, h.strings, h.blocks⟩
  rintro l ⟨rfl⟩
  refine ⟨?_, by decide +kernel⟩
  intro it hit
  simp only [otherBytesItems, List.mem_cons, List.not_mem_nil, or_false] at hit
  rcases hit with rfl | rfl | rfl
  · exact .inr rfl
  · refine ⟨by decide, ?_⟩
    show Text.Valid _ true _
    exact ⟨rfl, by decide⟩
  · show itemClass _ = none
    decide

/-- Different files with the same report. -/
example (env : Env) : ∃ f f', LnkFile.init env none true (.indata exampleLink.encode) = pure f ∧
    LnkFile.init env none true (.indata otherBytesLink.encode) = pure f' ∧ exampleLink.encode ≠ otherBytesLink.encode ∧
    (f.getJson true).res = (f'.getJson true).res := by
  have hv := exampleLink_valid env
  have hv' := otherBytesLink_valid env
  obtain ⟨f, hf, hs, -⟩ := link_roundtrip env none true exampleLink hv (.indata exampleLink.encode) rfl
  obtain ⟨f', hf', hs', -⟩ := link_roundtrip env none true otherBytesLink hv' (.indata otherBytesLink.encode) rfl
  refine ⟨f, f', hf, hf', by decide +kernel, ?_⟩
  have hx := (extra_same _ _ env.sha256hex exampleLink otherBytesLink (fun b hb => (hv.blocks b hb).1)
    (fun b hb => (hv'.blocks b hb).1) none none).1 rfl
  refine report_determined env none none true true _ _ hv hv' [] [] _ _ (List.append_nil _).symm (List.append_nil _).symm
    f f' (by rw [hf]; rfl) (by rw [hf']; rfl)
    ⟨⟨rfl, sameTime_refl _, sameTime_refl _, sameTime_refl _, .inl rfl⟩, ?_,
      (info_objects_same hv.info hv'.info).1 rfl, rfl, hx.1, hx.2.1, hx.2.2.1⟩ rfl (by decide +kernel) ?_
  swap
  · rw [hs, hs']
    decide +kernel
  exact .some (.cons .root (.cons (.file ⟨.inl rfl, rfl, .inl ⟨rfl, rfl⟩, rfl, rfl⟩) (.cons (.other rfl) .nil)))

/-- A link with another creation date, a minute later: the report is another one. -/
example (env : Env) : ∃ f f', LnkFile.init env none true (.indata exampleLink.encode) = pure f ∧
    LnkFile.init env none true (.indata { exampleLink with header :=
      { exampleLink.header with creationTime := 128920197120000000 } }.encode) = pure f' ∧
    (f.getJson true).res ≠ (f'.getJson true).res := by
  have hv := exampleLink_valid env
  have hv' : ShellLink.Valid (TextProc.mk' env none) { exampleLink with header :=
      { exampleLink.header with creationTime := 128920197120000000 } } :=
    ⟨hv.headerSize, hv.hasItems, hv.items, hv.hasInfo, hv.info, hv.announced, hv.strings, hv.blocks⟩
  obtain ⟨f, hf, -⟩ := link_roundtrip env none true exampleLink hv (.indata exampleLink.encode) rfl
  obtain ⟨f', hf', -⟩ := link_roundtrip env none true _ hv' (.indata _) rfl
  refine ⟨f, f', hf, hf', fun h => ?_⟩
  have := (report_determines env none none true true _ _ hv hv' [] [] _ _ (List.append_nil _).symm (List.append_nil _).symm
    f f' (by rw [hf]; rfl) (by rw [hf']; rfl) h).1.header.creation
  rcases this with ⟨-, -, h, -⟩ | ⟨h | h, -⟩
  · revert h
    decide
  · revert h
    decide
  · unfold OutOfCalendar at h
    rw [filetime_first, filetime_last] at h
    revert h
    decide

end Verif.Props
