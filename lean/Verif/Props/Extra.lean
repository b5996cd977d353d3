import Verif.Lemmas.ExtraReport
import Verif.Props.Targets

/-
C30-C35, C45, C52: the extra data section.
-/

namespace Verif.Props

open Spec

/-! ### C30 -/

/-- C30: all extra data is cut in exactly one way; the pieces and what is left make up the data, and what is left is
a terminal block (with whatever follows it) or fewer than four bytes. -/
theorem extra_cut (b : Bytes) :
    ∃ l last, Cut b l last ∧ (l.map Piece.bytes).flatten ++ last = b ∧
      (last.length < 4 ∨ ∃ rest, last = le 4 0 ++ rest) ∧ ∀ l' last', Cut b l' last' → l' = l ∧ last' = last := by
  obtain ⟨l, last, h⟩ := ExtraData.cut_exists b
  refine ⟨l, last, h, ExtraData.cut_flatten h, ExtraData.cut_last h, ?_⟩
  induction h with
  | @stop b h =>
    intro l' last' h'
    cases h' with
    | stop _ => exact ⟨rfl, rfl⟩
    | @block n _ _ _ h1 h2 h3 =>
      rw [h1] at h
      rcases h with h | h
      · simp at h
      · exact absurd (by simpa using h) h2
  | @block b n l last h1 h2 h3 ih =>
    intro l' last' h'
    cases h' with
    | stop h =>
      rw [h1] at h
      rcases h with h | h
      · simp at h
      · exact absurd (by simpa using h) h2
    | @block b m k last' g1 g2 g3 =>
      have : m = n := by rw [h1] at g1; simpa using g1.symm
      subst this
      obtain ⟨rfl, rfl⟩ := ih _ _ g3
      exact ⟨rfl, rfl⟩

/-- C30: the blocks are the pieces that have a signature, in order, each with exactly its own bytes and of the kind
its signature says; the terminal block is kept only when asked for and when something follows it.  Warnings are
given for pieces without signature and for an incomplete size at the end. -/
theorem extra_blocks (tp : TextProc) (allow : Bool) (b : Bytes) (l : List Piece) (last : Bytes) (h : Cut b l last) :
    ∃ e w, ExtraData.init tp allow b = ⟨w, .ok e⟩ ∧
      e.data.map (fun x => (x.cls.name, x.raw)) =
        reportedPieces l ++ (if allow = true ∧ 4 < last.length then [("TERMINAL_BLOCK", last)] else []) ∧
      (∀ x ∈ e.data, x.tp = tp) ∧
      w = (l.filter fun p => p.signature.isNone).map (fun _ => .extraSignature) ++
        if last ≠ [] ∧ last.length < 4 then [.extraSize] else [] := by
  refine ⟨_, _, ExtraData.init_cut h, ?_, ?_, ?_⟩
  · rw [List.map_append]
    congr 1
    · unfold ExtraData.objects reportedPieces
      rw [List.map_filterMap]
      congr 1
      funext p
      rcases p.signature with _ | s
      · rfl
      · simp [extraKind_name]
    · split <;> rfl
  · intro x hx
    rw [List.mem_append] at hx
    rcases hx with hx | hx
    · simp only [ExtraData.objects, List.mem_filterMap, Option.map_eq_some_iff] at hx
      obtain ⟨p, -, s, -, rfl⟩ := hx
      rfl
    · split at hx
      · simp only [List.mem_singleton] at hx
        rw [hx]
      · simp at hx
  · unfold ExtraData.cutWarns
    congr 1
    · clear h
      induction l with
      | nil => rfl
      | cons p l ih =>
        rcases hp : p.signature with _ | s
        · simp [hp, ih]
        · simp [hp, ih]
    · have : uAt 4 last 0 = none ↔ last.length < 4 := by
        unfold uAt
        split
        · simp; omega
        · simp; omega
      simp only [this]

/-- C30: whole blocks with any contents, ended by a terminal block or the end of the data, are all there is. -/
theorem extra_blocks_roundtrip (tp : TextProc) (allow : Bool) (raws : List RawBlock) (hf : ∀ b ∈ raws, b.Fits) (tail : Bytes)
    (ht : (∃ rest, tail = le 4 0 ++ rest) ∨ tail.length < 4) :
    ∃ e w, ExtraData.init tp allow (raws.flatMap RawBlock.encode ++ tail) = ⟨w, .ok e⟩ ∧
      e.data.map (fun x => (x.cls.name, x.raw)) = raws.map (fun b => (blockName b.signature.toNat, b.encode)) ++
        (if allow = true ∧ 4 < tail.length then [("TERMINAL_BLOCK", tail)] else []) ∧
      w = if tail ≠ [] ∧ tail.length < 4 then [.extraSize] else [] := by
  obtain ⟨e, w, h1, h2, -, h3⟩ := extra_blocks tp allow _ _ _ (ExtraData.cut_raw raws hf (ExtraData.cut_stops ht))
  refine ⟨e, w, h1, ?_, ?_⟩
  · rw [h2]
    congr 1
    rw [List.append_nil]
    clear h1 h2 h3 hf
    induction raws with
    | nil => rfl
    | cons b raws ih =>
      simp only [List.map_cons, reportedPieces, List.filterMap_cons, ExtraData.pieceOf, Option.map_some] at ih ⊢
      rw [ih]
  · rw [h3, List.append_nil]
    have : ((raws.map ExtraData.pieceOf).filter fun p => p.signature.isNone) = [] := by
      simp [List.filter_eq_nil_iff, ExtraData.pieceOf]
    rw [this]
    rfl

/-- Two blocks (a code page and one of unknown kind), a terminal block and appended data. -/
example (tp : TextProc) :
    ∃ e w, ExtraData.init tp true ([12, 0, 0, 0, 4, 0, 0, 0xA0, 0xE4, 4, 0, 0] ++ [9, 0, 0, 0, 1, 2, 3, 4, 5] ++
        [0, 0, 0, 0] ++ [7, 7]) = ⟨w, .ok e⟩ ∧
      e.data.map (fun x => (x.cls.name, x.raw)) =
        [ ("CONSOLE_CODEPAGE_BLOCK", [12, 0, 0, 0, 4, 0, 0, 0xA0, 0xE4, 4, 0, 0]),
          ("UNKNOWN_BLOCK", [9, 0, 0, 0, 1, 2, 3, 4, 5]), ("TERMINAL_BLOCK", [0, 0, 0, 0, 7, 7]) ] := by
  obtain ⟨e, w, h1, h2, -⟩ := extra_blocks_roundtrip tp true [⟨0xA0000004, [0xE4, 4, 0, 0]⟩, ⟨0x04030201, [5]⟩]
    (by intro b hb; simp at hb; rcases hb with rfl | rfl <;> (simp [RawBlock.Fits])) [0, 0, 0, 0, 7, 7]
    (.inl ⟨[7, 7], rfl⟩)
  exact ⟨e, w, h1, h2⟩

/-! ### C31 -/

/-- What the blocks called `name` report, in order. -/
def reportsOf (name : String) (xs : List Extra) : List Dict :=
  xs.filterMap fun x => if x.cls.name = name then x.asDict.res.toOption else none

/-- The exceptions after which the other blocks are still reported. -/
def Caught (e : PyErr) : Prop := e = .structError ∨ e = .valueError ∨ e = .unicodeDecode

theorem caught_iff (e : PyErr) : ExtraData.caught e = true ↔ Caught e := by
  cases e <;> simp [ExtraData.caught, Caught, PyErr.isValueError]

/-- C31: when the failures are of the expected kinds, each name gets the last dictionary reported under it, Unknown
blocks are all listed in order, and every failing block is announced by one warning (after its own). -/
theorem extra_report (e : ExtraData) (h : ∀ x ∈ e.data, ∀ err, x.asDict.res = .error err → Caught err) :
    ∃ d, e.asDict = ⟨e.data.flatMap (fun x => x.asDict.warns ++ match x.asDict.res with
          | .error err => [.extraBlock x.cls.name err]
          | .ok _ => []), .ok d⟩ ∧
      d.keys.Nodup ∧
      (∀ name, name ≠ "UNKNOWN_BLOCK" → d.get? name = ((reportsOf name e.data).getLast?).map .dict) ∧
      d.get? "UNKNOWN_BLOCK" = if ∃ x ∈ e.data, x.cls.name = "UNKNOWN_BLOCK" then
        some (.list ((reportsOf "UNKNOWN_BLOCK" e.data).map .dict)) else none := by
  obtain ⟨d, hd, ha⟩ := ExtraData.asDictLoop_ok e.data [] (fun x hx err he => (caught_iff err).2 (h x hx err he))
    ⟨none, rfl⟩
  have hreps : ∀ (c : ExtraClass) (xs : List Extra), reportsOf c.name xs = ExtraData.goods c xs := by
    intro c xs
    unfold reportsOf ExtraData.goods
    congr 1
    funext x
    by_cases hc : x.cls = c
    · rw [if_pos hc, if_pos (by rw [hc])]; rfl
    · rw [if_neg hc, if_neg (ExtraData.name_ne hc)]
  refine ⟨d, ?_, ha.nodup (by simp [Dict.keys]), ?_, ?_⟩
  · show ExtraData.asDictLoop e.data [] = _
    rw [hd]
    congr 1
    clear hd ha hreps
    generalize e.data = xs at h
    induction xs with
    | nil => rfl
    | cons x xs ih =>
      rw [List.flatMap_cons, List.flatMap_cons, ih fun y hy => h y (List.mem_cons_of_mem _ hy)]
      congr 1
      unfold ExtraData.blockWarns
      congr 1
      rcases hx : x.asDict.res with err | d
      · simp only [(caught_iff err).2 (h x List.mem_cons_self err hx), if_true]
      · rfl
  · intro name hname
    by_cases hc : ∃ c : ExtraClass, c.name = name
    · obtain ⟨c, rfl⟩ := hc
      rw [ha.named c (fun h => hname (by rw [h]; rfl)), hreps]
      simp
    · have hc' : ∀ c : ExtraClass, name ≠ c.name := fun c h => hc ⟨c, h.symm⟩
      rw [ha.others name hc']
      have : reportsOf name e.data = [] := by
        unfold reportsOf
        rw [List.filterMap_eq_nil_iff]
        intro x _
        rw [if_neg (fun h => hc' _ h.symm)]
      rw [this]
      rfl
  · have := ha.unknown none rfl
    have hu : "UNKNOWN_BLOCK" = ExtraClass.unknown.name := rfl
    rw [hu, hreps, this]
    have hex : (∃ x ∈ e.data, x.cls = .unknown) ↔ ∃ x ∈ e.data, x.cls.name = ExtraClass.unknown.name :=
      ⟨fun ⟨x, h1, h2⟩ => ⟨x, h1, by rw [h2]⟩, fun ⟨x, h1, h2⟩ => ⟨x, h1, ExtraClass.name_inj h2⟩⟩
    simp only [hex, Option.getD_none, List.nil_append]
    split <;> rfl

/-- C31, the other side: any other exception of a block is an exception of the whole, and hides all blocks. -/
theorem extra_report_escape (pre post : List Extra) (x : Extra) (err : PyErr)
    (hpre : ∀ y ∈ pre, ∀ e, y.asDict.res = .error e → Caught e) (hx : x.asDict.res = .error err) (he : ¬ Caught err) :
    (ExtraData.asDict ⟨pre ++ x :: post⟩).res = .error err := by
  refine ExtraData.asDictLoop_error pre post x [] err (fun y hy e hye => (caught_iff e).2 (hpre y hy e hye)) hx ?_
  rw [← Bool.not_eq_true, caught_iff]
  exact he

/-- A Darwin block of eight bytes raises `IndexError`; the code page block before it is not reported either. -/
example (env : Env) : (ExtraData.asDict ⟨[⟨.codePage, TextProc.mk' env none, [12, 0, 0, 0, 4, 0, 0, 0xA0, 0xE4, 4, 0, 0]⟩,
    ⟨.darwin, TextProc.mk' env none, [8, 0, 0, 0, 6, 0, 0, 0xA0]⟩]⟩).res = .error .indexError := by
  refine extra_report_escape [_] [] ⟨.darwin, TextProc.mk' env none, [8, 0, 0, 0, 6, 0, 0, 0xA0]⟩ .indexError ?_ rfl (by simp [Caught])
  intro y hy e he
  rw [List.mem_singleton.1 hy] at he
  have : (Except.ok [("size", PyVal.int 12), ("code_page", .int 1252)] : Except PyErr Dict) = .error e := he
  cases this

/-- C31: with a usable code page, which exceptions the blocks raise: `struct.error`, or `IndexError` for a Darwin
block, `ValueError` for a property store, `RuntimeError` for a shell item block. -/
theorem extra_block_exceptions (x : Extra) (hcp : UsableCodePage x.tp) (err : PyErr) (h : x.asDict.res = .error err) :
    err = .structError ∨ (x.cls.name = "DARWIN_BLOCK" ∧ err = .indexError) ∨
      (x.cls.name = "METADATA_PROPERTIES_BLOCK" ∧ err = .valueError) ∨
      (x.cls.name = "SHELL_ITEM_IDENTIFIER_BLOCK" ∧ err = .runtimeError) := by
  refine (Extra.only_asDict (P := fun err => err = .structError ∨ (x.cls.name = "DARWIN_BLOCK" ∧ err = .indexError) ∨
      (x.cls.name = "METADATA_PROPERTIES_BLOCK" ∧ err = .valueError) ∨
      (x.cls.name = "SHELL_ITEM_IDENTIFIER_BLOCK" ∧ err = .runtimeError)) x (.inl rfl) ?_ fun b => only_ansiToStr hcp b).out err h
  intro e he
  cases hc : x.cls <;> rw [hc] at he <;> simp only [Extra.extraErr] at he <;> subst he
  · exact .inr (.inl ⟨rfl, rfl⟩)
  · exact .inr (.inr (.inl ⟨rfl, rfl⟩))
  · exact .inr (.inr (.inr ⟨rfl, rfl⟩))

/-- The usual code page is usable, and a code page block without its code page does raise. -/
example (env : Env) (err : PyErr)
    (h : (Extra.asDict ⟨.codePage, TextProc.mk' env none, [8, 0, 0, 0, 4, 0, 0, 0xA0]⟩).res = .error err) : err = .structError := by
  rcases extra_block_exceptions _ (usable_default env) err h with h | ⟨h, -⟩ | ⟨h, -⟩ | ⟨h, -⟩
  · exact h
  all_goals exact absurd (show "CONSOLE_CODEPAGE_BLOCK" = _ from h) (by decide)

/-- A code page block, a code page block that is cut short, and one of unknown kind: the first and the last are
reported, the second only gets a warning. -/
example (env : Env) :
    let tp := TextProc.mk' env none
    ∃ d, ExtraData.asDict ⟨[ ⟨.codePage, tp, [12, 0, 0, 0, 4, 0, 0, 0xA0, 0xE4, 4, 0, 0]⟩,
        ⟨.codePage, tp, [9, 0, 0, 0, 4, 0, 0, 0xA0, 0xE4]⟩, ⟨.unknown, tp, [8, 0, 0, 0, 1, 2, 3, 4]⟩ ]⟩ =
      ⟨[.extraBlock "CONSOLE_CODEPAGE_BLOCK" .structError], .ok d⟩ ∧
      d.get? "CONSOLE_CODEPAGE_BLOCK" = some (.dict [("size", .int 12), ("code_page", .int 1252)]) := by
  intro tp
  have h : ∀ x ∈ ([⟨.codePage, tp, [12, 0, 0, 0, 4, 0, 0, 0xA0, 0xE4, 4, 0, 0]⟩,
        ⟨.codePage, tp, [9, 0, 0, 0, 4, 0, 0, 0xA0, 0xE4]⟩, ⟨.unknown, tp, [8, 0, 0, 0, 1, 2, 3, 4]⟩] : List Extra),
      ∀ err, x.asDict.res = .error err → Caught err := by
    intro x hx err he
    simp only [List.mem_cons, List.not_mem_nil, or_false] at hx
    rcases hx with rfl | rfl | rfl
    · have : (Except.ok [("size", PyVal.int 12), ("code_page", .int 1252)] : Except PyErr Dict) = .error err := he
      simp at this
    · have : (Except.error .structError : Except PyErr Dict) = .error err := he
      simp only [Except.error.injEq] at this
      exact .inl this.symm
    · have : (Except.ok [("size", PyVal.int 8), ("extra_data_sha256", .str (env.sha256hex [1, 2, 3, 4]))] : Except PyErr Dict) =
        .error err := he
      simp at this
  obtain ⟨d, h1, -, h2, -⟩ := extra_report ⟨_⟩ h
  refine ⟨d, h1, ?_⟩
  rw [h2 _ (by decide)]
  rfl

/-! ### C32 -/

/-- C32: a block object with the bytes of an encoded block reports exactly its fields, with the warnings they call
for.  `more` is anything that follows the described contents within the block. -/
theorem extra_block_report (x : Extra) (b : Block) (more : Bytes) (hv : b.Valid x.tp)
    (hf : 8 + (b.payload ++ more).length < 2 ^ 32) (hc : x.cls.name = blockName b.signature.toNat)
    (hx : x.raw = b.encode more) : x.asDict = ⟨b.warns, .ok (b.report x.tp.env.sha256hex more)⟩ := by
  obtain ⟨c, tp, raw⟩ := x
  have : c = extraKind b.signature.toNat := ExtraClass.name_inj (by rw [extraKind_name]; exact hc)
  subst this
  simp only at hx
  subst hx
  exact Extra.asDict_block b more hv hf

/-- C32: the whole section, from the bytes: the blocks found are the encoded ones and each reports its own fields. -/
theorem extra_section_report (tp : TextProc) (blocks : List (Block × Bytes))
    (hv : ∀ b ∈ blocks, b.1.Valid tp ∧ 8 + (b.1.payload ++ b.2).length < 2 ^ 32) (tail : Bytes)
    (ht : (∃ rest, tail = le 4 0 ++ rest) ∨ tail.length < 4) :
    ∃ e w, ExtraData.init tp false (blocks.flatMap (fun b => b.1.encode b.2) ++ tail) = ⟨w, .ok e⟩ ∧
      e.data.map (fun x => x.cls.name) = blocks.map (fun b => blockName b.1.signature.toNat) ∧
      e.data.map Extra.asDict = blocks.map (fun b => ⟨b.1.warns, .ok (b.1.report tp.env.sha256hex b.2)⟩) := by
  have hb : blocks.flatMap (fun b => b.1.encode b.2) =
      (blocks.map fun b => (⟨b.1.signature, b.1.payload ++ b.2⟩ : RawBlock)).flatMap RawBlock.encode := by
    rw [List.flatMap_map]; rfl
  rw [hb]
  have hfit : ∀ r ∈ (blocks.map fun b => (⟨b.1.signature, b.1.payload ++ b.2⟩ : RawBlock)), r.Fits := by
    intro r hr
    obtain ⟨b, hb, rfl⟩ := List.mem_map.1 hr
    exact (hv b hb).2
  refine ⟨_, _, ExtraData.init_cut (ExtraData.cut_raw _ hfit (ExtraData.cut_stops ht)), ?_, ?_⟩
  · simp only [Bool.false_eq_true, false_and, if_false, List.append_nil, ExtraData.objects_raw]
    rw [List.map_map, List.map_map]
    apply List.map_congr_left
    intro b _
    exact extraKind_name _
  · simp only [Bool.false_eq_true, false_and, if_false, List.append_nil, ExtraData.objects_raw]
    rw [List.map_map, List.map_map]
    apply List.map_congr_left
    intro b hb
    exact extra_block_report (Extra.ofRaw tp ⟨b.1.signature, b.1.payload ++ b.2⟩) b.1 b.2 (hv b hb).1 (hv b hb).2
      (extraKind_name _) rfl

/-- A code page block and one of a kind without a name, then the terminal block. -/
example (tp : TextProc) : ∃ e w, ExtraData.init tp false ([12, 0, 0, 0, 4, 0, 0, 0xA0, 0xE4, 4, 0, 0] ++ [10, 0, 0, 0, 0x42, 0, 0, 0xA0, 9, 9] ++
      [0, 0, 0, 0]) = ⟨w, .ok e⟩ ∧ e.data.map (fun x => x.cls.name) = ["CONSOLE_CODEPAGE_BLOCK", "UNKNOWN_BLOCK"] ∧
    e.data.map Extra.asDict = [pure [("size", .int 12), ("code_page", .int 1252)],
      pure [("size", .int 10), ("extra_data_sha256", .str (tp.env.sha256hex [0x42, 0, 0, 0xA0, 9, 9]))]] := by
  obtain ⟨e, w, h1, h2, h3⟩ := extra_section_report tp [(.codePage 1252, []), (.other 0xA0000042 [9, 9], [])]
    (by
      intro b hb
      simp only [List.mem_cons, List.not_mem_nil, or_false] at hb
      rcases hb with rfl | rfl
      · exact ⟨trivial, by decide⟩
      · exact ⟨by show blockName _ = _; decide +kernel, by decide⟩) [0, 0, 0, 0] (.inl ⟨[], rfl⟩)
  exact ⟨e, w, h1, h2, h3⟩

/-- A tracker block: machine name and four GUIDs. -/
def exampleTracker : TrackerBlock :=
  ⟨0x58, 0, ⟨asciiText "host-7", List.replicate 9 0⟩, ⟨1, 2, 3, 4, 5, 6, 7, 8, 9, 10, 11⟩,
    ⟨0x20D04FE0, 0x3AEA, 0x1069, 0xA2, 0xD8, 0x08, 0x00, 0x2B, 0x30, 0x30, 0x9D⟩, ⟨1, 2, 3, 4, 5, 6, 7, 8, 9, 10, 11⟩,
    ⟨0, 0, 0, 0, 0, 0, 0, 0, 0, 0, 0⟩⟩

theorem exampleTracker_valid (env : Env) : (Block.tracker exampleTracker).Valid (TextProc.mk' env none) :=
  ⟨asciiText_valid env _ (by decide), by decide⟩

example (env : Env) : Extra.asDict ⟨.distributedTracker, TextProc.mk' env none, (Block.tracker exampleTracker).encode []⟩ =
    pure [("size", .int 96), ("length", .int 88), ("version", .int 0), ("machine_identifier", .str "host-7".toList),
      ("droid_volume_identifier", .str "00000001-0002-0003-0405-060708090A0B".toList),
      ("droid_file_identifier", .str "20D04FE0-3AEA-1069-A2D8-08002B30309D".toList),
      ("birth_droid_volume_identifier", .str "00000001-0002-0003-0405-060708090A0B".toList),
      ("birth_droid_file_identifier", .str "00000000-0000-0000-0000-000000000000".toList)] := by
  rw [extra_block_report _ (.tracker exampleTracker) [] (exampleTracker_valid env) (by decide) rfl rfl]
  rfl

/-! ### C33 -/

/-- C33: product code, feature name and component code of a Darwin block are the packed ones, in all four variants
(feature name or not, component code or not). -/
theorem darwin_report (tp : TextProc) (a : Field) (d : Descriptor) (junk more : Bytes) (ha : a.Valid tp false 260)
    (hd : d.Valid) (hw : (utf16 d.text ++ [0, 0] ++ junk).length = 520) (hm : more.length < 2 ^ 31) :
    Extra.asDict ⟨.darwin, tp, le 4 (788 + more.length) ++ le 4 0xA0000006 ++
        (a.encode false ++ (utf16 d.text ++ [0, 0] ++ junk) ++ more)⟩ =
      pure [("size", .int (788 + more.length : Nat)), ("darwin_data_ansi", .str a.text.text),
        ("darwin_data_unicode", .str d.text), ("product_code_id", .str d.product.text),
        ("feature_name", if d.feature = [] then .none else .str d.feature),
        ("component_id", match d.component with
          | none => .none
          | some g => .str g.text)] := by
  have hl : ((Block.darwin a d junk).payload ++ more).length = 780 + more.length := by
    have h1 := ha.2
    have h2 : ((Block.descriptorField d junk).encode true).length = 520 := hw
    simp only [Block.payload, List.length_append, h1, h2]
  have he : (Block.darwin a d junk).encode more = le 4 (788 + more.length) ++ le 4 0xA0000006 ++
        (a.encode false ++ (utf16 d.text ++ [0, 0] ++ junk) ++ more) := by
    unfold Block.encode RawBlock.encode
    simp only
    rw [hl, ← Nat.add_assoc]
    rfl
  rw [extra_block_report _ (.darwin a d junk) more ⟨ha, hd, hw⟩ (by rw [hl]; omega) rfl he.symm]
  unfold Block.report
  rw [hl]
  simp only [Block.warns, Block.fields, pure, Py.ret]
  rcases d.component with _ | g <;> simp [PyVal.opt, ← Nat.add_assoc]

/-- Both separators are digits of nothing: a descriptor with feature name and component. -/
def exampleDescriptor : Descriptor :=
  ⟨⟨0x90120000, 0x0030, 0x0000, 0x00, 0x00, 0x00, 0x00, 0x00, 0xFF, 0x1C, 0xE0⟩, "WORDFiles".toList,
    some ⟨0x1EBDE4BC, 0x9A51, 0x4630, 0xB5, 0x41, 0x25, 0x61, 0xFA, 0x45, 0xCC, 0xC5⟩⟩

example : exampleDescriptor.Valid ∧ exampleDescriptor.product.text = "90120000-0030-0000-0000-000000FF1CE0".toList ∧
    (utf16 exampleDescriptor.text ++ [0, 0] ++ List.replicate 418 0).length = 520 := by
  refine ⟨⟨by decide, by decide, by decide⟩, by decide +kernel, by decide +kernel⟩

theorem quadLoop_short (q : Str) (n : Nat) (d : Int) (h : q.length < n) : quadLoop q n d = Py.raise .indexError := by
  cases n with
  | zero => omega
  | succ n =>
    unfold quadLoop
    have : q[n]? = none := List.getElem?_eq_none (by omega)
    rw [this]

theorem quadToHex_error (q : Str) (h : q.length < 5) : (quadToHex q).res = .error .indexError := by
  unfold quadToHex
  rw [quadLoop_short q 5 0 h]
  rfl

/-- A text of fewer than 20 characters is no packed GUID. -/
theorem parsePackedUuid_short (t : Str) (h : t.length < 20) : (parsePackedUuid (some t)).res = .error .indexError := by
  have hq : ∀ q : Str, (quadToHex q).res = .error .indexError ∨ ∃ s, (quadToHex q).res = .ok s := by
    intro q
    have := (Py.only_bind (P := (· = .indexError)) (Py.only_quadLoop q 5 0 rfl) fun d => Py.only_pure (fmtXInt 8 d))
    rcases hr : (quadToHex q).res with e | s
    · exact .inl (by rw [this.out e hr])
    · exact .inr ⟨s, rfl⟩
  unfold parsePackedUuid
  rw [Py.bind_res]
  rcases hq (slice t 0 5) with h1 | ⟨s1, h1⟩
  · rw [h1]
  rw [h1]; simp only
  rw [Py.bind_res]
  rcases hq (slice t 5 10) with h2 | ⟨s2, h2⟩
  · rw [h2]
  rw [h2]; simp only
  rw [Py.bind_res]
  rcases hq (slice t 10 15) with h3 | ⟨s3, h3⟩
  · rw [h3]
  rw [h3]; simp only
  rw [Py.bind_res]
  rw [quadToHex_error (slice t 15 20) (by simp; omega)]

/-- C33, the failing side: a descriptor of fewer than 20 characters raises `IndexError`, which is not one of the
exceptions that only hide the block. -/
theorem darwin_short (tp : TextProc) (a w : Field) (more : Bytes) (n : UInt32) (ha : a.Valid tp false 260)
    (hw : w.Valid tp true 520) (hs : w.text.text.length < 20) :
    (Extra.asDict ⟨.darwin, tp, le 4 n.toNat ++ le 4 0xA0000006 ++ (a.encode false ++ w.encode true ++ more)⟩).res =
      .error .indexError := by
  generalize hx : (⟨.darwin, tp, le 4 n.toNat ++ le 4 0xA0000006 ++ (a.encode false ++ w.encode true ++ more)⟩ : Extra) = x
  have hraw : x.raw = le 4 n.toNat ++ le 4 0xA0000006 ++ (a.encode false ++ w.encode true ++ more) := by rw [← hx]
  have htp : x.tp = tp := by rw [← hx]
  have hcls : x.cls = .darwin := by rw [← hx]
  have l1 := ha.2
  have l2 := hw.2
  have e1 : slice x.raw 8 (8 + 260) = a.encode false := by
    rw [hraw]; slices_with [l1, l2]
  have e2 : slice x.raw 268 (268 + 520) = w.encode true := by
    rw [hraw]; slices_with [l1, l2]
  have e3 : x.darwinDataUnicode = pure w.text.text := by
    unfold Extra.darwinDataUnicode
    rw [e2, Extra.readUnicodeString_field hw.1]
  have h0 : x.size = pure n.toNat := by
    have : x.size = x.uint 0 4 := by unfold Extra.size; rw [hcls]
    rw [this]
    refine Extra.uint4_at (v := n) ?_ rfl
    rw [hraw]; slices
  unfold Extra.asDict
  rw [h0, pure_bind]
  have hf : x.fields = x.darwinFields := by unfold Extra.fields; rw [hcls]
  rw [hf, Py.bind_res]
  have : x.darwinFields.res = .error .indexError := by
    unfold Extra.darwinFields
    rw [e1, htp, Extra.readString_field ha.1, pure_bind, e3, pure_bind, Py.bind_res]
    have : x.productCodeId.res = .error .indexError := by
      unfold Extra.productCodeId
      rw [e3, pure_bind]
      exact parsePackedUuid_short _ (by simp; omega)
    rw [this]
  rw [this]

/-- A descriptor of five characters. -/
example (env : Env) : (Extra.asDict ⟨.darwin, TextProc.mk' env none, le 4 788 ++ le 4 0xA0000006 ++
    ((⟨asciiText "", List.replicate 259 0⟩ : Field).encode false ++
      (⟨⟨utf16 "short".toList, "short".toList⟩, List.replicate 508 0⟩ : Field).encode true ++ [])⟩).res = .error .indexError :=
  darwin_short _ ⟨asciiText "", List.replicate 259 0⟩ ⟨⟨utf16 "short".toList, "short".toList⟩, List.replicate 508 0⟩ [] 788
    ⟨asciiText_valid env "" (by decide), by decide +kernel⟩ ⟨⟨by decide, by decide⟩, by decide +kernel⟩ (by decide)

/-- C33: a Darwin block that ends before its Unicode field raises `IndexError`, and so does the whole extra data. -/
theorem darwin_truncated (tp : TextProc) (hcp : UsableCodePage tp) (raw : Bytes) (h4 : 4 ≤ raw.length) (hl : raw.length ≤ 268)
    (post : List Extra) :
    (Extra.asDict ⟨.darwin, tp, raw⟩).res = .error .indexError ∧
      (ExtraData.asDict ⟨⟨.darwin, tp, raw⟩ :: post⟩).res = .error .indexError := by
  have key : (Extra.asDict ⟨.darwin, tp, raw⟩).res = .error .indexError := by
    have hn : Extra.darwinDataUnicode ⟨.darwin, tp, raw⟩ = pure [] := by
      unfold Extra.darwinDataUnicode
      have : slice raw 268 (268 + 520) = [] := by
        unfold slice
        rw [List.drop_eq_nil_of_le hl]
        rfl
      simp only [this]
      rfl
    have hsz : ∃ n, Extra.size ⟨.darwin, tp, raw⟩ = pure n := by
      rw [ExtraData.size_eq _ (by simp)]
      unfold uAt
      rw [if_pos (by simpa using h4)]
      exact ⟨_, rfl⟩
    obtain ⟨n, hsz⟩ := hsz
    unfold Extra.asDict
    rw [hsz, pure_bind, Py.bind_res]
    have : (Extra.fields ⟨.darwin, tp, raw⟩).res = .error .indexError := by
      show (Extra.darwinFields ⟨.darwin, tp, raw⟩).res = _
      unfold Extra.darwinFields
      rw [Py.bind_res]
      have ho := only_readString (P := fun _ => False) (tp := tp) (fun b => only_ansiToStr hcp b) (slice raw 8 (8 + 260))
      obtain ⟨s, w, hs⟩ := Py.only_false_iff.1 ho
      simp only [hs]
      rw [hn, pure_bind, Py.bind_res]
      have : (Extra.productCodeId ⟨.darwin, tp, raw⟩).res = .error .indexError := by
        unfold Extra.productCodeId
        rw [hn, pure_bind]
        exact parsePackedUuid_short _ (by simp)
      rw [this]
    rw [this]
  refine ⟨key, extra_report_escape [] post _ .indexError (by simp) key ?_⟩
  simp [Caught]

example (env : Env) : (ExtraData.asDict ⟨[⟨.darwin, TextProc.mk' env none, [8, 0, 0, 0, 6, 0, 0, 0xA0]⟩]⟩).res = .error .indexError :=
  (darwin_truncated _ (usable_default env) [8, 0, 0, 0, 6, 0, 0, 0xA0] (by decide) (by decide) []).2

/-! ### C34 -/

/-- C34: a property store with any storages and values is reported completely and in order. -/
theorem property_store_report (tp : TextProc) (l : List Storage) (hv : ∀ s ∈ l, s.Valid tp) (more : Bytes)
    (hf : 8 + (encodeStore l ++ more).length < 2 ^ 32) :
    Extra.asDict ⟨.metadata, tp, le 4 (8 + (encodeStore l ++ more).length) ++ le 4 0xA0000009 ++ (encodeStore l ++ more)⟩ =
      pure [("size", .int (8 + (encodeStore l ++ more).length : Nat)),
        ("property_store", .list (l.map fun s => .dict s.report))] :=
  extra_block_report ⟨.metadata, tp, _⟩ (.metadata l) more hv hf rfl rfl

/-- C34: parsing a property store ends on every input, with the store, `struct.error` or `ValueError`. -/
theorem property_store_terminates (raw : Bytes) (e : PyErr) (h : (Metadata.propertyStore raw).res = .error e) :
    e = .structError ∨ e = .valueError :=
  (Metadata.only_propertyStore (P := fun e => e = .structError ∨ e = .valueError) raw (.inl rfl) (.inr rfl)).out e h

/-- C34: one VT_I2 value, or one value of a type without a name, anywhere in the store makes the block unreportable,
although all other values are fine. -/
theorem property_store_unreportable (tp : TextProc) (l1 l2 : List Storage) (ver : UInt32) (g : Guid)
    (ps1 ps2 : List Property) (p : Property) (e : PyErr) (h1 : ∀ s ∈ l1, s.Valid tp)
    (h2 : ∀ q ∈ ps1, q.Valid tp (decide (g = stringNamedFormat))) (hn : p.NameValid tp g)
    (hp : p.value.unreportable = some e) (more : Bytes) (l : List Storage) (hl : l = l1 ++ ⟨ver, g, ps1 ++ p :: ps2⟩ :: l2)
    (hf : 8 + (encodeStore l ++ more).length < 2 ^ 32) :
    (Extra.asDict ⟨.metadata, tp,
      le 4 (8 + (encodeStore l ++ more).length) ++ le 4 0xA0000009 ++ (encodeStore l ++ more)⟩).res = .error e := by
  subst hl
  have hsz := Extra.size_of (x := ⟨.metadata, tp, RawBlock.encode ⟨0xA0000009, _⟩⟩) (b := ⟨0xA0000009, _⟩) rfl (by simp) hf
  have hlen : (encodeStore (l1 ++ ⟨ver, g, ps1 ++ p :: ps2⟩ :: l2)).length < 2 ^ 32 := by
    rw [List.length_append] at hf; omega
  have hps := Metadata.propertyStore_bad h1 h2 hn hp
    (hd := le 4 (8 + (encodeStore (l1 ++ ⟨ver, g, ps1 ++ p :: ps2⟩ :: l2) ++ more).length) ++ le 4 0xA0000009) (by simp)
    (more := more) hlen
  show (Extra.asDict ⟨.metadata, tp, RawBlock.encode ⟨0xA0000009, _⟩⟩).res = _
  unfold Extra.asDict
  rw [hsz, pure_bind, Py.bind_res]
  have : (Extra.fields ⟨.metadata, tp,
      RawBlock.encode ⟨0xA0000009, encodeStore (l1 ++ ⟨ver, g, ps1 ++ p :: ps2⟩ :: l2) ++ more⟩⟩).res = .error e := by
    show (Extra.metadataFields ⟨.metadata, tp, _⟩).res = _
    unfold Extra.metadataFields
    rw [Py.bind_res]
    have hh : (Metadata.propertyStore
        (RawBlock.encode ⟨0xA0000009, encodeStore (l1 ++ ⟨ver, g, ps1 ++ p :: ps2⟩ :: l2) ++ more⟩)).res = .error e := hps
    simp only [hh]
  rw [this]

/-- A store with an integer-named storage (a string and a FILETIME, whose value is not reported) and a string-named
one. -/
def exampleStore : List Storage :=
  [ ⟨0x53505331, ⟨0xB725F130, 0x47EF, 0x101A, 0xA5, 0xF1, 0x02, 0x60, 0x8C, 0x9E, 0xEB, 0xAC⟩,
      [ .int 10 0 (.str ⟨⟨utf16 "Größe".toList, "Größe".toList⟩, []⟩ []),
        .int 14 0 (.other 0x40 0 [1, 2, 3, 4, 5, 6, 7, 8]) ]⟩,
    ⟨0x53505331, stringNamedFormat, [.str ⟨⟨utf16 "Key".toList, "Key".toList⟩, []⟩ 0 (.other 0x0B 0 [0xFF, 0xFF])]⟩ ]

theorem exampleStore_valid (tp : TextProc) : ∀ s ∈ exampleStore, s.Valid tp := by
  intro s hs
  simp only [exampleStore, List.mem_cons, List.not_mem_nil, or_false] at hs
  rcases hs with rfl | rfl
  · intro p hp
    simp only [List.mem_cons, List.not_mem_nil, or_false] at hp
    rcases hp with rfl | rfl
    · exact ⟨by decide, ⟨rfl, by decide⟩, by decide, by decide⟩
    · exact ⟨by decide, by decide, fun _ => by decide⟩
  · intro p hp
    simp only [List.mem_cons, List.not_mem_nil, or_false] at hp
    subst hp
    exact ⟨by decide, ⟨rfl, by decide⟩, by decide, fun _ => by decide⟩

example (tp : TextProc) :
    Extra.asDict ⟨.metadata, tp, le 4 (8 + (encodeStore exampleStore ++ []).length) ++ le 4 0xA0000009 ++ (encodeStore exampleStore ++ [])⟩ =
    pure [("size", .int 141), ("property_store", .list
      [ .dict [("storage_size", .int 78), ("version", .str "0x53505331".toList),
          ("format_id", .str "B725F130-47EF-101A-A5F1-02608C9EEBAC".toList),
          ("serialized_property_values", .list
            [ .dict [("value_size", .int 29), ("id", .int 10), ("value", .str "Größe".toList), ("value_type", .str "VT_LPWSTR".toList)],
              .dict [("value_size", .int 21), ("id", .int 14), ("value", .none), ("value_type", .str "VT_FILETIME".toList)] ])],
        .dict [("storage_size", .int 51), ("version", .str "0x53505331".toList),
          ("format_id", .str "D5CDD505-2E9C-101B-9397-08002B2CF9AE".toList),
          ("serialized_property_values", .list
            [ .dict [("value_size", .int 23), ("name_size", .int 8), ("name", .str "Key".toList), ("value", .none),
                ("value_type", .str "VT_BOOL".toList)] ])] ])] := by
  rw [property_store_report tp exampleStore (exampleStore_valid tp) [] (by decide +kernel)]
  have e1 : (8 + (encodeStore exampleStore ++ []).length : Nat) = 141 := by decide +kernel
  rw [e1]
  rfl

/-! ### C35 -/

/-- C35: the ID list of a shell item block, whatever its bytes, is reported like a target ID list of the same bytes. -/
theorem shell_item_block (tp : TextProc) (p rest : Bytes) (hp : p.length < 65536) :
    Extra.asDict ⟨.shellItem, tp, RawBlock.encode ⟨0xA000000C, p⟩⟩ = (do
      let t ← LnkTargets.init tp (le 2 p.length ++ p ++ rest)
      let l ← t.asList
      pure [("size", .int (8 + p.length : Nat)), ("id_list", .list l)]) := by
  have hfit : RawBlock.Fits ⟨0xA000000C, p⟩ := by unfold RawBlock.Fits; simp only; omega
  have hsz := Extra.size_of (x := ⟨.shellItem, tp, RawBlock.encode ⟨0xA000000C, p⟩⟩) (b := ⟨0xA000000C, p⟩) rfl (by simp) hfit
  have hit : Extra.shellItemIter ⟨.shellItem, tp, RawBlock.encode ⟨0xA000000C, p⟩⟩ = LnkTargets.idLists tp p := by
    rw [Extra.shellItemIter_eq (n := 8 + p.length)]
    · have : slice (RawBlock.encode ⟨0xA000000C, p⟩) 8 (8 + p.length) = p := by
        unfold RawBlock.encode
        rw [slice_append_right (by simp)]
        simp only [List.length_append, le_length]
        exact slice_all (by omega)
      rw [this]
    · refine Extra.uint_at (v := 8 + p.length) ?_ hfit
      unfold RawBlock.encode
      slices
  have hinit : LnkTargets.init tp (le 2 p.length ++ p ++ rest) = pure ⟨tp, le 2 p.length ++ p ++ rest, p⟩ := by
    have e0 : slice (le 2 p.length ++ p ++ rest) 0 2 = le 2 p.length := by slices
    have e1 : slice (le 2 p.length ++ p ++ rest) 2 (p.length + 2) = p := by
      rw [List.append_assoc]
      exact slice_mid (by simp) (by omega)
    unfold LnkTargets.init LnkTargets.idListSizeOf
    rw [e0, unpackU_le (by omega)]
    simp only [pure_bind, e1]
  have hlist : LnkTargets.asList ⟨tp, le 2 p.length ++ p ++ rest, p⟩ = LnkTargets.asListLoop (LnkTargets.idLists tp p) := rfl
  unfold Extra.asDict
  rw [hsz, pure_bind, hinit, pure_bind, hlist]
  have : Extra.fields ⟨.shellItem, tp, RawBlock.encode ⟨0xA000000C, p⟩⟩ = Extra.shellItemFields _ := rfl
  rw [this]
  unfold Extra.shellItemFields
  rw [hit]
  simp only [bind_assoc, pure_bind]
  rfl

/-- C35: the items of `exampleItems` in a shell item block. -/
example (tp : TextProc) :
    Extra.asDict ⟨.shellItem, tp, (Block.shellItem exampleItems).encode []⟩ =
      ⟨[.itemType 0x99], .ok [("size", .int (8 + (encodeItems exampleItems ++ le 2 0 ++ []).length : Nat)),
        ("id_list", .list (exampleItems.map fun it => .dict it.report))]⟩ :=
  extra_block_report ⟨.shellItem, tp, _⟩ (.shellItem exampleItems) [] (exampleItems_good tp).each (by decide +kernel)
    rfl rfl

/-! ### C45 -/

/-- C45: after whole blocks, a terminal block of value 1-3 that is followed by at least four bytes lets the section
be cut, but its size cannot be computed: `struct.error` (which is then the constructor's). -/
theorem terminal_one_to_three (tp : TextProc) (allow : Bool) (raws : List RawBlock) (hf : ∀ b ∈ raws, b.Fits) (k : Nat)
    (hk : 1 ≤ k ∧ k ≤ 3) (rest : Bytes) :
    (4 ≤ rest.length → (do
        let e ← ExtraData.init tp allow (raws.flatMap RawBlock.encode ++ (le 4 k ++ rest))
        e.size).res = .error .structError) ∧
    (rest.length < 4 → ∃ n, (do
        let e ← ExtraData.init tp allow (raws.flatMap RawBlock.encode ++ (le 4 k ++ rest))
        e.size).res = .ok n) := by
  obtain ⟨l, last, hc⟩ := ExtraData.cut_exists ((le 4 k ++ rest).drop k)
  have hu : uAt 4 (le 4 k ++ rest) 0 = some k := ExtraData.uAt_le4 k (by omega) rest
  have hcut := ExtraData.cut_raw raws hf (Cut.block hu (by omega) hc)
  have hsz := ExtraData.size_cut (tp := tp) (allow := allow) hcut
  have hres : (do
        let e ← ExtraData.init tp allow (raws.flatMap RawBlock.encode ++ (le 4 k ++ rest))
        e.size).res = (ExtraData.size ⟨ExtraData.objects tp (raws.map ExtraData.pieceOf ++
          (⟨k, (le 4 k ++ rest).take k, uAt 4 (le 4 k ++ rest) 4⟩ :: l)) ++
            if allow = true ∧ 4 < last.length then [⟨.terminal, tp, last⟩] else []⟩).res := by
    rw [Py.bind_res, ExtraData.init_cut hcut]
  rw [hres, hsz]
  constructor
  · intro h4
    have hs : ∃ s, uAt 4 (le 4 k ++ rest) 4 = some s := by
      unfold uAt
      rw [if_pos (by simp; omega)]
      exact ⟨_, rfl⟩
    obtain ⟨s, hs⟩ := hs
    rw [if_neg]
    · rfl
    · intro hall
      have := hall ⟨k, (le 4 k ++ rest).take k, uAt 4 (le 4 k ++ rest) 4⟩ (by
        unfold ExtraData.signed
        rw [List.mem_filter]
        exact ⟨by simp, by rw [hs]; rfl⟩)
      simp only at this
      omega
  · intro h4
    have hnone : ∀ (b : Bytes) (l : List Piece) (last : Bytes), Cut b l last → b.length < 8 → ExtraData.signed l = [] := by
      intro b l last h
      induction h with
      | stop h => intro _; rfl
      | @block b n l last h1 h2 h3 ih =>
        intro hb
        have : uAt 4 b 4 = none := by unfold uAt; rw [if_neg (by omega)]
        unfold ExtraData.signed at ih ⊢
        rw [this, List.filter_cons_of_neg (by simp)]
        exact ih (by simp; omega)
    rw [if_pos]
    · exact ⟨_, rfl⟩
    · have h1 := hnone _ _ _ (Cut.block hu (by omega) hc) (by simp; omega)
      unfold ExtraData.signed at h1 ⊢
      rw [List.filter_append, h1, List.append_nil]
      intro p hp
      have hp := (List.mem_filter.1 hp).1
      obtain ⟨b, -, rfl⟩ := List.mem_map.1 hp
      show 4 ≤ 8 + b.payload.length
      omega

/-- A code page block, the value 1 and four more bytes. -/
example (tp : TextProc) (allow : Bool) : (do
    let e ← ExtraData.init tp allow ([12, 0, 0, 0, 4, 0, 0, 0xA0, 0xE4, 4, 0, 0] ++ [] ++ ([1, 0, 0, 0] ++ [5, 6, 7, 8]))
    e.size).res = .error .structError :=
  (terminal_one_to_three tp allow [⟨0xA0000004, [0xE4, 4, 0, 0]⟩] (by simp [RawBlock.Fits]) 1 (by omega) [5, 6, 7, 8]).1 (by decide)

/-! ### C52 -/

/-- C52: a shim layer block whose layer name is stored in Unicode, as [MS-SHLLINK] 2.5.8 has it, is reported with
only the first character of the name when that character is ASCII (the default code page). -/
theorem shim_layer_unicode (env : Env) (c : Char) (cs : Str) (more : Bytes) (hc : 0 < c.toNat ∧ c.toNat < 128)
    (hf : 8 + (utf16 (c :: cs) ++ [0, 0] ++ more).length < 2 ^ 32) :
    Extra.asDict ⟨.shimLayer, TextProc.mk' env none, RawBlock.encode ⟨0xA0000008, utf16 (c :: cs) ++ [0, 0] ++ more⟩⟩ =
      pure [("size", .int (8 + (utf16 (c :: cs) ++ [0, 0] ++ more).length : Nat)), ("layer_name", .str [c])] := by
  have hu : utf16 (c :: cs) ++ [0, 0] ++ more = (asciiText (String.ofList [c])).encodeZ false ++ (utf16 cs ++ [0, 0] ++ more) := by
    have h1 : utf16Char c = [UInt8.ofNat c.toNat, 0] := by
      unfold utf16Char
      rw [if_pos (by omega), le2_pair, Nat.div_eq_of_lt (by omega)]
      rfl
    rw [utf16_cons, h1]
    simp [Text.encodeZ, asciiText]
  rw [hu] at hf ⊢
  have := extra_block_report ⟨.shimLayer, TextProc.mk' env none, RawBlock.encode ⟨0xA0000008, _⟩⟩
    (.shimLayer (asciiText (String.ofList [c]))) (utf16 cs ++ [0, 0] ++ more)
    (asciiText_valid env _ (by simpa using hc)) hf rfl rfl
  refine this.trans ?_
  simp [Block.report, Block.warns, Block.fields, Block.payload, asciiText, pure, Py.ret]

example (env : Env) :
    Extra.asDict ⟨.shimLayer, TextProc.mk' env none, RawBlock.encode ⟨0xA0000008, utf16 "WinXP".toList ++ [0, 0] ++ []⟩⟩ =
      pure [("size", .int 20), ("layer_name", .str "W".toList)] :=
  shim_layer_unicode env 'W' "inXP".toList [] (by decide) (by decide)

/-- The descriptor in a Darwin block. -/
example (env : Env) (d : Dict) (h : Extra.asDict ⟨.darwin, TextProc.mk' env none, le 4 788 ++ le 4 0xA0000006 ++
    ((⟨asciiText "x", List.replicate 258 0⟩ : Field).encode false ++
      (utf16 exampleDescriptor.text ++ [0, 0] ++ List.replicate 418 0) ++ [])⟩ = pure d) :
    d.get? "feature_name" = some (.str "WORDFiles".toList) ∧
    d.get? "component_id" = some (.str "1EBDE4BC-9A51-4630-B541-2561FA45CCC5".toList) := by
  have := darwin_report (TextProc.mk' env none) ⟨asciiText "x", List.replicate 258 0⟩ exampleDescriptor (List.replicate 418 0) []
    ⟨asciiText_valid env "x" (by decide), by decide +kernel⟩ ⟨by decide, by decide, by decide⟩ (by decide +kernel) (by decide)
  obtain rfl : _ = d := Except.ok.inj (congrArg Py.res (this.symm.trans h))
  exact ⟨rfl, rfl⟩

/-- A VT_I2 value in an otherwise fine store: the block is not reported. -/
example (tp : TextProc) : ∃ l : List Storage, 2 = l.length ∧ (Extra.asDict ⟨.metadata, tp,
    le 4 (8 + (encodeStore l ++ []).length) ++ le 4 0xA0000009 ++ (encodeStore l ++ [])⟩).res = .error .structError :=
  ⟨_, rfl, property_store_unreportable tp [⟨0x53505331, stringNamedFormat, []⟩] []
    0x53505331 ⟨0xB725F130, 0x47EF, 0x101A, 0xA5, 0xF1, 0x02, 0x60, 0x8C, 0x9E, 0xEB, 0xAC⟩ [] [] (.int 10 0 (.other 2 0 [1, 0])) .structError
    (by simp [Storage.Valid]) (by simp) (by simp [Property.NameValid, stringNamedFormat]) (by decide +kernel) [] _ rfl (by decide +kernel)⟩

/-- An ID list of rubbish in a shell item block. -/
example (tp : TextProc) : Extra.asDict ⟨.shellItem, tp, RawBlock.encode ⟨0xA000000C, [4, 0, 0x99, 1, 0, 0]⟩⟩ = (do
    let t ← LnkTargets.init tp [6, 0, 4, 0, 0x99, 1, 0, 0]
    let l ← t.asList
    pure [("size", .int 14), ("id_list", .list l)]) :=
  shell_item_block tp [4, 0, 0x99, 1, 0, 0] [] (by decide)

end Verif.Props
