import Verif.Lemmas.FileOutcome
import Verif.Lemmas.Reduced
import Verif.Props.Extra

/-
C02, C11, C38, C40, C46, C49, C50: the constructor and `get_json` on arbitrary bytes.
-/

namespace Verif.Props

open Spec

/-! ### C02 -/

/-- What the constructor needs: a header of at least 24 bytes, declared and present; IDListSize, if announced; no
block of the extra data that has a signature and declares one, two or three bytes. -/
def Acceptable (b : Bytes) : Prop :=
  (∃ hs flags, uAt 4 b 0 = some hs ∧ uAt 4 b 20 = some flags ∧ 24 ≤ hs ∧
    (flags.testBit 0 = true → hs + 2 ≤ b.length)) ∧
  ∀ L l last, layout b = some L → Cut (b.drop L.extraAt) l last → ∀ p ∈ l, p.signature.isSome → 4 ≤ p.declared

/-- The sections can be located exactly when the link flags and the announced IDListSize are there. -/
theorem layout_isSome (b : Bytes) :
    (∃ L, layout b = some L) ↔ ∃ hs flags, uAt 4 b 0 = some hs ∧ uAt 4 b 20 = some flags ∧ 24 ≤ hs ∧
      (flags.testBit 0 = true → hs + 2 ≤ b.length) := by
  unfold layout
  rcases h0 : uAt 4 b 0 with _ | hs
  · simp
  simp only [Option.some.injEq]
  by_cases h24 : 24 ≤ hs
  · rw [ExtraData.uAt_take 4 b 20 hs (by omega) (by omega)]
    rcases h2 : uAt 4 b 20 with _ | flags
    · simp
    · constructor
      · rintro ⟨L, hL⟩
        refine ⟨hs, flags, rfl, rfl, h24, fun hb => ?_⟩
        simp only [hb, if_true] at hL
        rcases hu : uAt 2 b hs with _ | n
        · simp [hu] at hL
        · exact ExtraData.uAt_some_length hu
      · rintro ⟨hs', flags', h1, h2, -, h⟩
        cases h1
        cases h2
        dsimp only
        split
        · rename_i hX
          split at hX
          · rename_i hb
            rw [Option.map_eq_none_iff] at hX
            exact absurd (uAt_eq_none_iff.1 hX) (by have := h hb; omega)
          · simp at hX
        · exact ⟨_, rfl⟩
  · have : uAt 4 (b.take hs) 20 = none := by
      unfold uAt
      rw [if_neg (by simp; omega)]
    rw [this]
    constructor
    · rintro ⟨L, h⟩
      simp at h
    · rintro ⟨hs', flags, h, -, h', -⟩
      subst h
      exact absurd h' h24

/-- There is one way to cut. -/
theorem cut_unique {b : Bytes} {l l' : List Piece} {last last' : Bytes} (h : Cut b l last) (h' : Cut b l' last') :
    l = l' ∧ last = last' := by
  obtain ⟨_, _, _, -, -, hu⟩ := extra_cut b
  obtain ⟨rfl, rfl⟩ := hu _ _ h
  obtain ⟨rfl, rfl⟩ := hu _ _ h'
  exact ⟨rfl, rfl⟩

/-- The exception for what cannot be accepted. -/
def constructorError : Source → PyErr
  | .indata [] => .attributeError
  | .fhandle [] => .lnkParserError
  | _ => .structError

/-- C02: on arbitrary bytes the constructor succeeds exactly if they are acceptable, and otherwise raises `AttributeError`
(empty `indata`), `LnkParserError` (empty file) or `struct.error`. -/
theorem constructor_outcome (env : Env) (cp : Option String) (hcp : UsableCodePage (TextProc.mk' env cp)) (allow : Bool)
    (src : Source) :
    ((∃ f, (LnkFile.init env cp allow src).res = .ok f) ↔ Acceptable src.bytes) ∧
    (¬ Acceptable src.bytes → (LnkFile.init env cp allow src).res = .error (constructorError src)) := by
  have key : Acceptable src.bytes ∧ (∃ f, (LnkFile.init env cp allow src).res = .ok f) ∨
      ¬ Acceptable src.bytes ∧ (LnkFile.init env cp allow src).res = .error (constructorError src) := by
    by_cases hb : src.bytes = []
    · right
      constructor
      · rintro ⟨⟨hs, flags, h0, -⟩, -⟩
        rw [hb] at h0
        simp [uAt] at h0
      · cases src with
        | fhandle b => cases hb; rfl
        | indata b => cases hb; rfl
    · have hr : (LnkFile.init env cp allow src).res = (LnkFile.process env cp allow src.bytes).res := by
        cases src with
        | fhandle b => rfl
        | indata b => simp only [LnkFile.init, Source.bytes] at hb ⊢; rw [if_neg hb]
      have he : constructorError src = .structError := by
        cases src with
        | fhandle b => cases b with
          | nil => exact absurd rfl hb
          | cons _ _ => rfl
        | indata b => cases b with
          | nil => exact absurd rfl hb
          | cons _ _ => rfl
      rw [hr, he]
      rcases hl : layout src.bytes with _ | L
      · right
        refine ⟨fun h => ?_, by rw [LnkFile.process_none _ _ _ _ hl, if_neg hb]⟩
        obtain ⟨L, hL⟩ := (layout_isSome _).2 h.1
        rw [hl] at hL
        simp at hL
      · obtain ⟨l, last, hc⟩ := ExtraData.cut_exists (src.bytes.drop L.extraAt)
        have hp := LnkFile.process_some env cp hcp allow src.bytes L hl l last hc
        split at hp
        · rename_i hall
          left
          refine ⟨⟨(layout_isSome _).1 ⟨L, hl⟩, ?_⟩, hp.imp fun f h => h.1⟩
          intro L' l' last' hL' hc' p hp' hs
          rw [hl, Option.some.injEq] at hL'
          subst hL'
          obtain ⟨rfl, rfl⟩ := cut_unique hc hc'
          exact hall p (List.mem_filter.2 ⟨hp', hs⟩)
        · rename_i hall
          right
          refine ⟨fun h => hall fun p hp => ?_, hp⟩
          obtain ⟨h1, h2⟩ := List.mem_filter.1 hp
          exact h.2 L l last hl hc p h1 h2
  rcases key with ⟨h1, h2⟩ | ⟨h1, h2⟩
  · exact ⟨⟨fun _ => h1, fun _ => h2⟩, fun h => absurd h1 h⟩
  · refine ⟨⟨fun ⟨f, hf⟩ => ?_, fun h => absurd h h1⟩, fun _ => h2⟩
    rw [h2] at hf
    simp at hf

/-- A header without flags, cut after the flags: accepted. -/
example (env : Env) (allow : Bool) :
    ∃ f, (LnkFile.init env none allow (.indata (le 4 76 ++ List.replicate 16 7 ++ le 4 0))).res = .ok f := by
  refine (constructor_outcome env none (usable_default env) allow _).1.2 ⟨⟨76, 0, by decide, by decide, by decide, by decide⟩, ?_⟩
  intro L l last hL hc
  have : L.extraAt = 76 := by
    have h : layout (le 4 76 ++ List.replicate 16 7 ++ le 4 0) = some ⟨76, 0, 76, 76, 76⟩ := by rfl
    rw [Source.bytes, h, Option.some.injEq] at hL
    rw [← hL]
  rw [this] at hc
  obtain ⟨rfl, -⟩ := cut_unique hc (ExtraData.cut_stops (tail := []) (.inr (by simp)))
  simp

/-- One byte less: not accepted. -/
example (env : Env) (allow : Bool) :
    (LnkFile.init env none allow (.fhandle (le 4 76 ++ List.replicate 16 7 ++ [0, 0, 0]))).res = .error .structError := by
  refine (constructor_outcome env none (usable_default env) allow _).2 ?_
  rintro ⟨⟨hs, flags, -, h, -⟩, -⟩
  have : uAt 4 (le 4 76 ++ List.replicate 16 7 ++ [0, 0, 0]) 20 = none := by decide
  rw [Source.bytes, this] at h
  simp at h

/-! ### C11 -/

/-- What is known about every object. -/
theorem constructed (env : Env) (cp : Option String) (hcp : UsableCodePage (TextProc.mk' env cp)) (allow : Bool)
    (src : Source) (f : LnkFile) (hf : (LnkFile.init env cp allow src).res = .ok f) :
    ∃ L l last, layout src.bytes = some L ∧ Cut (src.bytes.drop L.extraAt) l last ∧
      LnkFile.Parts env cp allow src.bytes L l last f := by
  have hp := LnkFile.init_ok hf
  rcases hl : layout src.bytes with _ | L
  · rw [LnkFile.process_none _ _ _ _ hl] at hp
    simp at hp
  · obtain ⟨l, last, hc⟩ := ExtraData.cut_exists (src.bytes.drop L.extraAt)
    have h := LnkFile.process_some env cp hcp allow src.bytes L hl l last hc
    rw [hp] at h
    split at h
    · obtain ⟨f', h1, h2⟩ := h
      simp only [Except.ok.injEq] at h1
      subst h1
      exact ⟨L, l, last, rfl, hc, h2⟩
    · simp at h

/-- C11: the sections of a constructed object are where the layout says: the header is the declared number of bytes;
the ID list is there iff HasTargetIDList, read from the end of the header and cut at its own size; link info iff
HasLinkInfo without ForceNoLinkInfo and of a known kind, read from the end of the ID list; strings from its end; extra
data from the end of the strings. -/
theorem sections_located (env : Env) (cp : Option String) (hcp : UsableCodePage (TextProc.mk' env cp)) (allow : Bool)
    (src : Source) (f : LnkFile) (hf : (LnkFile.init env cp allow src).res = .ok f) :
    ∃ L, layout src.bytes = some L ∧
      f.header.raw = src.bytes.take L.headerSize ∧
      (f.targets.map fun t => (t.tp, t.raw, t.rawTargets)) = (if L.flags.testBit 0 then
        some (TextProc.mk' env cp, src.bytes.drop L.headerSize,
          (src.bytes.drop (L.headerSize + 2)).take (L.infoAt - (L.headerSize + 2))) else none) ∧
      (f.info.map fun i => (LnkFile.locationName i.1, i.2.tp, i.2.raw)) = (if infoAnnounced L.flags then
        (infoLocation src.bytes L.infoAt).map fun c => (c, TextProc.mk' env cp, src.bytes.drop L.infoAt) else none) ∧
      (StringData.init f.header (TextProc.mk' env cp) (src.bytes.drop L.stringsAt)).res = .ok f.stringData ∧
      (ExtraData.init (TextProc.mk' env cp) allow (src.bytes.drop L.extraAt)).res = .ok f.extras ∧
      f.targetIndex = L.headerSize + 2 := by
  obtain ⟨L, l, last, hl, hc, h⟩ := constructed env cp hcp allow src f hf
  refine ⟨L, hl, by rw [h.header], ?_, ?_, h.strings, ?_, h.targetIndex⟩
  · rw [h.targets]
    split
    · rw [Option.map_some, slice]
    · rfl
  · rw [h.info]
    split
    · rcases hi : infoLocation src.bytes L.infoAt with _ | c
      · rfl
      · have : c = "Local" ∨ c = "Network" := by
          unfold infoLocation at hi
          split at hi
          · simp at hi
          · split at hi
            · simp at hi; exact .inl hi.symm
            · split at hi
              · simp at hi; exact .inr hi.symm
              · simp at hi
        rcases this with rfl | rfl <;> rfl
    · rfl
  · rw [ExtraData.init_cut hc, h.extras]

/-- A file with an empty ID list, link info of 28 bytes and a name of one character. -/
def exampleBytes : Bytes :=
  le 4 76 ++ List.replicate 16 0 ++ le 4 0x87 ++ List.replicate 52 0 ++ [2, 0, 0, 0] ++
    (le 4 28 ++ le 4 28 ++ le 4 1 ++ List.replicate 16 0) ++ [1, 0, 65, 0] ++ [8, 0, 0, 0, 1, 2, 3, 4] ++ le 4 0

example : layout exampleBytes = some ⟨76, 0x87, 80, 108, 112⟩ := by decide +kernel

example : Cut (exampleBytes.drop 112) [⟨8, [8, 0, 0, 0, 1, 2, 3, 4], some 0x04030201⟩] (le 4 0) :=
  .block (by decide) (by decide) (.stop (by decide))

/-- It is accepted, and its sections are where the layout says. -/
example (env : Env) (allow : Bool) : ∃ f, (LnkFile.init env none allow (.indata exampleBytes)).res = .ok f ∧
    f.targets.isSome = true ∧ f.info.isSome = true := by
  have hL : layout exampleBytes = some ⟨76, 0x87, 80, 108, 112⟩ := by decide +kernel
  have hc : Cut (exampleBytes.drop 112) [⟨8, [8, 0, 0, 0, 1, 2, 3, 4], some 0x04030201⟩] (le 4 0) :=
    .block (by decide) (by decide) (.stop (by decide))
  obtain ⟨f, hf⟩ := (constructor_outcome env none (usable_default env) allow (.indata exampleBytes)).1.2
    ⟨⟨76, 0x87, by decide, by decide +kernel, by decide, by decide +kernel⟩, fun L l last hL' hc' => by
      obtain rfl := Option.some.inj (hL.symm.trans hL')
      obtain ⟨rfl, -⟩ := cut_unique hc' hc
      simp⟩
  obtain ⟨L, hL', -, ht, hi, -⟩ := sections_located env none (usable_default env) allow (.indata exampleBytes) f hf
  obtain rfl := Option.some.inj (hL.symm.trans hL')
  refine ⟨f, hf, ?_, ?_⟩
  · rw [if_pos (by decide)] at ht
    cases h : f.targets with
    | none => rw [h] at ht; cases ht
    | some _ => rfl
  · rw [if_pos (by decide), show infoLocation (Source.indata exampleBytes).bytes 80 = some "Local" by decide +kernel] at hi
    cases h : f.info with
    | none => rw [h] at hi; cases hi
    | some _ => rfl

/-! ### C50 -/

/-- C50: `size` counts the declared sizes: up to the extra data, then each block with a signature, then a kept terminal
block with all that follows; of what is left, at most four bytes. -/
theorem size_accounting (env : Env) (cp : Option String) (hcp : UsableCodePage (TextProc.mk' env cp)) (allow : Bool)
    (src : Source) (f : LnkFile) (hf : (LnkFile.init env cp allow src).res = .ok f) :
    ∃ L l last n, layout src.bytes = some L ∧ Cut (src.bytes.drop L.extraAt) l last ∧
      n = L.extraAt + ((l.filter fun p => p.signature.isSome).map Piece.declared).sum +
        (if allow = true ∧ 4 < last.length then last.length else 0) ∧
      f.size = n + min (src.bytes.length - n) 4 := by
  obtain ⟨L, l, last, hl, hc, h⟩ := constructed env cp hcp allow src f hf
  obtain ⟨n, h1, h2⟩ := h.size
  exact ⟨L, l, last, n, hl, hc, h1, h2⟩

/-- C50: when the sections stay within the input, every block has a signature and the bytes it declares, and terminal
blocks are kept, `size` is the length of the input. -/
theorem size_is_length (env : Env) (cp : Option String) (hcp : UsableCodePage (TextProc.mk' env cp)) (src : Source)
    (f : LnkFile) (hf : (LnkFile.init env cp true src).res = .ok f) (L : Layout) (hl : layout src.bytes = some L)
    (hL : L.extraAt ≤ src.bytes.length) (l : List Piece) (last : Bytes) (hc : Cut (src.bytes.drop L.extraAt) l last)
    (hp : ∀ p ∈ l, p.signature.isSome ∧ p.declared = p.bytes.length) : f.size = src.bytes.length := by
  obtain ⟨L', l', last', n, hl', hc', h1, h2⟩ := size_accounting env cp hcp true src f hf
  rw [hl, Option.some.injEq] at hl'
  subst hl'
  obtain ⟨rfl, rfl⟩ := cut_unique hc hc'
  have hsum : ((l.filter fun p => p.signature.isSome).map Piece.declared).sum = ((l.map Piece.bytes).flatten).length := by
    clear hc hc' h1
    induction l with
    | nil => rfl
    | cons p l ih =>
      obtain ⟨ps, pd⟩ := hp p List.mem_cons_self
      have := ih fun q hq => hp q (List.mem_cons_of_mem _ hq)
      rw [List.filter_cons, if_pos (by simpa using ps), List.map_cons, List.sum_cons, this, pd]
      simp
  have hlen := congrArg List.length (ExtraData.cut_flatten hc)
  rw [List.length_append, ← hsum, List.length_drop] at hlen
  rw [h2]
  simp only [true_and] at h1
  split at h1 <;> omega

/-- C50: without terminal blocks, the same up to the end of the terminal block. -/
theorem size_stops_at_terminal (env : Env) (cp : Option String) (hcp : UsableCodePage (TextProc.mk' env cp)) (src : Source)
    (f : LnkFile) (hf : (LnkFile.init env cp false src).res = .ok f) (L : Layout) (hl : layout src.bytes = some L)
    (hL : L.extraAt ≤ src.bytes.length) (l : List Piece) (last : Bytes) (hc : Cut (src.bytes.drop L.extraAt) l last)
    (hp : ∀ p ∈ l, p.signature.isSome ∧ p.declared = p.bytes.length) :
    f.size + (last.length - 4) = src.bytes.length := by
  obtain ⟨L', l', last', n, hl', hc', h1, h2⟩ := size_accounting env cp hcp false src f hf
  rw [hl, Option.some.injEq] at hl'
  subst hl'
  obtain ⟨rfl, rfl⟩ := cut_unique hc hc'
  have hsum : ((l.filter fun p => p.signature.isSome).map Piece.declared).sum = ((l.map Piece.bytes).flatten).length := by
    clear hc hc' h1
    induction l with
    | nil => rfl
    | cons p l ih =>
      obtain ⟨ps, pd⟩ := hp p List.mem_cons_self
      have := ih fun q hq => hp q (List.mem_cons_of_mem _ hq)
      rw [List.filter_cons, if_pos (by simpa using ps), List.map_cons, List.sum_cons, this, pd]
      simp
  have hlen := congrArg List.length (ExtraData.cut_flatten hc)
  rw [List.length_append, ← hsum, List.length_drop] at hlen
  rw [h2]
  simp only [Bool.false_eq_true, false_and, if_false] at h1
  omega

example (env : Env) (f : LnkFile) (hf : (LnkFile.init env none true (.indata exampleBytes)).res = .ok f) :
    f.size = 124 := by
  refine (size_is_length env none (usable_default env) (.indata exampleBytes) f hf ⟨76, 0x87, 80, 108, 112⟩
    (by decide +kernel) (by decide +kernel)
    [⟨8, [8, 0, 0, 0, 1, 2, 3, 4], some 0x04030201⟩] (le 4 0) (.block (by decide) (by decide) (.stop (by decide)))
    (by simp)).trans (by decide +kernel)

/-! ### C40 -/

/-- C40: on a constructed object `get_json` returns or raises `struct.error`, `IndexError` or `RuntimeError`. -/
theorem get_json_exceptions (env : Env) (cp : Option String) (hcp : UsableCodePage (TextProc.mk' env cp)) (allow all : Bool)
    (src : Source) (f : LnkFile) (hf : (LnkFile.init env cp allow src).res = .ok f) (e : PyErr)
    (he : (f.getJson all).res = .error e) : e = .structError ∨ e = .indexError ∨ e = .runtimeError :=
  (LnkFile.only_getJson (P := fun e => e = .structError ∨ e = .indexError ∨ e = .runtimeError) f all
    (LnkFile.uses_of_process (LnkFile.init_ok hf)) (.inl rfl) (.inr (.inl rfl)) (.inr (.inr rfl))
    fun b => only_ansiToStr hcp b).out e he

/-- C40, finer: `IndexError` needs a Darwin block, `RuntimeError` an ID list or a shell item block. -/
theorem get_json_exception_source (f : LnkFile) (all : Bool) (tp : TextProc) (hcp : UsableCodePage tp) (hu : f.Uses tp)
    (e : PyErr) (he : (f.getJson all).res = .error e) :
    e = .structError ∨ (e = .indexError ∧ ∃ x ∈ f.extras.data, x.cls.name = "DARWIN_BLOCK") ∨
      (e = .runtimeError ∧ (f.targets.isSome ∨ ∃ x ∈ f.extras.data, x.cls.name = "SHELL_ITEM_IDENTIFIER_BLOCK")) := by
  let P : PyErr → Prop := fun e => e = .structError ∨ (e = .indexError ∧ ∃ x ∈ f.extras.data, x.cls.name = "DARWIN_BLOCK") ∨
      (e = .runtimeError ∧ (f.targets.isSome ∨ ∃ x ∈ f.extras.data, x.cls.name = "SHELL_ITEM_IDENTIFIER_BLOCK"))
  have hc : ∀ b, Py.Only P (tp.ansiToStr b) := fun b => only_ansiToStr hcp b
  have h1 : Py.Only P f.jsonHeader := f.only_jsonHeader (.inl rfl)
  have h2 : Py.Only P f.jsonTarget := by
    rcases ht : f.targets with _ | t
    · unfold LnkFile.jsonTarget
      rw [ht]
      exact Py.only_pure _
    · exact f.only_jsonTarget (.inl rfl) (.inr (.inr ⟨rfl, .inl (by rw [ht]; rfl)⟩)) fun t ht => by
        rw [hu.targets t ht]; exact hc
  have h3 : Py.Only P f.jsonInfo := f.only_jsonInfo (.inl rfl) fun c i h => by rw [hu.info c i h]; exact hc
  have h4 : Py.Only P f.extras.asDict := by
    refine ExtraData.only_asDictLoop ?_ []
    intro x hx
    refine Extra.only_asDict x (.inl rfl) ?_ fun b => Py.Only.mono (by rw [hu.extras x hx]; exact hc b) fun e he => .inr he
    intro e he
    cases hxc : x.cls <;> rw [hxc] at he <;> simp only [Extra.extraErr] at he <;> subst he
    · exact .inr (.inr (.inl ⟨rfl, x, hx, by rw [hxc]; rfl⟩))
    · exact .inl rfl
    · exact .inr (.inr (.inr ⟨rfl, .inr ⟨x, hx, by rw [hxc]; rfl⟩⟩))
  exact (Py.only_bind h1 fun _ => Py.only_bind h2 fun _ => Py.only_bind h3 fun _ => Py.only_bind h4 fun _ =>
    Py.only_pure _ : Py.Only P (f.getJson all)).out e he

/-! ### C46 -/

/-- C46: no loop of the constructor or of `get_json` repeats without progress, on any bytes and for any code page whose
decoder returns. -/
theorem never_hangs (env : Env) (cp : Option String)
    (hcp : ∀ b, Py.Only (· ≠ .diverge) ((TextProc.mk' env cp).ansiToStr b)) (allow : Bool) (src : Source) :
    (LnkFile.init env cp allow src).res ≠ .error .diverge ∧
    ∀ f, (LnkFile.init env cp allow src).res = .ok f → ∀ all, (f.getJson all).res ≠ .error .diverge := by
  have hp := LnkFile.only_process (P := (· ≠ .diverge)) env cp allow src.bytes (by simp) (by simp) hcp
  refine ⟨fun h => ?_, fun f hf all h => ?_⟩
  · cases src with
    | fhandle b => exact hp.out _ h rfl
    | indata b =>
      simp only [LnkFile.init] at h
      split at h
      · simp at h
      · exact hp.out _ h rfl
  · exact (LnkFile.only_getJson (P := (· ≠ .diverge)) f all (LnkFile.uses_of_process (LnkFile.init_ok hf)) (by simp) (by simp)
      (by simp) hcp).out _ h rfl

/-- C46: there are at most as many blocks and items as input bytes. -/
theorem iterations_bounded (env : Env) (cp : Option String) (hcp : UsableCodePage (TextProc.mk' env cp)) (allow : Bool)
    (src : Source) (f : LnkFile) (hf : (LnkFile.init env cp allow src).res = .ok f) :
    f.extras.data.length ≤ src.bytes.length ∧
    ∀ t, f.targets = some t → (LnkTargets.iter t).length ≤ src.bytes.length := by
  obtain ⟨L, l, last, hl, hc, h⟩ := constructed env cp hcp allow src f hf
  constructor
  · rw [h.extras]
    have h1 : (ExtraData.objects (TextProc.mk' env cp) l).length ≤ l.length := List.length_filterMap_le _ _
    have h2 : l.length ≤ ((l.map Piece.bytes).flatten).length := by
      have := fun p hp => (ExtraData.cut_declared hc p hp).2.2.2
      clear h1 h hc
      induction l with
      | nil => simp
      | cons p l ih =>
        have h1 := ih fun q hq => this q (List.mem_cons_of_mem _ hq)
        have h2 := this p List.mem_cons_self
        simp only [List.length_cons, List.map_cons, List.flatten_cons, List.length_append]
        omega
    have h3 := congrArg List.length (ExtraData.cut_flatten hc)
    rw [List.length_append, List.length_drop] at h3
    simp only [List.length_append]
    split
    · simp only [List.length_singleton]; omega
    · simp only [List.length_nil]; omega
  · intro t ht
    rw [h.targets] at ht
    split at ht
    · simp only [Option.some.injEq] at ht
      subst ht
      refine (LnkTargets.idLists_length _ _).trans ?_
      simp [slice]
    · simp at ht

/-! ### C49 -/

/-- C49: the keys of the tree, and what is under `data` and `extra`. -/
theorem json_shape (env : Env) (cp : Option String) (hcp : UsableCodePage (TextProc.mk' env cp)) (allow all : Bool)
    (src : Source) (f : LnkFile) (hf : (LnkFile.init env cp allow src).res = .ok f) (j : Dict)
    (hj : (f.getJson all).res = .ok j) :
    ∃ (flags : Nat) (header info data extra : Dict), uAt 4 src.bytes 20 = some flags ∧
      j.keys = ["size", "header"] ++ (if flags.testBit 0 then ["target"] else []) ++ ["link_info", "data", "extra"] ∧
      j.get? "size" = some (.int f.size) ∧ j.get? "header" = some (.dict header) ∧ j.get? "link_info" = some (.dict info) ∧
      j.get? "data" = some (.dict data) ∧ j.get? "extra" = some (.dict extra) ∧
      (∀ t, j.get? "target" = some t → ∃ d, t = .dict d) ∧
      data.keys.Sublist ["description", "relative_path", "working_directory", "command_line_arguments", "icon_location"] ∧
      (∀ kv ∈ data, ∃ s, kv.2 = .str s) ∧
      extra.keys.Nodup ∧ ∀ kv ∈ extra, kv.1 ∈ sectionNames ∧
        if kv.1 = "UNKNOWN_BLOCK" then ∃ l : List Dict, kv.2 = .list (l.map .dict) else ∃ d, kv.2 = .dict d := by
  obtain ⟨L, l, last, hl, hc, h⟩ := constructed env cp hcp allow src f hf
  obtain ⟨header, target, info, extra, h1, h2, h3, h4, rfl⟩ := LnkFile.getJson_ok_iff.1 hj
  have hg := (f.extras.good_asDict).out extra h4
  have hfl : uAt 4 src.bytes 20 = some L.flags := by
    obtain ⟨hs, flags, e1, e2, e3, -⟩ := (layout_isSome src.bytes).1 ⟨L, hl⟩
    unfold layout at hl
    rw [e1] at hl
    simp only at hl
    rw [ExtraData.uAt_take 4 _ 20 hs (by omega) (by omega), e2] at hl
    simp only at hl
    split at hl
    · simp at hl
    · simp only [Option.some.injEq] at hl
      rw [e2, ← hl]
  have ht : target.isSome = L.flags.testBit 0 := by
    have htg := h.targets
    unfold LnkFile.jsonTarget at h2
    split at htg
    · rename_i hb
      rw [htg] at h2
      simp only [Py.bind_ok_iff, Py.pure_res, Except.ok.injEq] at h2
      obtain ⟨_, -, _, -, h2⟩ := h2
      rw [← h2, hb]
      rfl
    · rename_i hb
      rw [htg] at h2
      simp only [Py.pure_res, Except.ok.injEq] at h2
      rw [← h2]
      simpa using hb
  refine ⟨L.flags, if all then header else LnkFile.pruneHeader header, if all then info else LnkFile.pruneInfo info,
    f.stringData.asDict, extra, hfl, ?_⟩
  have hdata : Dict.keys f.stringData.asDict = f.stringData.data.map Prod.fst := by
    unfold StringData.asDict Dict.keys
    rw [List.map_map]
    rfl
  have hstr : ∀ kv ∈ f.stringData.asDict, ∃ s, kv.2 = .str s := by
    intro kv hkv
    obtain ⟨x, -, rfl⟩ := List.mem_map.1 hkv
    exact ⟨_, rfl⟩
  have hex : ∀ kv ∈ extra, kv.1 ∈ sectionNames ∧
      if kv.1 = "UNKNOWN_BLOCK" then ∃ l : List Dict, kv.2 = .list (l.map .dict) else ∃ d, kv.2 = .dict d :=
    fun kv hkv => ⟨hg.names _ (List.mem_map_of_mem hkv), (hg.values kv hkv).2⟩
  rw [← ht]
  rcases target with _ | t
  · refine ⟨rfl, rfl, rfl, rfl, rfl, rfl, ?_, ?_, hstr, hg.nodup, hex⟩
    · intro t ht
      simp [Dict.get?] at ht
    · rw [hdata]; exact h.stringKeys
  · refine ⟨rfl, rfl, rfl, rfl, rfl, rfl, ?_, ?_, hstr, hg.nodup, hex⟩
    · intro t ht
      simp only [Option.map_some, Option.toList_some, List.map_cons, List.map_nil, List.cons_append, List.nil_append,
        Dict.get?] at ht
      exact ⟨_, by simpa using ht.symm⟩
    · rw [hdata]; exact h.stringKeys

/-- C49: the tree has the documented sections, and every dictionary in it, at any depth, has keys of one of the documented
kinds, in the documented order and without repetition. -/
theorem json_documented (env : Env) (cp : Option String) (hcp : UsableCodePage (TextProc.mk' env cp)) (allow all : Bool)
    (src : Source) (f : LnkFile) (hf : (LnkFile.init env cp allow src).res = .ok f) (j : Dict)
    (hj : (f.getJson all).res = .ok j) : DocumentedFile j := by
  obtain ⟨L, l, last, hl, hc, h⟩ := constructed env cp hcp allow src f hf
  exact (f.doc_getJson all h.stringKeys).out j hj

/-- Distinct keys are part of that. -/
theorem documented_keys_nodup (d : Dict) (h : Documented (.dict d)) : d.keys.Nodup := h.1.nodup

example : ¬ Documented (.dict [("size", .int 1), ("size", .int 1)]) := fun h => by
  have := documented_keys_nodup _ h
  simp [Dict.keys] at this

/-! ### C38 -/

/-- C38: `get_json(False)` is `get_json(True)` without the keys of the full output: same exceptions, same warnings. -/
theorem reduced_json (f : LnkFile) : f.getJson false = reduced <$> f.getJson true := f.getJson_false

/-- C38: so it returns and raises on the same links. -/
theorem reduced_json_raises (f : LnkFile) (e : PyErr) :
    (f.getJson false).res = .error e ↔ (f.getJson true).res = .error e := by
  rw [reduced_json]
  rcases h : f.getJson true with ⟨w, e' | j⟩ <;> simp [Functor.map, Py.andThen, Py.ret]

/-- What is removed, on a tree with all parts. -/
example : reduced
    [ ("size", .int 1), ("header", .dict [("guid", .none), ("r_hotkey", .int 0), ("header_size", .int 76), ("reserved2", .int 0)]),
      ("target", .dict [("size", .int 20), ("items", .list [.dict [("class", .lit "x"), ("modification_time", .none)]]),
        ("index", .int 78)]),
      ("link_info", .dict [("link_info_size", .int 60), ("link_info_flags", .int 1),
        ("location_info", .dict [("volume_id_size", .int 17), ("r_drive_type", .int 3)]), ("location", .lit "Local")]) ] =
    [ ("size", .int 1), ("header", .dict [("guid", .none), ("r_hotkey", .int 0)]),
      ("target", .dict [("items", .list [.dict [("class", .lit "x")]])]),
      ("link_info", .dict [("link_info_flags", .int 1), ("location_info", .dict [("r_drive_type", .int 3)]),
        ("location", .lit "Local")]) ] := by rfl

end Verif.Props
