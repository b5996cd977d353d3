import Verif.Lemmas.Alike
import Verif.Props.Unique
import Verif.Props.Notices
import Verif.Props.Growth
import Verif.Props.CodePage

/-
C77: what another code page changes.  C78: code pages of one byte per character.
-/

namespace Verif.Props

open Spec Py Verif.Values

/-! ### C77 -/

namespace Values

theorem extra_alike {b : Bytes} {tp tp' : TextProc} (he : tp.env.sha256hex = tp'.env.sha256hex) {allow : Bool} {l : List Piece} {last : Bytes}
    (hl : ∀ p ∈ l, p.bytes <:+: b) {E E' : Dict} (h : ExtraReport tp allow l last E) (h' : ExtraReport tp' allow l last E') :
    Alike b tp tp' (.dict E) (.dict E') := by
  refine .dict (alikeDict_of_get (h.names.trans h'.names.symm) ?_ fun k v w hv hw => ?_)
  · rw [h.names]
    split
    · refine List.nodup_append.2 ⟨nodup_firsts _, by simp, fun a ha b hb => ?_⟩
      simp only [List.mem_singleton] at hb
      rintro rfl
      obtain ⟨p, -, s, -, hk, -⟩ := mem_readableNames.1 (mem_firsts.1 ha)
      exact Blocks.blockName_ne_terminal s (hk.trans hb)
    · rw [List.append_nil]
      exact nodup_firsts _
  · by_cases hu : k = "UNKNOWN_BLOCK"
    · subst hu
      obtain ⟨vs, rfl, e⟩ := h.unknown v hv
      obtain ⟨vs', rfl, e'⟩ := h'.unknown w hw
      exact .list (unknown_alike he (fun p hp => hl p (List.mem_filter.1 hp).1) e e')
    have hm : k ∈ E.keys := by
      by_contra hc
      rw [(Dict.get?_none_iff _ _).2 hc] at hv
      cases hv
    rcases (extra_mem_names h k).1 hm with hr | ⟨rfl, -, -⟩
    · obtain ⟨pre, p, post, e, hp, hpost⟩ := last_with (ReportedAs k) hr
      obtain ⟨s, hs, -, -⟩ := id hp
      obtain ⟨d, e1, e2⟩ := h.named k pre p post s hu e hp hs hpost
      obtain ⟨d', e1', e2'⟩ := h'.named k pre p post s hu e hp hs hpost
      rw [hv] at e1
      rw [hw] at e1'
      cases e1
      cases e1'
      exact blockReport_alike he (hl p (by rw [e]; simp)) e2 e2'
    · obtain ⟨d, rfl, e⟩ := h.terminal v hv
      obtain ⟨d', rfl, e'⟩ := h'.terminal w hw
      rw [← he] at e'
      rw [fits_sole (soles_cons (sole_eq _) <| soles_cons (sole_eq _) soles_nil) e e']
      exact .same _

end Values

/-- C77: which files are accepted, the size, and whether `get_json` returns or what it raises, is the same for all usable code pages. -/
theorem code_page_outcome (env : Env) (cp cp' : Option String) (hcp : UsableCodePage (TextProc.mk' env cp))
    (hcp' : UsableCodePage (TextProc.mk' env cp')) (allow : Bool) (src : Source) :
    (∀ e, (LnkFile.init env cp allow src).res = .error e ↔ (LnkFile.init env cp' allow src).res = .error e) ∧
    ∀ f f', (LnkFile.init env cp allow src).res = .ok f → (LnkFile.init env cp' allow src).res = .ok f' →
      f.size = f'.size ∧ ∀ all e, (f.getJson all).res = .error e ↔ (f'.getJson all).res = .error e := by
  have h1 := constructor_outcome env cp hcp allow src
  have h2 := constructor_outcome env cp' hcp' allow src
  constructor
  · intro e
    by_cases ha : Acceptable src.bytes
    · obtain ⟨f, hf⟩ := h1.1.2 ha
      obtain ⟨f', hf'⟩ := h2.1.2 ha
      rw [hf, hf']
      simp
    · rw [h1.2 ha, h2.2 ha]
  · intro f f' hf hf'
    obtain ⟨L, l, last, hL, hc, P⟩ := constructed env cp hcp allow src f hf
    obtain ⟨L', l', last', hL', hc', P'⟩ := constructed env cp' hcp' allow src f' hf'
    rw [hL] at hL'
    cases hL'
    obtain ⟨rfl, rfl⟩ := cut_unique hc hc'
    refine ⟨?_, fun all e => ?_⟩
    · obtain ⟨n, hn, hs⟩ := P.size
      obtain ⟨n', hn', hs'⟩ := P'.size
      rw [hs, hs', hn, hn']
    · obtain ⟨L1, l1, last1, hL1, hc1, h⟩ := report_outcome env cp hcp allow src f hf
      obtain ⟨L2, l2, last2, hL2, hc2, h'⟩ := report_outcome env cp' hcp' allow src f' hf'
      rw [hL1] at hL2
      cases hL2
      obtain ⟨rfl, rfl⟩ := cut_unique hc1 hc2
      rw [h all e, h' all e]

/-- C77: the reports under two code pages differ in texts only: each of these is under a key for a text in the code page, and is what the
one and what the other code page makes of the same bytes of the file. -/
theorem code_page_texts (env : Env) (cp cp' : Option String) (hcp : UsableCodePage (TextProc.mk' env cp))
    (hcp' : UsableCodePage (TextProc.mk' env cp')) (ha : Audible (TextProc.mk' env cp)) (ha' : Audible (TextProc.mk' env cp'))
    (allow : Bool) (src : Source) (f f' : LnkFile) (hf : (LnkFile.init env cp allow src).res = .ok f)
    (hf' : (LnkFile.init env cp' allow src).res = .ok f') (j j' : Dict) (hj : (f.getJson true).res = .ok j)
    (hj' : (f'.getJson true).res = .ok j') :
    Alike src.bytes (TextProc.mk' env cp) (TextProc.mk' env cp') (.dict j) (.dict j') := by
  obtain ⟨L, l, last, hL, hc, hv⟩ := report_values env cp hcp allow src f hf
  obtain ⟨L', l', last', hL', hc', hv'⟩ := report_values env cp' hcp' allow src f' hf'
  rw [hL] at hL'
  cases hL'
  obtain ⟨rfl, rfl⟩ := cut_unique hc hc'
  obtain ⟨L1, l1, last1, hL1, hc1, P⟩ := constructed env cp hcp allow src f hf
  obtain ⟨L2, l2, last2, hL2, hc2, P'⟩ := constructed env cp' hcp' allow src f' hf'
  rw [hL] at hL1 hL2
  cases hL1
  cases hL2
  have hh : f.jsonHeader = f'.jsonHeader := by
    unfold LnkFile.jsonHeader
    rw [P.header, P'.header]
  have hv := hv j hj
  have hv' := hv' j' hj'
  obtain ⟨header, target, info, E, e1, -, -, -, rfl⟩ := LnkFile.getJson_ok_iff.1 hj
  obtain ⟨header', target', info', E', e1', -, -, -, rfl⟩ := LnkFile.getJson_ok_iff.1 hj'
  rw [← hh, e1] at e1'
  cases e1'
  obtain ⟨-, hs, -, -, hr⟩ := hv
  obtain ⟨-, hs', -, -, hr'⟩ := hv'
  have hs : PyVal.nat f.size = PyVal.nat f'.size := hs.trans hs'.symm
  refine .dict (.value ?_ (.value (.same _) (fits_pairs ?_ hr hr')))
  · rw [hs]
    exact .same _
  refine pairs_append (pairs_if (fun _ => .cons (pair_value ?_) .nil) fun _ => .nil)
    (.cons (pair_value ?_) <| .cons (pair_value ?_) <| .cons (pair_value ?_) .nil)
  · rintro v w ⟨d, rfl, h⟩ ⟨d', rfl, h'⟩
    exact alike_fits (pairs_target L) h h'
  · rintro v w ⟨d, rfl, h⟩ ⟨d', rfl, h'⟩
    split at h
    · rename_i hk
      rw [hk] at h'
      rcases d with _ | ⟨_, _⟩
      · rcases d' with _ | ⟨_, _⟩
        · exact .same _
        · exact h'.elim
      · exact h.elim
    · rename_i kind hk
      rw [hk] at h'
      exact alike_fits (pairs_info ha ha' (List.drop_suffix _ _).isInfix kind) h h'
  · rintro v w ⟨d, rfl, h⟩ ⟨d', rfl, h'⟩
    exact strings_alike h h'
  · rintro v w ⟨d, rfl, h⟩ ⟨d', rfl, h'⟩
    exact Values.extra_alike (tp := TextProc.mk' env cp) (tp' := TextProc.mk' env cp') rfl (fun p hp => (infix_piece hc p hp).trans (List.drop_suffix _ _).isInfix) h h'

/-- `Alike` is no looser than it should be: under one code page it is equality. -/
theorem alike_under_one (b : Bytes) (tp : TextProc) (v w : PyVal) : Alike b tp tp v w ↔ v = w :=
  ⟨alike_same, fun h => h ▸ .same v⟩

/-- C77: the warnings are the same, but for those about undecodable texts: the ones of the constructor, which blocks cannot be reported,
and, if the shell item blocks can be, all others of `get_json`. -/
theorem code_page_warnings (env : Env) (cp cp' : Option String) (hcp : UsableCodePage (TextProc.mk' env cp))
    (hcp' : UsableCodePage (TextProc.mk' env cp')) (allow : Bool) (src : Source) (f f' : LnkFile)
    (hf : (LnkFile.init env cp allow src).res = .ok f) (hf' : (LnkFile.init env cp' allow src).res = .ok f') :
    (LnkFile.init env cp allow src).warns.filter told = (LnkFile.init env cp' allow src).warns.filter told ∧
    ∀ all j j', (f.getJson all).res = .ok j → (f'.getJson all).res = .ok j' →
      (f.getJson all).warns.filterMap unreportedBlock = (f'.getJson all).warns.filterMap unreportedBlock ∧
      ((∀ L l last, layout src.bytes = some L → Cut (src.bytes.drop L.extraAt) l last →
          ∀ p ∈ l, p.signature = some 0xA000000C → BlockReadable 0xA000000C p.bytes) →
        (f.getJson all).warns.filter told = (f'.getJson all).warns.filter told) := by
  constructor
  · obtain ⟨L, l, last, D, hL, hc, hD, h⟩ := construction_warnings env cp hcp allow src f hf
    obtain ⟨L', l', last', D', hL', hc', hD', h'⟩ := construction_warnings env cp' hcp' allow src f' hf'
    rw [hL] at hL'
    cases hL'
    obtain ⟨rfl, rfl⟩ := cut_unique hc hc'
    have hno : ∀ D : List Warn, (∀ w ∈ D, ∃ s, w = .decode s) → D.filter told = [] := by
      intro D hD
      refine List.filter_eq_nil_iff.2 fun w hw => ?_
      obtain ⟨s, rfl⟩ := hD w hw
      simp [told]
    rw [h, h']
    simp only [List.filter_append, hno D hD, hno D' hD']
  · intro all j j' hj hj'
    obtain ⟨L, l, last, hL, hc, h⟩ := blocks_announced env cp hcp allow src f hf
    obtain ⟨L', l', last', hL', hc', h'⟩ := blocks_announced env cp' hcp' allow src f' hf'
    rw [hL] at hL'
    cases hL'
    obtain ⟨rfl, rfl⟩ := cut_unique hc hc'
    refine ⟨by rw [h all j hj, h' all j' hj'], fun hr => ?_⟩
    obtain ⟨L1, l1, last1, hL1, hc1, P, e⟩ := Notices.report_says env cp hcp allow src f hf
    obtain ⟨L2, l2, last2, hL2, hc2, P', e'⟩ := Notices.report_says env cp' hcp' allow src f' hf'
    rw [hL] at hL1 hL2
    cases hL1
    cases hL2
    obtain ⟨rfl, rfl⟩ := cut_unique hc hc1
    obtain ⟨rfl, rfl⟩ := cut_unique hc hc2
    have hh : f.jsonHeader = f'.jsonHeader := by
      unfold LnkFile.jsonHeader
      rw [P.header, P'.header]
    rw [(e all j hj (hr L l last hL hc)).2, (e' all j' hj' (hr L l last hL hc)).2, hh]

/-! ### C78 -/

namespace Tables

variable {t : ByteTable}

theorem exists_lenient (t : ByteTable) (b : Bytes) : ∃ s, ByTableLenient t b s := by
  induction b with
  | nil => exact ⟨_, .nil⟩
  | cons x b ih =>
    obtain ⟨s, hs⟩ := ih
    rcases hx : t x with _ | c
    · exact ⟨_, .bad hx hs⟩
    · exact ⟨_, .char hx hs⟩

theorem cases (t : ByteTable) (b : Bytes) : (∃ s, ByTable t b s) ∨ ∃ x ∈ b, t x = none := by
  induction b with
  | nil => exact .inl ⟨_, .nil⟩
  | cons x b ih =>
    rcases hx : t x with _ | c
    · exact .inr ⟨x, List.mem_cons_self, hx⟩
    · rcases ih with ⟨s, hs⟩ | ⟨y, hy, h⟩
      · exact .inl ⟨_, .char hx hs⟩
      · exact .inr ⟨y, List.mem_cons_of_mem _ hy, h⟩

theorem length {b : Bytes} {s : Str} (h : ByTable t b s) : s.length = b.length := by
  induction h with
  | nil => rfl
  | char _ _ ih => simp [ih]

theorem length_lenient {b : Bytes} {s : Str} (h : ByTableLenient t b s) : s.length = b.length := by
  induction h with
  | nil => rfl
  | char _ _ ih => simp [ih]
  | bad _ _ ih => simp [ih]

theorem codec (t : ByteTable) : IsTable (tableCodec t) t where
  strict b s h := by
    have : (b.all fun x => (t x).isSome) = true ∧ (b.map fun x => (t x).getD '�') = s := by
      induction h with
      | nil => exact ⟨rfl, rfl⟩
      | char h _ ih => simp only [List.all_cons, List.map_cons, h, ih]; simp
    simp only [tableCodec, if_pos this.1, this.2]
  undefined b h := by
    obtain ⟨x, hx, h⟩ := h
    have : ¬ (b.all fun x => (t x).isSome) = true := by
      intro ha
      have := List.all_eq_true.1 ha x hx
      simp [h] at this
    simp only [tableCodec, if_neg this]
  replace b s h := by
    have : (b.map fun x => (t x).getD '�') = s := by
      induction h with
      | nil => rfl
      | char h _ ih => simp [h, ih]
      | bad h _ ih => simp [h, ih]
    simp only [tableCodec, this]

end Tables

/-- C78: a code page that decodes by a table meets the conditions on code pages of the other claims. -/
theorem table_usable (tp : TextProc) (c : Codec) (t : ByteTable) (hr : tp.env.resolve tp.cp = some c) (h : IsTable c t) :
    UsableCodePage tp ∧ Frugal tp ∧ Audible tp := by
  have key : ∀ b : Bytes, b ≠ [] → (∀ r, (decodeNamed tp.env tp.cp b).res = r → (∃ s, r = .ok s ∧ s.length = b.length) ∨ r = .error .unicodeDecode) ∧
      ∃ s, (decodeNamedReplace tp.env tp.cp b).res = .ok s ∧ s.length = b.length := by
    intro b hb
    unfold decodeNamed decodeNamedReplace
    rw [if_neg hb, if_neg hb, hr]
    constructor
    · rintro r rfl
      rcases Tables.cases t b with ⟨s, hs⟩ | hn
      · exact .inl ⟨s, h.strict b s hs, Tables.length hs⟩
      · exact .inr (h.undefined b hn)
    · obtain ⟨s, hs⟩ := Tables.exists_lenient t b
      exact ⟨s, h.replace b s hs, Tables.length_lenient hs⟩
  refine ⟨fun b => ?_, fun b s hs => ?_, fun b hb => ?_⟩
  · by_cases hb : b = []
    · subst hb
      exact ⟨fun e he => by simp [decodeNamed] at he, [], by simp [decodeNamedReplace]⟩
    · obtain ⟨h1, s, h2, -⟩ := key b hb
      refine ⟨fun e he => ?_, s, h2⟩
      rcases h1 _ he with ⟨s, h, -⟩ | h
      · cases h
      · exact Except.error.inj h
  · by_cases hb : b = []
    · subst hb
      simp only [decodeNamed, decodeNamedReplace, if_true, pure_res, or_self, Except.ok.injEq] at hs
      simp [← hs]
    · obtain ⟨h1, s', h2, h3⟩ := key b hb
      rcases hs with hs | hs
      · rcases h1 _ hs with ⟨s', h, hl⟩ | h
        · cases h
          exact hl.le
        · cases h
      · rw [h2] at hs
        cases hs
        exact h3.le
  · obtain ⟨h1, s', h2, h3⟩ := key b hb
    have hl : b.length ≠ 0 := fun h => hb (List.length_eq_zero_iff.1 h)
    constructor
    · intro hs
      rcases h1 _ hs with ⟨s, h, hs⟩ | h
      · cases h
        exact hl hs.symm
      · cases h
    · intro hs
      rw [h2] at hs
      cases hs
      exact hl h3.symm

/-- C78: a string is read by the table; if a byte of it stands for nothing, as UTF-8; if it is no UTF-8, by the table with replacements,
and one warning quotes the result. -/
theorem table_string (tp : TextProc) (c : Codec) (t : ByteTable) (hr : tp.env.resolve tp.cp = some c) (h : IsTable c t) (b : Bytes)
    (h0 : 0 ∉ b) (s : Str) :
    (ByTable t b s → tp.readString b = pure s) ∧
    ((∃ x ∈ b, t x = none) → b = utf8 s → tp.readString b = pure s) ∧
    ((∃ x ∈ b, t x = none) → (∀ u, b ≠ utf8 u) → ByTableLenient t b s → tp.readString b = ⟨[.decode s], .ok s⟩) := by
  have hne : (∃ x ∈ b, t x = none) → b ≠ [] := by
    rintro ⟨x, hx, -⟩ rfl
    cases hx
  refine ⟨fun hs => ?_, fun hn hu => ?_, fun hn hu hs => ?_⟩
  · by_cases hb : b = []
    · subst hb
      cases hs
      rw [readString_last tp h0]
      rfl
    · exact ansi_codepage tp c b s hb h0 hr (h.strict b s hs)
  · subst hu
    exact ansi_utf8 tp c s h0 hr (h.undefined _ hn)
  · exact ansi_replace tp c b s (hne hn) h0 hr (h.undefined _ hn) hu (h.replace b s hs)

/-- C78: if every byte stands for something, every string is read by the table, never as UTF-8, and without warnings. -/
theorem table_total (tp : TextProc) (c : Codec) (t : ByteTable) (hr : tp.env.resolve tp.cp = some c) (h : IsTable c t)
    (ht : ∀ x, t x ≠ none) (b : Bytes) : ∃ s, ByTable t (b.takeWhile (· ≠ 0)) s ∧ tp.readString b = pure s := by
  have key : ∀ a : Bytes, 0 ∉ a → ∃ s, ByTable t a s ∧ tp.readString a = pure s := by
    intro a ha
    rcases Tables.cases t a with ⟨s, hs⟩ | ⟨x, -, hx⟩
    · exact ⟨s, hs, (table_string tp c t hr h a ha s).1 hs⟩
    · exact absurd hx (ht x)
  rcases ansi_nul_cases b with h0 | ⟨a, rest, h0, rfl⟩
  · have : b.takeWhile (· ≠ 0) = b := by
      have := List.takeWhile_append_of_pos (p := fun x : UInt8 => decide (x ≠ 0)) (l₁ := b) (l₂ := []) fun x hx => by
        simp only [ne_eq, decide_eq_true_eq]
        rintro rfl
        exact h0 hx
      simpa using this
    rw [this]
    exact key b h0
  · rw [ansi_stops_at_nul tp a rest h0, List.takeWhile_append_of_pos fun x hx => by
      simp only [ne_eq, decide_eq_true_eq]
      rintro rfl
      exact h0 hx]
    simpa using key a h0

/-- C78: a table that has the ASCII characters at their places reads ASCII as ASCII, so C55 applies. -/
theorem table_ascii (tp : TextProc) (c : Codec) (t : ByteTable) (hr : tp.env.resolve tp.cp = some c) (h : IsTable c t)
    (ht : ∀ x : UInt8, x.toNat < 128 → t x = some (Char.ofNat x.toNat)) : AsciiCompatible tp := by
  intro b hb
  have key : ByTable t b (b.map fun x => Char.ofNat x.toNat) := by
    induction b with
    | nil => exact .nil
    | cons x b ih => exact .char (ht x (hb x List.mem_cons_self)) (ih fun y hy => hb y (List.mem_cons_of_mem _ hy))
  unfold decodeNamed
  split
  · rename_i he
    rw [he]; rfl
  · rw [hr]
    show (⟨[], c.strict b⟩ : Py Str) = _
    rw [h.strict b _ key]
    rfl

/-- The default code page is one of these. -/
theorem default_table : ∃ t : ByteTable, IsTable cp1252 t ∧ ∀ x c, t x = some c ↔ Cp1252Char x c := by
  refine ⟨cp1252Char, ?_, cp1252Char_iff⟩
  have h : cp1252 = tableCodec cp1252Char := by
    unfold cp1252 tableCodec strictOf replaceOf
    congr 1
    · funext b
      rw [List.all_map, List.map_map]
      rfl
    · funext b
      rw [List.map_map]
      rfl
  rw [h]
  exact Tables.codec _

/-! ### an example -/

/-- A header that announces a description, and a description of one byte. -/
def oneByteName : Bytes := le 4 76 ++ List.replicate 16 7 ++ le 4 4 ++ List.replicate 52 0 ++ [1, 0, 0x8A]

/-- Latin-1 under the name "latin-1". -/
def latin1Env : Env := ⟨fun n => if n = "latin-1" then some (tableCodec latin1) else none, fun _ => []⟩

/-- Both code pages meet the hypotheses of the theorems, the file is accepted, and the description is another one: `Š` by Windows-1252,
U+008A by Latin-1. -/
example :
    (UsableCodePage (TextProc.mk' latin1Env none) ∧ Audible (TextProc.mk' latin1Env none)) ∧
    (UsableCodePage (TextProc.mk' latin1Env (some "latin-1")) ∧ Audible (TextProc.mk' latin1Env (some "latin-1"))) ∧
    (∀ x, latin1 x ≠ none) ∧
    ∃ f f', (LnkFile.init latin1Env none true (.indata oneByteName)).res = .ok f ∧
      (LnkFile.init latin1Env (some "latin-1") true (.indata oneByteName)).res = .ok f' ∧
      f.stringData.data = [("description", ['Š'])] ∧ f'.stringData.data = [("description", [Char.ofNat 0x8A])] := by
  obtain ⟨t, ht, -⟩ := default_table
  have h1 := table_usable (TextProc.mk' latin1Env none) cp1252 t rfl ht
  have h2 := table_usable (TextProc.mk' latin1Env (some "latin-1")) (tableCodec latin1) latin1 rfl (Tables.codec latin1)
  refine ⟨⟨h1.1, h1.2.2⟩, ⟨h2.1, h2.2.2⟩, fun x => by simp [latin1], ?_⟩
  have key : ∀ {x : Py LnkFile} {d : List (String × Str)}, (x.res.toOption.map (·.stringData.data)) = some d →
      ∃ f, x.res = .ok f ∧ f.stringData.data = d := by
    intro x d h
    rcases hx : x.res with e | f
    · rw [hx] at h; cases h
    · rw [hx] at h
      exact ⟨f, rfl, Option.some.inj h⟩
  obtain ⟨f, hf, e⟩ := key (x := LnkFile.init latin1Env none true (.indata oneByteName)) (d := [("description", ['Š'])]) (by decide +kernel)
  obtain ⟨f', hf', e'⟩ := key (x := LnkFile.init latin1Env (some "latin-1") true (.indata oneByteName))
    (d := [("description", [Char.ofNat 0x8A])]) (by decide +kernel)
  exact ⟨f, f', hf, hf', e, e'⟩

end Verif.Props
