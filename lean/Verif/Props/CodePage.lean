import Verif.Lemmas.CodePage
import Verif.Props.Command

/-
C55: what does not depend on the code page.
-/

namespace Verif.Props

open Spec

theorem getJson_link_eq {tp tp' : TextProc} {s : ShellLink} (hv : s.Valid tp) (hv' : s.Valid tp')
    (he : tp.env.sha256hex = tp'.env.sha256hex) {allow : Bool} {trailer : Bytes} {f f' : LnkFile}
    (hb : Built tp s allow trailer f) (hb' : Built tp' s allow trailer f') (all : Bool) : f.getJson all = f'.getJson all := by
  obtain ⟨c, wc, hc, -⟩ := time_read s.header.creationTime
  obtain ⟨a, wa, ha, -⟩ := time_read s.header.accessTime
  obtain ⟨w, ww, hw, -⟩ := time_read s.header.writeTime
  have h1 := header_link tp s hv f hb.toHead hc ha hw
  have h1' := header_link tp' s hv' f' hb'.toHead hc ha hw
  have h2 := target_link tp s hv f hb.toHead
  have h2' := target_link tp' s hv' f' hb'.toHead
  have h3 := info_link tp s hv f hb.toHead
  have h3' := info_link tp' s hv' f' hb'.toHead
  have h4 := extras_link tp s hv allow trailer f hb
  have h4' := extras_link tp' s hv' allow trailer f' hb'
  have h5 : f.stringData.asDict = f'.stringData.asDict := by
    unfold StringData.asDict
    rw [hb.strings, hb'.strings]
  unfold LnkFile.getJson
  rw [h1, h1', h2, h2', h3, h3', h4, h4', h5, hb.size, hb'.size, he]

/-- C55: a link that is well formed for two code pages (so its texts are the same in both; Unicode texts always are) is
reported the same with both, warnings included. -/
theorem code_page_irrelevant (env : Env) (cp cp' : Option String) (allow : Bool) (s : ShellLink)
    (hv : s.Valid (TextProc.mk' env cp)) (hv' : s.Valid (TextProc.mk' env cp')) (trailer : Bytes) (src : Source)
    (hs : src.bytes = s.encode ++ trailer) :
    ∃ f f', LnkFile.init env cp allow src = pure f ∧ LnkFile.init env cp' allow src = pure f' ∧ f.size = f'.size ∧
      f.lnkCommand = f'.lnkCommand ∧ ∀ all, f.getJson all = f'.getJson all := by
  obtain ⟨f, hf, hb⟩ := parses_link env cp allow s hv trailer src hs
  obtain ⟨f', hf', hb'⟩ := parses_link env cp' allow s hv' trailer src hs
  refine ⟨f, f', hf.1, hf'.1, by rw [hb.size, hb'.size], ?_, getJson_link_eq hv hv' rfl hb hb'⟩
  have hflags : ∀ {tp : TextProc} {f : LnkFile}, Built tp s allow trailer f → uAt 4 f.header.raw 20 = some s.flags := by
    intro tp f hb
    have h1 := LnkHeader.rLinkFlags_enc hb.header
    have h2 : f.header.rLinkFlags = _ := unpackU_slice f.header.raw 4 20 (by omega)
    rw [h2] at h1
    rcases hu : uAt 4 f.header.raw 20 with _ | x
    · rw [hu] at h1; simpa using congrArg Py.res h1
    · rw [hu] at h1; simpa [ShellLink.flags] using congrArg Py.res h1
  have hdata : ∀ k, f.stringData.get? k = f'.stringData.get? k := fun k => by
    unfold StringData.get?
    rw [hb.strings, hb'.strings]
  unfold LnkFile.lnkCommand
  rw [hasFlag_bit (hflags hb) (i := 3) rfl, hasFlag_bit (hflags hb') (i := 3) rfl,
    hasFlag_bit (hflags hb) (i := 5) rfl, hasFlag_bit (hflags hb') (i := 5) rfl]
  simp only [hdata]

/-- C55: a link whose code page texts are ASCII is well formed for every code page that reads ASCII as ASCII, hence is
reported the same with all of them. -/
theorem ascii_link (env : Env) (cp cp' : Option String) (h : AsciiCompatible (TextProc.mk' env cp))
    (h' : AsciiCompatible (TextProc.mk' env cp')) (allow : Bool) (s : ShellLink) (hv : s.Valid asciiProc)
    (trailer : Bytes) (src : Source) (hs : src.bytes = s.encode ++ trailer) :
    s.Valid (TextProc.mk' env cp) ∧ s.Valid (TextProc.mk' env cp') ∧
    ∃ f f', LnkFile.init env cp allow src = pure f ∧ LnkFile.init env cp' allow src = pure f' ∧ f.size = f'.size ∧
      f.lnkCommand = f'.lnkCommand ∧ ∀ all, f.getJson all = f'.getJson all :=
  ⟨(extends_ascii h).link hv, (extends_ascii h').link hv,
    code_page_irrelevant env cp cp' allow s ((extends_ascii h).link hv) ((extends_ascii h').link hv) trailer src hs⟩

/-- The default code page reads ASCII as ASCII. -/
theorem ascii_compatible_default (env : Env) : AsciiCompatible (TextProc.mk' env none) := by
  intro b hb
  have key : ∀ b : List UInt8, (∀ x ∈ b, x.toNat < 128) → Cp1252 b (b.map fun x => Char.ofNat x.toNat) := by
    intro b
    induction b with
    | nil => exact fun _ => trivial
    | cons x b ih =>
      intro h
      refine ⟨.inl ⟨.inl (h x (by simp)), ?_⟩, ih fun y hy => h y (by simp [hy])⟩
      have := h x (by simp)
      exact toNat_ofNat_char (by unfold Nat.isValidChar; omega)
  unfold decodeNamed
  split
  · rename_i he
    rw [he]; rfl
  · show (⟨[], cp1252.strict b⟩ : Py Str) = _
    rw [(cp1252_strict_iff _ _).mpr (key b hb)]
    rfl

/-- A second code page that reads ASCII as ASCII. -/
theorem usAscii_compatible (hash : Bytes → Str) : AsciiCompatible (TextProc.mk' ⟨fun _ => some asciiCodec, hash⟩ (some "us-ascii")) := by
  intro b hb
  unfold decodeNamed
  split
  · rename_i he
    rw [he]; rfl
  · show (⟨[], asciiCodec.strict b⟩ : Py Str) = _
    rw [asciiCodec]
    simp only [if_pos hb]
    rfl

/-- A link of ASCII texts. -/
def asciiLink : ShellLink := ⟨⟨76, shellLinkCLSID, 0x4, 0, 0, 0, 0, 0, 0, 1, 0, 0, 0, 0, 0⟩, none, none,
    ⟨some ("abc".toList.map fun c => UInt8.ofNat c.toNat, "abc".toList), none, none, none, none⟩, []⟩

theorem asciiLink_valid : asciiLink.Valid asciiProc where
  headerSize := rfl
  hasItems := rfl
  items := by simp [asciiLink]
  hasInfo := rfl
  info := by simp [asciiLink]
  announced := by
    intro f hf
    simp only [Strings.fields, List.mem_cons, List.not_mem_nil, or_false] at hf
    rcases hf with rfl | rfl | rfl | rfl | rfl <;> rfl
  strings := by
    intro f hf raw text hc
    simp only [Strings.fields, List.mem_cons, List.not_mem_nil, or_false] at hf
    rcases hf with rfl | rfl | rfl | rfl | rfl <;> simp only [asciiLink, Option.some.injEq, Prod.mk.injEq, reduceCtorEq] at hc
    obtain ⟨rfl, rfl⟩ := hc
    exact ⟨⟨by decide, rfl⟩, by decide⟩
  blocks := by simp [asciiLink]

/-- With the default code page and with "us-ascii", and whatever follows, this link is reported the same. -/
example (hash : Bytes → Str) (allow : Bool) (trailer : Bytes) : ∃ f f',
    LnkFile.init ⟨fun _ => some asciiCodec, hash⟩ none allow (.indata (asciiLink.encode ++ trailer)) = pure f ∧
    LnkFile.init ⟨fun _ => some asciiCodec, hash⟩ (some "us-ascii") allow (.indata (asciiLink.encode ++ trailer)) = pure f' ∧
    f.size = f'.size ∧ f.lnkCommand = f'.lnkCommand ∧ ∀ all, f.getJson all = f'.getJson all :=
  (ascii_link _ none (some "us-ascii") (ascii_compatible_default _) (usAscii_compatible hash) allow asciiLink asciiLink_valid trailer
    (.indata (asciiLink.encode ++ trailer)) rfl).2.2

/-- The default code page by its name. -/
example (env : Env) (allow : Bool) : ∃ f f', LnkFile.init env none allow (.indata exampleLink.encode) = pure f ∧
    LnkFile.init env (some "cp1252") allow (.indata exampleLink.encode) = pure f' ∧ f.size = f'.size ∧
      f.lnkCommand = f'.lnkCommand ∧ ∀ all, f.getJson all = f'.getJson all :=
  code_page_irrelevant env none (some "cp1252") allow exampleLink (exampleLink_valid env) (exampleLink_valid env) []
    (.indata exampleLink.encode) (by rw [List.append_nil]; rfl)

end Verif.Props
