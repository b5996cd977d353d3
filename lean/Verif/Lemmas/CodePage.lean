import Verif.Spec.CodePage

/-
A link that is well formed for a code page is so for every code page that extends it.
-/

namespace Verif.Spec

variable {tp tp' : TextProc}

theorem extends_ascii (h : AsciiCompatible tp) : Extends asciiProc tp := by
  intro b s ⟨h0, hb⟩
  refine ⟨h0, ?_⟩
  rcases b with _ | ⟨x, b⟩
  · simpa [decodeNamed] using hb
  · have hr : asciiProc.env.resolve asciiProc.cp = some asciiCodec := by
      simp [asciiProc, Env.resolve]
    simp only [decodeNamed, hr, asciiCodec] at hb
    by_cases ha : ∀ y ∈ x :: b, y.toNat < 128
    · rw [h _ ha]
      simp only [reduceCtorEq, if_false] at hb
      rw [if_pos ha] at hb
      exact hb
    · simp only [reduceCtorEq, if_false] at hb
      rw [if_neg ha] at hb
      have := congrArg Py.res hb
      cases this

namespace Extends

variable (h : Extends tp tp')
include h

theorem text {u : Bool} {t : Text} (hv : t.Valid tp u) : t.Valid tp' u := by
  unfold Text.Valid at *
  split at hv <;> rename_i hu
  · rwa [if_pos hu]
  · rw [if_neg hu]
    exact h _ _ hv

theorem opt {u : Bool} {t : Option Text} (hv : OptValid tp u t) : OptValid tp' u t := fun x hx => h.text (hv x hx)

theorem field {u : Bool} {n : Nat} {f : Field} (hv : f.Valid tp u n) : f.Valid tp' u n := ⟨h.text hv.1, hv.2⟩

theorem entry {e : FileEntry} (hv : e.Valid tp) : e.Valid tp' := ⟨hv.1, h.text hv.2⟩

theorem item {it : Item} (hv : it.Valid tp) : it.Valid tp' := by
  cases it <;> simp only [Item.Valid] at hv ⊢
  case cpl => exact ⟨h.text hv.1, hv.2.1, h.text hv.2.2.1, h.opt hv.2.2.2⟩
  case cplWide => exact ⟨hv.1, hv.2.1, h.text hv.2.2.1, h.text hv.2.2.2.1, h.opt hv.2.2.2.2⟩
  case root => exact hv
  case volume => exact ⟨hv.1, hv.2.1, h.text hv.2.2.1, hv.2.2.2⟩
  case volumeGuid => exact hv
  case file => exact h.entry hv
  case network => exact ⟨hv.1, h.text hv.2.1, h.opt hv.2.2.1, h.opt hv.2.2.2.1, hv.2.2.2.2⟩
  case classOnly => exact hv
  case controlPanel => exact hv
  case usersFiles => exact ⟨hv.1, hv.2.1, h.entry hv.2.2⟩
  case other => exact hv

theorem textAt {raw : List UInt8} {u : Bool} {off shift : Nat} {t : Option Text} (hv : TextAt tp raw u off shift t) :
    TextAt tp' raw u off shift t := by
  unfold TextAt at *
  split at hv <;> rename_i h0
  · rwa [if_pos h0]
  · rw [if_neg h0]
    obtain ⟨x, h1, h2, h3⟩ := hv
    exact ⟨x, h1, h.text h2, h3⟩

theorem infoIn {raw : List UInt8} {i : InfoHeader} {t : InfoTexts} (hv : InfoIn tp raw i t) : InfoIn tp' raw i t :=
  ⟨hv.valid, hv.header, h.textAt hv.base, h.textAt hv.suffix, h.textAt hv.wideBase, h.textAt hv.wideSuffix⟩

theorem volumeIn {raw : List UInt8} {off : Nat} {v : Volume} (hv : VolumeIn tp raw off v) : VolumeIn tp' raw off v :=
  ⟨hv.wide, hv.ne, hv.here, h.text hv.valid, hv.label⟩

theorem nameAt {raw : List UInt8} {off : Nat} {t : Option Text} (hv : NameAt tp raw off t) : NameAt tp' raw off t := by
  obtain ⟨x, h1, h2, h3⟩ := hv
  exact ⟨x, h1, h.text h2, h3⟩

theorem wideNameAt {raw : List UInt8} {base off : Nat} {t : Option Text} (hv : WideNameAt tp raw base off t) :
    WideNameAt tp' raw base off t := by
  unfold WideNameAt at *
  split at hv <;> rename_i h0
  · rwa [if_pos h0]
  · rw [if_neg h0]
    obtain ⟨x, h1, h2, h3⟩ := hv
    exact ⟨x, h1, h.text h2, h3⟩

theorem netLinkIn {raw : List UInt8} {off : Nat} {n : NetLink} (hv : NetLinkIn tp raw off n) : NetLinkIn tp' raw off n := by
  refine ⟨hv.wide, hv.here, ?_⟩
  have := hv.names
  split at this
  · exact ⟨h.nameAt this.1, h.nameAt this.2⟩
  · exact ⟨h.wideNameAt this.1, h.wideNameAt this.2⟩

theorem info {i : Info} (hv : i.Valid tp) : i.Valid tp' := by
  refine ⟨h.infoIn hv.parts, hv.size, ?_⟩
  have := hv.location
  split at this
  · exact ⟨this.1, h.volumeIn this.2⟩
  · exact ⟨this.1, this.2.1, h.netLinkIn this.2.2⟩

theorem string {u : Bool} {f : StringField} (hv : f.Valid tp u) : f.Valid tp' u := by
  intro raw text hc
  have := hv raw text hc
  split at this <;> rename_i hu
  · rwa [if_pos hu]
  · rw [if_neg hu]
    exact ⟨h _ _ this.1, this.2⟩

theorem typed {v : TypedValue} (hv : v.Valid tp) : v.Valid tp' := by
  cases v
  · exact ⟨h.text hv.1, hv.2⟩
  · exact hv

theorem storage {s : Storage} (hv : s.Valid tp) : s.Valid tp' := by
  intro p hp
  have := hv p hp
  cases p
  · exact ⟨this.1, h.typed this.2⟩
  · exact ⟨this.1, h.text this.2.1, h.typed this.2.2⟩

theorem block {b : Block} (hv : b.Valid tp) : b.Valid tp' := by
  cases b <;> simp only [Block.Valid] at hv ⊢
  case environment => exact ⟨h.field hv.1, h.field hv.2⟩
  case console => exact h.field hv
  case tracker => exact h.field hv
  case darwin => exact ⟨h.field hv.1, hv.2⟩
  case icon => exact ⟨h.field hv.1, h.field hv.2⟩
  case shimLayer => exact h.text hv
  case metadata => exact fun s hs => h.storage (hv s hs)
  case shellItem => exact fun it hi => ⟨h.item (hv it hi).1, (hv it hi).2⟩
  case other => exact hv

theorem link {s : ShellLink} (hv : s.Valid tp) : s.Valid tp' where
  headerSize := hv.headerSize
  hasItems := hv.hasItems
  items := fun l hl => ⟨fun it hi => h.item ((hv.items l hl).1 it hi), (hv.items l hl).2⟩
  hasInfo := hv.hasInfo
  info := fun i hi => h.info (hv.info i hi)
  announced := hv.announced
  strings := fun f hf => h.string (hv.strings f hf)
  blocks := fun b hb => ⟨h.block (hv.blocks b hb).1, (hv.blocks b hb).2⟩

end Extends

end Verif.Spec
