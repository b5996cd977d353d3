import Verif.Spec.File

/-
Specification layer for C55: code pages that extend ASCII.
-/

namespace Verif.Spec

/-- ASCII as a code page: nothing but the bytes below 0x80. -/
def asciiCodec : Codec where
  strict b := if ∀ x ∈ b, x.toNat < 128 then .ok (b.map fun x => Char.ofNat x.toNat) else .error .unicodeDecode
  replace b := .ok (asciiReplace b)

/-- Reading with ASCII as the code page. -/
def asciiProc : TextProc := ⟨⟨fun _ => some asciiCodec, fun _ => []⟩, "ascii"⟩

/-- The code page reads ASCII text as ASCII. -/
def AsciiCompatible (tp : TextProc) : Prop :=
  ∀ b : List UInt8, (∀ x ∈ b, x.toNat < 128) → decodeNamed tp.env tp.cp b = pure (b.map fun x => Char.ofNat x.toNat)

/-- Whatever is text for `tp` is the same text for `tp'`. -/
def Extends (tp tp' : TextProc) : Prop := ∀ b s, CodePageText tp b s → CodePageText tp' b s

end Verif.Spec
