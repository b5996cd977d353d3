import Verif.Spec.InfoTold
import Verif.Spec.Repeated

/-
Specification layer: when two blocks of extra data are reported alike.
-/

namespace Verif.Spec

/-- A part of a block that is looked at: bytes that count, or bytes that hold a text (of one-byte or of two-byte units). -/
inductive SeenPart
  | bytes (a c : Nat)
  | narrow (a c : Nat)
  | wide (a c : Nat)

/-- The parts of the blocks of the kinds with fields at fixed places.  The color table of a console block counts up to its first color; the
name of a shim block is read to the end of the block, so the part is as long as the longer of the blocks. -/
def seenParts (signature len : Nat) : Option (List SeenPart) :=
  match signature with
  | 0xA0000001 => some [.narrow 8 268, .wide 268 788]
  | 0xA0000002 => some [.bytes 8 24, .bytes 32 44, .wide 44 108, .bytes 108 144]
  | 0xA0000003 => some [.bytes 8 16, .narrow 16 32, .bytes 32 96]
  | 0xA0000004 => some [.bytes 8 12]
  | 0xA0000005 => some [.bytes 8 16]
  | 0xA0000006 => some [.narrow 8 268, .wide 268 788]
  | 0xA0000007 => some [.narrow 8 268, .wide 268 788]
  | 0xA0000008 => some [.narrow 8 len]
  | 0xA000000B => some [.bytes 8 28]
  | _ => none

/-- The part is the same in both blocks. -/
def SamePart (tp : TextProc) (b b' : List UInt8) : SeenPart → Prop
  | .bytes a c => SameBytes b b' a c
  | .narrow a c => ∀ s, NarrowText tp (between b a c) s ↔ NarrowText tp (between b' a c) s
  | .wide a c => ∀ s, WideText (between b a c) s ↔ WideText (between b' a c) s

end Verif.Spec
