import Verif.Spec.StoreTold
import Verif.Spec.ItemsTold
import Verif.Spec.HeaderTold

/-
Specification layer: when two files are reported alike.
-/

namespace Verif.Spec

/-- The strings that are announced, up to the first whose count is not there: key and bytes. -/
def foundStrings (flags : Nat) (b : List UInt8) : List (String × Nat × Nat) → Nat → List (String × List UInt8)
  | [], _ => []
  | (key, bit, limit) :: fs, pos =>
    if flags.testBit bit then
      match uAt 2 b pos with
      | none => []
      | some n =>
        let stop := pos + 2 + min n limit * if flags.testBit 7 then 2 else 1
        (key, between b (pos + 2) stop) :: foundStrings flags b fs stop
    else foundStrings flags b fs pos

/-- The same strings are there, with the same texts (which may be stored in different ways). -/
def EqualStrings (tp : TextProc) (b b' : List UInt8) (L L' : Layout) : Prop :=
  List.Forall₂ (fun x x' => x.1 = x'.1 ∧ SameSaid (Either tp (L.flags.testBit 7) x.2) (Either tp (L'.flags.testBit 7) x'.2))
    (foundStrings L.flags b stringKeys L.stringsAt) (foundStrings L'.flags b' stringKeys L'.stringsAt)

/-- Both or neither announce an ID list, at the same place, of the same size and with the same items. -/
def EqualTarget (tp : TextProc) (b b' : List UInt8) (L L' : Layout) : Prop :=
  L.flags.testBit 0 = L'.flags.testBit 0 ∧ (L.flags.testBit 0 = true →
    L.headerSize = L'.headerSize ∧ uAt 2 b L.headerSize = uAt 2 b' L'.headerSize ∧
    EqualItems tp (between b (L.headerSize + 2) L.infoAt) (between b' (L'.headerSize + 2) L'.infoAt))

/-- The same contents of two blocks of a known kind. -/
def EqualContents (tp : TextProc) (s : Nat) (b b' : List UInt8) : Prop :=
  if s = 0xA0000009 then EqualStore b b'
  else if s = 0xA000000C then EqualItems tp (b.drop 8) (b'.drop 8)
  else ∀ parts, seenParts s (max b.length b'.length) = some parts → ∀ x ∈ parts, SamePart tp b b' x

/-- What is said about the bytes that follow the blocks. -/
def restSeen (tp : TextProc) (allow : Bool) (last : List UInt8) : Option (Nat × List Char) :=
  if allow = true ∧ 4 < last.length then some (last.length, tp.env.sha256hex (last.drop 4)) else none

/-- The same extra data: readable blocks of the same kinds, the kinds first met in the same order; of each known kind, the same last one;
as many blocks of unknown kinds, with the same sizes and digests; the same said about what follows. -/
structure EqualExtra (tp : TextProc) (allow allow' : Bool) (l l' : List Piece) (last last' : List UInt8) : Prop where
  names : firsts (readableNames l) = firsts (readableNames l')
  known : ∀ name p p' s, name ≠ "UNKNOWN_BLOCK" → LastReadable name l p → LastReadable name l' p' → p.signature = some s →
    p.declared = p'.declared ∧ EqualContents tp s p.bytes p'.bytes
  unknown : List.Forall₂ (fun p p' => p.declared = p'.declared ∧ tp.env.sha256hex (p.bytes.drop 4) = tp.env.sha256hex (p'.bytes.drop 4))
    (l.filter fun p => p.signature.map blockName == some "UNKNOWN_BLOCK") (l'.filter fun p => p.signature.map blockName == some "UNKNOWN_BLOCK")
  rest : restSeen tp allow last = restSeen tp allow' last'

/-- The same in all parts of the report. -/
structure EqualFile (tp : TextProc) (allow allow' : Bool) (b b' : List UInt8) (L L' : Layout) (l l' : List Piece) (last last' : List UInt8) :
    Prop where
  size : sizeRead b L allow l last = sizeRead b' L' allow' l' last'
  header : EqualHeader b b'
  target : EqualTarget tp b b' L L'
  info : EqualInfoAt tp b b' L L'
  strings : EqualStrings tp b b' L L'
  extra : EqualExtra tp allow allow' l l' last last'

end Verif.Spec
