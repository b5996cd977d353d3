import Verif.Spec.Extra

/-
Specification layer: where the sections of a shell link are ([MS-SHLLINK] 2, 2.1.1), for arbitrary bytes.
-/

namespace Verif.Spec

/-- LinkFlags bit and longest accepted length of the five optional strings. -/
def stringLimits : List (Nat × Nat) := [(2, 260), (3, 260), (4, 260), (5, 65535), (6, 65535)]

/-- The end of the string data that starts at `pos`: each announced string is a two-byte count and as many
characters (cut at the limit); without room for a count it ends there. -/
def stringsEnd (flags : Nat) (b : List UInt8) : List (Nat × Nat) → Nat → Nat
  | [], pos => pos
  | (bit, limit) :: fs, pos =>
    if flags.testBit bit then
      match uAt 2 b pos with
      | none => pos
      | some n => stringsEnd flags b fs (pos + 2 + min n limit * if flags.testBit 7 then 2 else 1)
    else stringsEnd flags b fs pos

/-- LinkInfo is announced: HasLinkInfo without ForceNoLinkInfo. -/
def infoAnnounced (flags : Nat) : Bool := flags.testBit 1 && !flags.testBit 8

/-- The LinkInfo at `pos` has a volume id (bit 0 of its flags) or, failing that, a network link (bit 1). -/
def infoLocation (b : List UInt8) (pos : Nat) : Option String :=
  match uAt 4 b (pos + 8) with
  | none => none
  | some f => if f.testBit 0 then some "Local" else if f.testBit 1 then some "Network" else none

/-- Offsets of the sections. -/
structure Layout where
  /-- the declared header size, where the ID list starts -/
  headerSize : Nat
  flags : Nat
  infoAt : Nat
  stringsAt : Nat
  extraAt : Nat
deriving DecidableEq

/-- The sections of a file; `none` if the link flags or the announced IDListSize are not there. -/
def layout (b : List UInt8) : Option Layout :=
  match uAt 4 b 0 with
  | none => none
  | some hs =>
    match uAt 4 (b.take hs) 20 with
    | none => none
    | some flags =>
      match if flags.testBit 0 then (uAt 2 b hs).map fun n => hs + 2 + n else some hs with
      | none => none
      | some infoAt =>
        let stringsAt := if infoAnnounced flags && (infoLocation b infoAt).isSome then infoAt + (uAt 4 b infoAt).getD 0
          else infoAt
        some ⟨hs, flags, infoAt, stringsAt, stringsEnd flags b stringLimits stringsAt⟩

/-- The bytes from offset `i` up to offset `j`. -/
def between (b : List UInt8) (i j : Nat) : List UInt8 := (b.drop i).take (j - i)

end Verif.Spec
