/-
Specification layer: how integers and GUIDs are laid out in a file.  Uses nothing of the model.
-/

namespace Verif.Spec

/-- The little-endian representation of `v` in `n` bytes ([MS-SHLLINK] 1.3: all integers are little-endian). -/
def le : Nat → Nat → List UInt8
  | 0, _ => []
  | n + 1, v => UInt8.ofNat (v % 256) :: le n (v / 256)

/-- Two's complement little-endian representation of an integer. -/
def leI (n : Nat) (i : Int) : List UInt8 := le n (i % (2 ^ (8 * n) : Nat)).toNat

/-- The digit `d` of a hexadecimal number, upper case. -/
def hexDigit (d : Nat) : Char := "0123456789ABCDEF".toList.getD d '?'

/-- The digit `d` of a hexadecimal number, lower case. -/
def hexDigitLower (d : Nat) : Char := "0123456789abcdef".toList.getD d '?'

/-- Exactly `w` upper-case hexadecimal digits. -/
def hexFixed : Nat → Nat → List Char
  | 0, _ => []
  | w + 1, n => hexFixed w (n / 16) ++ [hexDigit (n % 16)]

/-- Exactly `w` lower-case hexadecimal digits. -/
def hexFixedLower : Nat → Nat → List Char
  | 0, _ => []
  | w + 1, n => hexFixedLower w (n / 16) ++ [hexDigitLower (n % 16)]

/-- A GUID ([MS-DTYP] 2.3.4): three integers and eight single bytes. -/
structure Guid where
  data1 : UInt32
  data2 : UInt16
  data3 : UInt16
  (b0 b1 b2 b3 b4 b5 b6 b7 : UInt8)
deriving DecidableEq

namespace Guid

/-- Packet representation ([MS-DTYP] 2.3.4.2): integers little-endian, then the bytes. -/
def encode (g : Guid) : List UInt8 :=
  le 4 g.data1.toNat ++ le 2 g.data2.toNat ++ le 2 g.data3.toNat ++
    [g.b0, g.b1, g.b2, g.b3, g.b4, g.b5, g.b6, g.b7]

/-- Two hexadecimal digits of a byte. -/
def hex2 (b : UInt8) : List Char := hexFixed 2 b.toNat

/-- Registry string representation ([MS-DTYP] 2.3.4.3) without braces. -/
def text (g : Guid) : List Char :=
  hexFixed 8 g.data1.toNat ++ ['-'] ++ hexFixed 4 g.data2.toNat ++ ['-'] ++ hexFixed 4 g.data3.toNat ++ ['-'] ++
    hex2 g.b0 ++ hex2 g.b1 ++ ['-'] ++
    hex2 g.b2 ++ hex2 g.b3 ++ hex2 g.b4 ++ hex2 g.b5 ++ hex2 g.b6 ++ hex2 g.b7

end Guid

/-- The unsigned little-endian integer of `n` bytes at an offset, if that many bytes are there. -/
def uAt (n : Nat) (b : List UInt8) (off : Nat) : Option Nat :=
  if off + n ≤ b.length then some (go n off) else none
where
  /-- The value of the bytes `off ... off+n-1`. -/
  go : Nat → Nat → Nat
  | 0, _ => 0
  | n + 1, off => (b.getD off 0).toNat + 256 * go n (off + 1)

end Verif.Spec
