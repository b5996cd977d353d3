import Verif.Py.Basic

/-
Number formatting: `hex()`, `%X`, `{:08X}`, `%d`, `bytes.hex()`.
-/

namespace Verif

/-- The hexadecimal digit character of `d < 16`. -/
def hexChar (upper : Bool) (d : Nat) : Char :=
  if d < 10 then Char.ofNat (48 + d) else if upper then Char.ofNat (55 + d) else Char.ofNat (87 + d)

/-- Hexadecimal digits of a natural number, most significant first, no leading zeros. -/
def hexStr (upper : Bool) (n : Nat) : Str :=
  if n < 16 then [hexChar upper n] else hexStr upper (n / 16) ++ [hexChar upper (n % 16)]
termination_by n

/-- Left zero padding to width `w`. -/
def zpad (w : Nat) (s : Str) : Str := List.replicate (w - s.length) '0' ++ s

/-- Python's `hex(n)` for `n ≥ 0` (used at info/local.py:54, info/network.py:111, extra_factory.py:61,
extra/metadata.py:270, target/my_computer.py:62). -/
def pyHex (n : Nat) : Str := '0' :: 'x' :: hexStr false n

/-- `"%0wX" % n` for `n ≥ 0` (utils.py:16, target/control_panel_cpl.py:129). -/
def fmtX (w n : Nat) : Str := zpad w (hexStr true n)

/-- `f"{i:0wX}"` for any integer: a minus sign counts towards the width and precedes the zeros
(utils.py:37). -/
def fmtXInt (w : Nat) : Int → Str
  | .ofNat n => fmtX w n
  | .negSucc n => '-' :: zpad (w - 1) (hexStr true (n + 1))

/-- Two lower-case hex digits of a byte. -/
def byteHex (b : UInt8) : Str := [hexChar false (b.toNat / 16), hexChar false (b.toNat % 16)]

/-- `b.hex()` (lnk_header.py:451-452). -/
def bytesHex (b : Bytes) : Str := b.flatMap byteHex

/-- Decimal digits of a natural number (`str(n)`). -/
def decStr (n : Nat) : Str :=
  if n < 10 then [Char.ofNat (48 + n)] else decStr (n / 10) ++ [Char.ofNat (48 + n % 10)]
termination_by n

/-- `str(i)` for any integer. -/
def decInt : Int → Str
  | .ofNat n => decStr n
  | .negSucc n => '-' :: decStr (n + 1)

end Verif
