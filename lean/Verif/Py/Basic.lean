/-
The part of Python's semantics the model rests on: exceptions, warnings, byte strings,
slices and `struct.unpack`.
-/

namespace Verif

/-- A Python `bytes` object. -/
abbrev Bytes := List UInt8

/-- A Python `str`: its code points (all codecs modelled produce Unicode scalar values only). -/
abbrev Str := List Char

/-- Exceptions that the modelled code raises or catches.  `unicodeDecode` is `UnicodeDecodeError`
(a subclass of `ValueError`), `structError` is `struct.error` (a direct subclass of `Exception`).
`other` stands for whatever a user supplied codec may raise.  `diverge` is not a Python exception: it
marks a loop iteration that makes no progress, i.e. a loop that would run forever. -/
inductive PyErr
  | structError | keyError | indexError | valueError | unicodeDecode | lookupError | typeError
  | attributeError | runtimeError | stopIteration | overflowError | osError | lnkParserError
  | other (name : String)
  | diverge
deriving DecidableEq, Repr

/-- `except ValueError` also catches `UnicodeDecodeError`. -/
def PyErr.isValueError : PyErr → Bool
  | .valueError => true
  | .unicodeDecode => true
  | _ => false

/-- A value compared by `must_be`: an integer or a string. -/
inductive MustVal
  | int (n : Nat)
  | str (s : Str)
deriving DecidableEq, Repr

/-- One call of `warnings.warn`.  Only the variable parts of the message are kept. -/
inductive Warn
  /-- decorators.py:17 `"%s must be %s: %s"` -/
  | mustBe (func : String) (expected got : MustVal)
  /-- utils.py:108 -/
  | invalidFiletime (b : Bytes)
  /-- utils.py:166 -/
  | invalidDostime (b : Bytes)
  /-- text_processor.py:29 and 55 -/
  | decode (s : Str)
  /-- target_factory.py:41-46 -/
  | itemType (t : Nat)
  /-- target/lnk_target_base.py:54-59 -/
  | itemFlags (f : Nat)
  /-- target/root_folder.py:44-49 -/
  | sortIndex (v : Nat)
  /-- target/control_panel_category.py:56-61 -/
  | category (c : Nat)
  /-- lnk_targets.py:91-92, extra/shell_item.py:63-64 -/
  | targetKey (name : String)
  /-- info_factory.py:46 -/
  | infoClass
  /-- string_data.py:59 -/
  | stringData
  /-- extra_data.py:35 -/
  | extraSize
  /-- extra_factory.py:64 -/
  | extraSignature
  /-- extra_data.py:67-68 -/
  | extraBlock (name : String) (e : PyErr)
deriving DecidableEq, Repr

/-- A Python computation: the warnings it issues, in order, and its outcome. -/
@[ext] structure Py (α : Type) where
  warns : List Warn
  res : Except PyErr α

namespace Py

/-- Returning normally without warnings. -/
def ret (a : α) : Py α := ⟨[], .ok a⟩

/-- `raise e`. -/
def raise (e : PyErr) : Py α := ⟨[], .error e⟩

/-- `warnings.warn(w)`; warning filters that turn warnings into errors are not modelled. -/
def warn (w : Warn) : Py Unit := ⟨[w], .ok ()⟩

/-- Sequencing: an exception stops the computation, warnings issued so far remain issued. -/
def andThen (x : Py α) (f : α → Py β) : Py β :=
  match x.res with
  | .error e => ⟨x.warns, .error e⟩
  | .ok a => ⟨x.warns ++ (f a).warns, (f a).res⟩

instance : Monad Py where
  pure := ret
  bind := andThen

/-- `try: x except <handles>: h`. -/
def tryExcept (x : Py α) (handles : PyErr → Bool) (h : PyErr → Py α) : Py α :=
  match x.res with
  | .error e => if handles e then ⟨x.warns ++ (h e).warns, (h e).res⟩ else x
  | .ok _ => x

/-- `try: x` where the handler needs to know whether an exception of the handled kind occurred. -/
def attempt (x : Py α) (handles : PyErr → Bool) : Py (Except PyErr α) :=
  match x.res with
  | .error e => if handles e then ⟨x.warns, .ok (.error e)⟩ else ⟨x.warns, .error e⟩
  | .ok a => ⟨x.warns, .ok (.ok a)⟩

/-- The computation returns `a` (with some warnings). -/
def Returns (x : Py α) (a : α) : Prop := x.res = .ok a

/-- The computation raises `e`. -/
def Raises (x : Py α) (e : PyErr) : Prop := x.res = .error e

end Py

/-- `raw[s:e]` for non-negative `s`, `e`. -/
def slice (b : List α) (s e : Nat) : List α := (b.drop s).take (e - s)

/-- Value of a little-endian byte string. -/
def leNat : Bytes → Nat
  | [] => 0
  | b :: bs => b.toNat + 256 * leNat bs

/-- Value of a big-endian byte string. -/
def beNat (b : Bytes) : Nat := leNat b.reverse

/-- Two's complement reading of an `n`-byte unsigned value. -/
def toSigned (n : Nat) (v : Nat) : Int :=
  if v < 2 ^ (8 * n - 1) then (v : Int) else (v : Int) - (2 ^ (8 * n) : Nat)

/-- `struct.unpack` of one little-endian unsigned integer of `n` bytes
(formats `<B`, `<H`, `<I`, `<L`): the buffer must have exactly `n` bytes. -/
def unpackU (n : Nat) (b : Bytes) : Py Nat :=
  if b.length = n then pure (leNat b) else Py.raise .structError

/-- `struct.unpack` of one little-endian signed integer of `n` bytes (formats `<h`, `<i`, `<q`). -/
def unpackI (n : Nat) (b : Bytes) : Py Int :=
  if b.length = n then pure (toSigned n (leNat b)) else Py.raise .structError

end Verif
