import Verif.Model.Main

/-
The tool under `python -W error`: `warnings.warn` raises the warning.  No `except` clause of the package handles it (they name
struct.error, ValueError, OverflowError, OSError, UnicodeDecodeError, KeyError and StopIteration; `UserWarning` is none of these).
-/

namespace Verif

/-- How a computation ends that does not return. -/
inductive Ended
  | raised (e : PyErr)
  | warned (w : Warn)

/-- A computation that returns or ends otherwise. -/
abbrev Strict (α : Type) := Except Ended α

/-- The computation up to its first warning. -/
def Py.strict (x : Py α) : Strict α :=
  match x.warns with
  | w :: _ => .error (.warned w)
  | [] => match x.res with
    | .ok a => .ok a
    | .error e => .error (.raised e)

namespace Strict

/-- `try: x except <handles>: h`. -/
def tryExcept (x : Strict α) (handles : PyErr → Bool) (h : PyErr → Strict α) : Strict α :=
  match x with
  | .error (.raised e) => if handles e then h e else x
  | _ => x

/-- `try: x` where the handler needs to know whether an exception of the handled kind occurred. -/
def attempt (x : Strict α) (handles : PyErr → Bool) : Strict (Except PyErr α) :=
  match x with
  | .error (.raised e) => if handles e then .ok (.error e) else .error (.raised e)
  | .error (.warned w) => .error (.warned w)
  | .ok a => .ok (.ok a)

/-- What is written to standard output, and how it ends: a computation that writes nothing, then one that may. -/
def after (x : Strict α) (k : α → Str × Strict Unit) : Str × Strict Unit :=
  match x with
  | .error e => ([], .error e)
  | .ok a => k a

/-- `print(s)`. -/
def print (s : Str) : Str × Strict Unit := (s ++ ['\n'], .ok ())

end Strict

/-- `print_lnk_file(print_all)`.  Models lnk_file.py:104-147. -/
def LnkFile.printLnkFileStrict (dump : Dict → Str) (f : LnkFile) (print_all : Bool) : Str × Strict Unit :=
  Strict.after (f.niceJson print_all).strict fun new_res_json =>
    let res_yaml := TextWrap.replace "EMPTY_LINE_PLACEHOLDER".toList ['\n'] (dump new_res_json)
    ("Windows Shortcut Information:".toList ++ ['\n'] ++ (TextWrap.indent res_yaml "   ".toList ++ ['\n']), .ok ())

/-- `main()` under `-W error`.  Models lnk_file.py:374-382. -/
def mainStrict (env : Env) (dump : Dict → Str) (args : Args) (content : Option Bytes) : Str × Strict Unit :=
  match content with
  | none => ([], .error (.raised .osError))
  | some b =>
    Strict.after (LnkFile.init env (some args.cp) true (.fhandle b)).strict fun lnk =>
      if args.target then Strict.after (lnk.printShortcutTarget args.json).strict Strict.print
      else if args.json then Strict.after (lnk.printJson args.print_all).strict Strict.print
      else lnk.printLnkFileStrict dump args.print_all

end Verif
