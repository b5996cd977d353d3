import Verif.Model.File
import Verif.Py.TextWrap

/-
The printing functions of LnkParse3/lnk_file.py and `main()`.
-/

namespace Verif

/-- A computation that also writes to standard output: what it has written, and how it ends. -/
structure Out where
  text : Str
  py : Py Unit

namespace Out

/-- A computation that writes nothing, then one that may. -/
def after (x : Py α) (k : α → Out) : Out :=
  match x.res with
  | .error e => ⟨[], ⟨x.warns, .error e⟩⟩
  | .ok a => ⟨(k a).text, ⟨x.warns ++ (k a).py.warns, (k a).py.res⟩⟩

/-- One after the other; what is written before an exception stays written. -/
def andThen (x y : Out) : Out :=
  match x.py.res with
  | .error _ => x
  | .ok _ => ⟨x.text ++ y.text, ⟨x.py.warns ++ y.py.warns, y.py.res⟩⟩

/-- `print(s)`; a standard output that cannot encode `s` is not modelled. -/
def print (s : Str) : Out := ⟨s ++ ['\n'], pure ()⟩

end Out

/-- `print_lnk_file(print_all)`; `dump` is `yaml.dump` with the options given there.  Models lnk_file.py:104-147. -/
def LnkFile.printLnkFile (dump : Dict → Str) (f : LnkFile) (print_all : Bool) : Out :=
  Out.after (f.niceJson print_all) fun new_res_json =>
    let res_yaml := dump new_res_json
    let res_yaml := TextWrap.replace "EMPTY_LINE_PLACEHOLDER".toList ['\n'] res_yaml
    (Out.print "Windows Shortcut Information:".toList).andThen
      (Out.print (TextWrap.indent res_yaml "   ".toList))

/-- The command line, as the argument parser (Model/Args) reads it.  Models lnk_file.py:349-373. -/
structure Args where
  target : Bool := false
  json : Bool := false
  cp : String := "cp1252"
  print_all : Bool := false

/-- `main()`; `content` is the content of the file, `none` if it cannot be opened.  Models lnk_file.py:374-382. -/
def main (env : Env) (dump : Dict → Str) (args : Args) (content : Option Bytes) : Out :=
  Out.after (match content with
    | none => Py.raise .osError
    | some b => pure b) fun b =>
  Out.after (LnkFile.init env (some args.cp) true (.fhandle b)) fun lnk =>
    if args.target then Out.after (lnk.printShortcutTarget args.json) Out.print
    else if args.json then Out.after (lnk.printJson args.print_all) Out.print
    else lnk.printLnkFile dump args.print_all

end Verif
