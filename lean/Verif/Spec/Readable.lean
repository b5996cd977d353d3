import Verif.Spec.Header
import Verif.Py.Dict

/-
Specification layer: what the readable output shows of a tree.
-/

namespace Verif.Spec

/-- A key without a leading `r_`. -/
def plainKey (k : String) : String := if "r_".toList <+: k.toList then String.ofList (k.toList.drop 2) else k

/-- Blanks for underscores. -/
def spaced (s : List Char) : List Char := s.map fun c => if c = '_' then ' ' else c

/-- The name under which a key is shown: a capital letter first, blanks for underscores, no `r_` in front; the names of
blocks (capitals throughout) stay capitals. -/
def label (k : String) : String :=
  match (plainKey k).toList with
  | [] => ""
  | c :: s => String.ofList (spaced (c.toUpper :: s))

/-- The name under which a section is shown: capitals. -/
def heading (k : String) : String := String.ofList (spaced (k.toList.map Char.toUpper))

/-- `k` gives way to another key of `d`: it is `r_p`, and `p` is there as well. -/
def Shadowed (d : Dict) (k : String) : Prop := ∃ p, k = "r_" ++ p ∧ p ∈ d.keys

set_option inductive.autoPromoteIndices false in
/-- `d'` shows the entries of `d`: the names are distinct, all come from keys of `d` and are in the same order; and every
entry of `d` is there (its value shown as `out k`) unless a plain key takes its place. -/
inductive ShownEntries (R : PyVal → PyVal → Prop) : Dict → Dict → Prop
  | intro {d d' : Dict} (out : String → PyVal) (distinct : d'.keys.Nodup) (order : d'.keys.Sublist (d.keys.map label))
      (kept : ∀ k v, (k, v) ∈ d → ¬ Shadowed d k → (label k, out k) ∈ d')
      (shown : ∀ k v, (k, v) ∈ d → ¬ Shadowed d k → R v (out k)) : ShownEntries R d d'

/-- How a value is shown: leaves as they are; lists element by element; a dictionary with a class as the entry of the class;
other dictionaries entry by entry. -/
inductive Shown : PyVal → PyVal → Prop
  | none : Shown .none .none
  | int (i : Int) : Shown (.int i) (.int i)
  | str (s : Str) : Shown (.str s) (.str s)
  | dt (d : DateTime) : Shown (.dt d) (.dt d)
  | list {l l' : List PyVal} (h : List.Forall₂ Shown l l') : Shown (.list l) (.list l')
  | dict {d d' : Dict} (hc : "class" ∉ d.keys) (h : ShownEntries Shown d d') : Shown (.dict d) (.dict d')
  | classDict {d d' : Dict} {c : Str} (hc : ("class", .str c) ∈ d)
      (h : ShownEntries Shown (d.filter fun kv => kv.1 ≠ "class") d') : Shown (.dict d) (.dict [(String.ofList c, .dict d')])

/-- The header with the flags as texts. -/
def withSummaries (h : Dict) (link file : List Char) : Dict :=
  h.map fun kv => if kv.1 = "link_flags" then (kv.1, .str link) else if kv.1 = "file_flags" then (kv.1, .str file) else kv

end Verif.Spec
