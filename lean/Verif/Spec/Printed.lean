import Verif.Spec.Visible
import Verif.Spec.Json

/-
Specification layer: what the printed report tells, in general and about a link.
-/

namespace Verif.Spec

/-- The keys under which there are dates. -/
def timeKeys : List String := ["creation_time", "accessed_time", "modified_time", "modification_time"]

/-- Nothing, or a date; the dates of items are to the second. -/
def DateOrNone (k : String) (v : PyVal) : Prop :=
  v = .none ∨ ∃ d, v = .dt d ∧ ValidDateTime d ∧ (k = "modification_time" → d.microsecond = 0)

mutual
/-- A tree with dates at the right keys and nowhere else. -/
def Dated : PyVal → Prop
  | .dt _ => False
  | .list l => DatedList l
  | .dict d => DatedEntries d
  | _ => True
/-- The elements of a list. -/
def DatedList : List PyVal → Prop
  | [] => True
  | v :: l => Dated v ∧ DatedList l
/-- The values of a dictionary. -/
def DatedEntries : List (String × PyVal) → Prop
  | [] => True
  | (k, v) :: d => (if k ∈ timeKeys then DateOrNone k v else Dated v) ∧ DatedEntries d
end

/-- The same tree up to the order of the entries of dictionaries and parts of seconds. -/
inductive SameShown : PyVal → PyVal → Prop
  | none : SameShown .none .none
  | int (i : Int) : SameShown (.int i) (.int i)
  | str (s : List Char) : SameShown (.str s) (.str s)
  | date {d d' : DateTime} : { d with microsecond := 0 } = { d' with microsecond := 0 } → SameShown (.dt d) (.dt d')
  | list {l l' : List PyVal} : List.Forall₂ SameShown l l' → SameShown (.list l) (.list l')
  | dict {d e d' : Dict} : e.Perm d' → d.map (·.1) = e.map (·.1) →
      List.Forall₂ SameShown (d.map (·.2)) (e.map (·.2)) → SameShown (.dict d) (.dict d')

/-- Two FILETIME values with the same printed form: both without a date, or dates of the same second. -/
def SameSecond (v v' : Int64) : Prop :=
  (¬ SameTime.NoDate v ∧ ¬ SameTime.NoDate v' ∧ |v.toInt - v'.toInt| < 10000320 ∧
    ∃ n n', Stamp v.toInt n ∧ Stamp v'.toInt n' ∧ n / 1000000 = n' / 1000000) ∨ (SameTime.NoDate v ∧ SameTime.NoDate v')

/-- The same header, times to the second. -/
structure SamePrintedHeader (h h' : Header) : Prop where
  exact : { h with creationTime := 0, accessTime := 0, writeTime := 0, showCommand := 0 } =
    { h' with creationTime := 0, accessTime := 0, writeTime := 0, showCommand := 0 }
  creation : SameSecond h.creationTime h'.creationTime
  access : SameSecond h.accessTime h'.accessTime
  write : SameSecond h.writeTime h'.writeTime
  showCommand : h.showCommand = h'.showCommand ∨ (h.showCommand ∉ [3, 7] ∧ h'.showCommand ∉ [3, 7])

/-- The same link as far as the printed report tells: the order of blocks of different kinds is lost. -/
structure SamePrinted (hash : List UInt8 → List Char) (s s' : ShellLink) : Prop where
  header : SamePrintedHeader s.header s'.header
  items : Option.Rel (List.Forall₂ SameItem) s.items s'.items
  info : Option.Rel SameInfo s.info s'.info
  strings : s.strings.texts = s'.strings.texts
  blocks : ∀ name, name ≠ "UNKNOWN_BLOCK" → Option.Rel (SameBlock hash) (s.lastBlock name) (s'.lastBlock name)
  unknown : List.Forall₂ (SameBlock hash) s.unknownBlocks s'.unknownBlocks

end Verif.Spec
