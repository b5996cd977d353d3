import Verif.Spec.BlockTold
import Verif.Spec.Visible

/-
Specification layer: when two lists of shell items are reported alike.
-/

namespace Verif.Spec

/-- What is said is the same: the same text, or nothing. -/
def SameSaid (P P' : PyVal → Prop) : Prop := ∀ v, P v ↔ P' v

/-- The words at offset 6 are no date. -/
def NoDosDate (w : List UInt8) : Prop := ∀ date time, uAt 2 w 6 = some date → uAt 2 w 8 = some time → ¬ ValidDateTime (dosDateTime date time)

/-- The same file entry: kind, size, date, attributes and name; words that are no date are not told apart. -/
structure EqualEntry (tp : TextProc) (w w' : List UInt8) : Prop where
  kind : ∀ t t', w[0]? = some t → w'[0]? = some t' → SameKind t t'
  size : SameBytes w w' 2 6
  date : SameBytes w w' 6 10 ∨ NoDosDate w ∧ NoDosDate w'
  attributes : SameBytes w w' 10 12
  name : SameSaid (fun v => ∃ t, w[0]? = some t ∧ Either tp (t.toNat.testBit 2) (w.drop 12) v)
    (fun v => ∃ t, w'[0]? = some t ∧ Either tp (t.toNat.testBit 2) (w'.drop 12) v)

/-- The comments of a control panel item: empty if there is no distance to them. -/
def CplComments (tp : TextProc) (w : List UInt8) (v : PyVal) : Prop :=
  if uAt 2 w (if cplWide w then 20 else 8) = some 0 then v = .str [] else CplTextAt tp w 20 8 v

/-- The description and the comments of a network location: the second piece and the third (or the second, without a description). -/
def LocationDescription (tp : TextProc) (w : List UInt8) (v : PyVal) : Prop :=
  ∃ cf, uAt 1 w 2 = some cf ∧ PieceText tp (cf.testBit 7) (zeroPieces (w.drop 3))[1]? v
def LocationComments (tp : TextProc) (w : List UInt8) (v : PyVal) : Prop :=
  ∃ cf, uAt 1 w 2 = some cf ∧ PieceText tp (cf.testBit 6) (zeroPieces (w.drop 3))[if cf.testBit 7 then 2 else 1]? v

/-- The same item of a class, besides the class: `n` is the size stated, `t` the type byte, `w` the bytes from there on. -/
def EqualFields (tp : TextProc) (cls : String) (n n' : Nat) (t t' : UInt8) (w w' : List UInt8) : Prop :=
  if cls = "Control panel CPL file" then
    SameBytes w w' 2 6 ∧ SameSaid (CplText tp w 0) (CplText tp w' 0) ∧ SameSaid (CplTextAt tp w 18 6) (CplTextAt tp w' 18 6) ∧
      SameSaid (CplComments tp w) (CplComments tp w')
  else if cls = "Control panel category" then SameBytes w w' 6 10
  else if cls = "Root Folder" then SameBytes w w' 1 18
  else if cls = "Volume Item" then
    t.toNat % 16 = t'.toNat % 16 ∧
      if t.toNat % 2 = 1 then SameSaid (Narrow tp (between w 1 21)) (Narrow tp (between w' 1 21)) else SameBytes w w' 2 18
  else if cls = "File entry" then EqualEntry tp w w'
  else if cls = "Network location" then
    SameKind t t' ∧ SameBytes w w' 2 3 ∧
      SameSaid (PieceText tp true (zeroPieces (w.drop 3))[0]?) (PieceText tp true (zeroPieces (w'.drop 3))[0]?) ∧
      SameSaid (LocationDescription tp w) (LocationDescription tp w') ∧ SameSaid (LocationComments tp w) (LocationComments tp w')
  else if cls = "Control panel" then SameBytes w w' 14 30
  else if cls = "Users files folder" then
    ((between w 4 8).map fun x => if x.toNat < 128 then Char.ofNat x.toNat else '�') =
        ((between w' 4 8).map fun x => if x.toNat < 128 then Char.ofNat x.toNat else '�') ∧
      (∀ m m', uAt 2 w 8 = some m → uAt 2 w' 8 = some m' → EqualEntry tp (between w 10 (10 + m)) (between w' 10 (10 + m'))) ∧
      ∀ k k', uAt 2 w 2 = some k → uAt 2 w' 2 = some k' →
        between w (4 + k) (20 + k) = between w' (4 + k') (20 + k') ∧ between w (20 + k) (36 + k) = between w' (20 + k') (36 + k')
  else if cls = "Unknown" then n = n'
  else True

/-- The same items, one by one: the same class, and what is said of the items of that class. -/
inductive EqualItems (tp : TextProc) : List UInt8 → List UInt8 → Prop
  | stop {b b'} : b = [] ∨ uAt 2 b 0 = some 0 → b' = [] ∨ uAt 2 b' 0 = some 0 → EqualItems tp b b'
  | item {b b' n n' t t' cls} : uAt 2 b 0 = some n → n ≠ 0 → b[2]? = some t → uAt 2 b' 0 = some n' → n' ≠ 0 → b'[2]? = some t' →
      (itemClass t.toNat).getD "Unknown" = cls → (itemClass t'.toNat).getD "Unknown" = cls →
      EqualFields tp cls n n' t t' ((b.drop 2).take n) ((b'.drop 2).take n') → EqualItems tp (b.drop n) (b'.drop n') → EqualItems tp b b'

end Verif.Spec
