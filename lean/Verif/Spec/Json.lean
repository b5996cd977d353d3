import Verif.Py.Dict

/-
Specification layer: JSON texts (RFC 8259; numbers are integers only) and when such a text tells a tree.
-/

namespace Verif.Spec

/-- A JSON value. -/
inductive JVal
  | null
  | bool (b : Bool)
  | num (i : Int)
  | str (s : List Char)
  | arr (l : List JVal)
  | obj (l : List (List Char × JVal))

namespace Json

def isWs (c : Char) : Bool := c = ' ' || c = '\n' || c = '\r' || c = '\t'

def skipWs (s : List Char) : List Char := s.dropWhile isWs

def hexVal (c : Char) : Option Nat :=
  if '0' ≤ c ∧ c ≤ '9' then some (c.toNat - 48)
  else if 'a' ≤ c ∧ c ≤ 'f' then some (c.toNat - 87)
  else if 'A' ≤ c ∧ c ≤ 'F' then some (c.toNat - 55)
  else none

/-- Four hexadecimal digits. -/
def fourHex : List Char → Option (Nat × List Char)
  | a :: b :: c :: d :: cs => do
    let a ← hexVal a
    let b ← hexVal b
    let c ← hexVal c
    let d ← hexVal d
    some (((a * 16 + b) * 16 + c) * 16 + d, cs)
  | _ => none

/-- The character meant by a backslash and a letter. -/
def simpleEscape (c : Char) : Option Char :=
  if c = '"' ∨ c = '\\' ∨ c = '/' then some c
  else if c = 'b' then some (Char.ofNat 8)
  else if c = 'f' then some (Char.ofNat 12)
  else if c = 'n' then some (Char.ofNat 10)
  else if c = 'r' then some (Char.ofNat 13)
  else if c = 't' then some (Char.ofNat 9)
  else none

/-- One character of a string literal.  Surrogates must come in pairs. -/
def oneChar : List Char → Option (Char × List Char)
  | [] => none
  | c :: cs =>
    if c = '\\' then
      match cs with
      | [] => none
      | e :: cs =>
        if e = 'u' then do
          let (n, cs) ← fourHex cs
          if 0xD800 ≤ n ∧ n < 0xDC00 then
            match cs with
            | '\\' :: 'u' :: cs => do
              let (m, cs) ← fourHex cs
              if 0xDC00 ≤ m ∧ m < 0xE000 then some (Char.ofNat (0x10000 + (n - 0xD800) * 0x400 + (m - 0xDC00)), cs)
              else none
            | _ => none
          else if 0xDC00 ≤ n ∧ n < 0xE000 then none
          else some (Char.ofNat n, cs)
        else (simpleEscape e).map fun x => (x, cs)
    else if c = '"' ∨ c.toNat < 0x20 then none
    else some (c, cs)

/-- The rest of a string literal, up to the closing quote.  The first argument bounds the number of characters. -/
def stringBody : Nat → List Char → Option (List Char × List Char)
  | 0, _ => none
  | n + 1, s =>
    if s.head? = some '"' then some ([], s.tail)
    else do
      let (c, s) ← oneChar s
      let (t, s) ← stringBody n s
      some (c :: t, s)

/-- Decimal digits without superfluous zeros. -/
def natural (s : List Char) : Option (Nat × List Char) :=
  let ds := s.takeWhile Char.isDigit
  if ds = [] ∨ (ds.head? = some '0' ∧ 1 < ds.length) then none
  else some (Nat.ofDigitChars 10 ds 0, s.dropWhile Char.isDigit)

def number : List Char → Option (Int × List Char)
  | '-' :: cs => do
    let (n, r) ← natural cs
    some (-n, r)
  | cs => do
    let (n, r) ← natural cs
    some (n, r)

mutual
/-- A value; the first argument bounds the nesting and the number of elements. -/
def value : Nat → List Char → Option (JVal × List Char)
  | 0, _ => none
  | _ + 1, [] => none
  | n + 1, c :: cs =>
    if c = '"' then do
      let (t, r) ← stringBody (cs.length + 1) cs
      some (.str t, r)
    else if c = '[' then
      let cs := skipWs cs
      if cs.head? = some ']' then some (.arr [], cs.tail)
      else do
        let (v, r) ← value n cs
        let (vs, r) ← elements n (skipWs r)
        some (.arr (v :: vs), r)
    else if c = '{' then
      let cs := skipWs cs
      if cs.head? = some '}' then some (.obj [], cs.tail)
      else do
        let (m, r) ← member n cs
        let (ms, r) ← members n (skipWs r)
        some (.obj (m :: ms), r)
    else if c = 'n' then if cs.take 3 = ['u', 'l', 'l'] then some (.null, cs.drop 3) else none
    else if c = 't' then if cs.take 3 = ['r', 'u', 'e'] then some (.bool true, cs.drop 3) else none
    else if c = 'f' then if cs.take 4 = ['a', 'l', 's', 'e'] then some (.bool false, cs.drop 4) else none
    else do
      let (i, r) ← number (c :: cs)
      some (.num i, r)
/-- What follows a value in an array: the end, or a comma and further values. -/
def elements : Nat → List Char → Option (List JVal × List Char)
  | 0, _ => none
  | _ + 1, [] => none
  | n + 1, c :: cs =>
    if c = ']' then some ([], cs)
    else if c = ',' then do
      let (v, r) ← value n (skipWs cs)
      let (vs, r) ← elements n (skipWs r)
      some (v :: vs, r)
    else none
/-- Name, colon, value. -/
def member : Nat → List Char → Option ((List Char × JVal) × List Char)
  | 0, _ => none
  | _ + 1, [] => none
  | n + 1, c :: cs =>
    if c = '"' then do
      let (k, r) ← stringBody (cs.length + 1) cs
      let r := skipWs r
      if r.head? = some ':' then do
        let (v, r) ← value n (skipWs r.tail)
        some ((k, v), r)
      else none
    else none
/-- What follows a member in an object. -/
def members : Nat → List Char → Option (List (List Char × JVal) × List Char)
  | 0, _ => none
  | _ + 1, [] => none
  | n + 1, c :: cs =>
    if c = '}' then some ([], cs)
    else if c = ',' then do
      let (m, r) ← member n (skipWs cs)
      let (ms, r) ← members n (skipWs r)
      some (m :: ms, r)
    else none
end

/-- The value of a JSON text: white space, a value, white space. -/
def decode (s : List Char) : Option JVal :=
  match value (s.length + 1) (skipWs s) with
  | some (v, r) => if skipWs r = [] then some v else none
  | none => none

end Json

/-- `n` in decimal with at least `w` digits. -/
def padded (w n : Nat) : List Char := List.replicate (w - (Nat.toDigits 10 n).length) '0' ++ Nat.toDigits 10 n

/-- ISO 8601 date and time to the second, in UTC. -/
def isoText (d : DateTime) : List Char :=
  padded 4 d.year ++ ['-'] ++ padded 2 d.month ++ ['-'] ++ padded 2 d.day ++ ['T'] ++ padded 2 d.hour ++ [':'] ++
    padded 2 d.minute ++ [':'] ++ padded 2 d.second ++ ['+', '0', '0', ':', '0', '0']

/-- The JSON value tells the tree: the same leaves, dates as ISO texts; the members of objects are the entries of the
dictionaries, in increasing order of their names, each name once. -/
inductive Tells : JVal → PyVal → Prop
  | null : Tells .null .none
  | num (i : Int) : Tells (.num i) (.int i)
  | str (s : List Char) : Tells (.str s) (.str s)
  | date (d : DateTime) : Tells (.str (isoText d)) (.dt d)
  | arr (js : List JVal) (l : List PyVal) : List.Forall₂ Tells js l → Tells (.arr js) (.list l)
  | obj (o o' : List (List Char × JVal)) (d : Dict) : o'.Perm o → o'.map (·.1) = d.map (·.1.toList) →
      List.Forall₂ Tells (o'.map (·.2)) (d.map (·.2)) → o.Pairwise (fun a b => a.1 < b.1) → Tells (.obj o) (.dict d)

end Verif.Spec
