import Verif.Py.Dict

/-
`json.dumps(obj, indent=4, separators=(",", ": "), default=_datetime_to_str, sort_keys=True)` and
`json.dumps({"shortcut_target": s})`, with the default `ensure_ascii=True`.
-/

namespace Verif

namespace Json

/-- `"%04x"`. -/
def hex4 (n : Nat) : Str := zpad 4 (hexStr false n)

/-- `py_encode_basestring_ascii` on one character. -/
def escChar (c : Char) : Str :=
  if c = '"' then "\\\"".toList
  else if c = '\\' then "\\\\".toList
  else if c = '\n' then "\\n".toList
  else if c = '\r' then "\\r".toList
  else if c = '\t' then "\\t".toList
  else if c.toNat = 12 then "\\f".toList
  else if c.toNat = 8 then "\\b".toList
  else if 0x20 ≤ c.toNat ∧ c.toNat ≤ 0x7E then [c]
  else if c.toNat < 0x10000 then '\\' :: 'u' :: hex4 c.toNat
  else
    let n := c.toNat - 0x10000
    '\\' :: 'u' :: (hex4 (0xD800 + n / 0x400) ++ '\\' :: 'u' :: hex4 (0xDC00 + n % 0x400))

/-- A JSON string literal. -/
def quote (s : Str) : Str := '"' :: (s.flatMap escChar ++ ['"'])

/-- Code point order of keys. -/
def keyLe (a b : String) : Bool := decide (a.toList ≤ b.toList)

/-- Insertion into a list sorted by key. -/
def insertKey (k : String) (v : PyVal) : Dict → Dict
  | [] => [(k, v)]
  | (k', v') :: d => if keyLe k k' then (k, v) :: (k', v') :: d else (k', v') :: insertKey k v d

mutual
/-- `sort_keys=True`, at every level. -/
def sortKeys : PyVal → PyVal
  | .list l => .list (sortList l)
  | .dict d => .dict (sortDict d)
  | .none => .none
  | .int i => .int i
  | .str s => .str s
  | .dt d => .dt d
/-- List elements. -/
def sortList : List PyVal → List PyVal
  | [] => []
  | v :: l => sortKeys v :: sortList l
/-- Dictionary entries. -/
def sortDict : List (String × PyVal) → List (String × PyVal)
  | [] => []
  | (k, v) :: d => insertKey k (sortKeys v) (sortDict d)
end

/-- Line break and indentation of a nesting level. -/
def newline (lvl : Nat) : Str := '\n' :: List.replicate (4 * lvl) ' '

mutual
/-- The encoder at a nesting level (keys in the order given). -/
def dump (lvl : Nat) : PyVal → Str
  | .none => "null".toList
  | .int i => decInt i
  | .str s => quote s
  | .dt d => quote d.isoSeconds
  | .list [] => "[]".toList
  | .list (v :: l) => '[' :: (newline (lvl + 1) ++ dump (lvl + 1) v ++ dumpList (lvl + 1) l ++ newline lvl ++ [']'])
  | .dict [] => "{}".toList
  | .dict ((k, v) :: d) =>
    '{' :: (newline (lvl + 1) ++ quote k.toList ++ ": ".toList ++ dump (lvl + 1) v ++ dumpDict (lvl + 1) d
      ++ newline lvl ++ ['}'])
/-- Further list elements. -/
def dumpList (lvl : Nat) : List PyVal → Str
  | [] => []
  | v :: l => ',' :: (newline lvl ++ dump lvl v ++ dumpList lvl l)
/-- Further dictionary entries. -/
def dumpDict (lvl : Nat) : List (String × PyVal) → Str
  | [] => []
  | (k, v) :: d => ',' :: (newline lvl ++ quote k.toList ++ ": ".toList ++ dump lvl v ++ dumpDict lvl d)
end

/-- The text printed by `print_json`, without the final line break `print` adds. -/
def dumps (v : PyVal) : Str := dump 0 (sortKeys v)

/-- `json.dumps({"shortcut_target": out})`. -/
def dumpsTarget (s : Str) : Str := '{' :: (quote "shortcut_target".toList ++ ": ".toList ++ quote s ++ ['}'])

end Json

end Verif
