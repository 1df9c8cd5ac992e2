/-
Model of `json.dumps(value, sort_keys=True, indent=2)` (CPython's json/encoder.py) and of the
JSON output of /repo/src/hwp5/recordstream.py.
-/
import Verif.Model.Commands
import Verif.Model.Utils
namespace Hwp

/-- Values that are given to the encoder.  A float is kept as its text
(`float.__repr__`, `NaN`, `Infinity` or `-Infinity`). -/
inductive Json where
  | null
  | bool (b : Bool)
  | int (n : Int)
  | float (text : PyStr)
  | str (s : PyStr)
  | arr (xs : List Json)
  | obj (fs : List (PyStr × Json))

/-- A lower case hexadecimal digit. -/
def jsonHexDigit (d : Nat) : Nat := if d < 10 then 0x30 + d else 0x61 + (d - 10)

/-- `'\\u{0:04x}'.format(n)` for `n < 0x10000`. -/
def jsonEscapeU (n : Nat) : PyStr :=
  [0x5c, 0x75, jsonHexDigit (n / 4096 % 16), jsonHexDigit (n / 256 % 16), jsonHexDigit (n / 16 % 16), jsonHexDigit (n % 16)]

/-- json/encoder.py:41-61 `py_encode_basestring_ascii`: one character. -/
def jsonChar (c : Nat) : PyStr :=
  if c = 0x5c then lit "\\\\"
  else if c = 0x22 then lit "\\\""
  else if c = 0x08 then lit "\\b"
  else if c = 0x0c then lit "\\f"
  else if c = 0x0a then lit "\\n"
  else if c = 0x0d then lit "\\r"
  else if c = 0x09 then lit "\\t"
  else if 0x20 ≤ c ∧ c ≤ 0x7e then [c]
  else if c < 0x10000 then jsonEscapeU c
  else
    let v := c - 0x10000
    jsonEscapeU (0xd800 + v / 1024 % 1024) ++ jsonEscapeU (0xdc00 + v % 1024)

/-- json/encoder.py:41-61: a string in quotation marks. -/
def jsonString (s : PyStr) : PyStr := [0x22] ++ s.flatMap jsonChar ++ [0x22]

/-- `'\n' + ' ' * (2 * level)`. -/
def jsonNewline (level : Nat) : PyStr := 0x0a :: List.replicate (2 * level) 0x20

/-- `a < b` for strings. -/
def strLt : PyStr → PyStr → Bool
  | _, [] => false
  | [], _ :: _ => true
  | a :: as, b :: bs => if a < b then true else if b < a then false else strLt as bs

/-- Insert an item of a dict into the sorted items. -/
def insertKey {α} (k : PyStr) (v : α) : List (PyStr × α) → List (PyStr × α)
  | [] => [(k, v)]
  | (k', v') :: fs => if strLt k' k then (k', v') :: insertKey k v fs else (k, v) :: (k', v') :: fs

/-- `sorted(dct.items())` (the keys of a dict are distinct). -/
def sortKeys {α} : List (PyStr × α) → List (PyStr × α)
  | [] => []
  | (k, v) :: fs => insertKey k v (sortKeys fs)

mutual
/-- json/encoder.py:273-443: a value at an indentation level. -/
def jsonDumps (level : Nat) : Json → PyStr
  | .null => lit "null"
  | .bool b => if b then lit "true" else lit "false"
  | .int n => intStr n
  | .float t => t
  | .str s => jsonString s
  | .arr [] => lit "[]"
  | .arr (x :: xs) =>
    [0x5b] ++ jsonNewline (level + 1) ++ jsonDumps (level + 1) x ++ jsonItems (level + 1) xs ++
      jsonNewline level ++ [0x5d]
  | .obj [] => lit "{}"
  | .obj ((k, v) :: fs) =>
    [0x7b] ++ jsonNewline (level + 1) ++ jsonString k ++ lit ": " ++ jsonDumps (level + 1) v ++
      jsonFields (level + 1) fs ++ jsonNewline level ++ [0x7d]
/-- The items of a list behind the first. -/
def jsonItems (level : Nat) : List Json → PyStr
  | [] => []
  | x :: xs => [0x2c] ++ jsonNewline level ++ jsonDumps level x ++ jsonItems level xs
/-- The items of a dict behind the first. -/
def jsonFields (level : Nat) : List (PyStr × Json) → PyStr
  | [] => []
  | (k, v) :: fs =>
    [0x2c] ++ jsonNewline level ++ jsonString k ++ lit ": " ++ jsonDumps level v ++ jsonFields level fs
end

/-- recordstream.py:40-47, 115-118: the dict of a record, the payload as the lines of its dump. -/
def recordDict (r : Record) : List (PyStr × Json) :=
  [(lit "tagid", .int r.tagid), (lit "tagname", .str (tagname r.tagid)), (lit "level", .int r.level),
   (lit "size", .int r.size),
   (lit "payload", .arr ((dumpbytes false r.payload).map fun l => .str (l.map Char.toNat))),
   (lit "seqno", .int r.seqno)]

/-- recordstream.py:115-118 `record_to_json`. -/
def recordToJson (r : Record) : PyStr := jsonDumps 0 (.obj (sortKeys (recordDict r)))

/-- utils.py:64-98 `JsonObjects(objects, to_json).dump(f)`: the texts written.  Without an
exception the closing bracket follows. -/
def jsonObjects {α} (toJson : α → PyStr) (g : Gen α) : Gen PyStr :=
  match g.err with
  | none => .ofList (generateJsonArray (g.out.map toJson))
  | some e => ⟨(generateJsonArray (g.out.map toJson)).dropLast, some e⟩

/-- recordstream.py:170-172, proc/records.py:82-83: the JSON output of `records`. -/
def recordsJson (g : Gen Record) : Gen PyStr := jsonObjects recordToJson g

end Hwp
