/-
A reader of JSON texts after RFC 8259, independent of the encoder.
-/
import Verif.Model.Xml
import Verif.Spec.Dataio
import Verif.Spec.Commands
namespace Hwp.Spec

/-- What a JSON text stands for.  Strings are UTF-16 code units (that is what the escapes
denote), a number is `m · 10 ^ e`, an object has its members in the order of the text. -/
inductive JValue where
  | null
  | bool (b : Bool)
  | num (m e : Int)
  | str (units : List Nat)
  | arr (xs : List JValue)
  | obj (fs : List (List Nat × JValue))

/-- The UTF-16 code units of a string of code points. -/
def utf16 (s : PyStr) : List Nat :=
  s.flatMap fun c => if c < 0x10000 then [c] else [0xd800 + (c - 0x10000) / 1024, 0xdc00 + (c - 0x10000) % 1024]

/-- Section 2: white space is skipped. -/
def skipSpace : PyStr → PyStr
  | 0x20 :: s => skipSpace s
  | 0x09 :: s => skipSpace s
  | 0x0a :: s => skipSpace s
  | 0x0d :: s => skipSpace s
  | s => s

/-- A hexadecimal digit of an escape. -/
def hexValue (c : Nat) : Option Nat :=
  if 0x30 ≤ c ∧ c ≤ 0x39 then some (c - 0x30)
  else if 0x61 ≤ c ∧ c ≤ 0x66 then some (c - 0x61 + 10)
  else if 0x41 ≤ c ∧ c ≤ 0x46 then some (c - 0x41 + 10)
  else none

/-- Section 7: the characters of a string behind the opening quotation mark. -/
def readChars : PyStr → Option (List Nat × PyStr)
  | [] => none
  | 0x22 :: s => some ([], s)
  | 0x5c :: 0x75 :: a :: b :: c :: d :: s => do
    let a ← hexValue a
    let b ← hexValue b
    let c ← hexValue c
    let d ← hexValue d
    let (u, s) ← readChars s
    return ((a * 4096 + b * 256 + c * 16 + d) :: u, s)
  | 0x5c :: e :: s => do
    let c ← [(0x22, 0x22), (0x5c, 0x5c), (0x2f, 0x2f), (0x62, 0x08), (0x66, 0x0c), (0x6e, 0x0a), (0x72, 0x0d),
      (0x74, 0x09)].lookup e
    let (u, s) ← readChars s
    return (c :: u, s)
  | c :: s =>
    if c < 0x20 ∨ c = 0x5c then none
    else do
      let (u, s) ← readChars s
      return (utf16 [c] ++ u, s)

/-- The digits at the beginning of a text. -/
def readDigits : PyStr → List Nat × PyStr
  | [] => ([], [])
  | c :: s => if 0x30 ≤ c ∧ c ≤ 0x39 then ((c - 0x30) :: (readDigits s).1, (readDigits s).2) else ([], c :: s)

/-- The number with the given digits. -/
def digitsValue (ds : List Nat) : Nat := ds.foldl (fun n d => 10 * n + d) 0

/-- Section 6: the optional fraction; its digits. -/
def readFraction : PyStr → Option (List Nat × PyStr)
  | 0x2e :: s => if (readDigits s).1 = [] then none else some (readDigits s)
  | s => some ([], s)

/-- Section 6: the digits of an exponent. -/
def readExpDigits (s : PyStr) : Option (Nat × PyStr) :=
  if (readDigits s).1 = [] then none else some (digitsValue (readDigits s).1, (readDigits s).2)

/-- Section 6: the optional exponent. -/
def readExponent (s : PyStr) : Option (Int × PyStr) :=
  match s with
  | c :: 0x2b :: s => if c = 0x65 ∨ c = 0x45 then (readExpDigits s).map fun (n, s) => ((n : Int), s) else some (0, c :: 0x2b :: s)
  | c :: 0x2d :: s => if c = 0x65 ∨ c = 0x45 then (readExpDigits s).map fun (n, s) => (-(n : Int), s) else some (0, c :: 0x2d :: s)
  | c :: s => if c = 0x65 ∨ c = 0x45 then (readExpDigits s).map fun (n, s) => ((n : Int), s) else some (0, c :: s)
  | [] => some (0, [])

/-- Section 6: a number without a sign: no superfluous zeros at the front. -/
def readUnsigned (s : PyStr) : Option ((Nat × Int) × PyStr) := do
  let (ip, s) := readDigits s
  if ip = [] ∨ (ip.head? = some 0 ∧ ip.length ≠ 1) then none
  else
    let (fr, s) ← readFraction s
    let (e, s) ← readExponent s
    return ((digitsValue (ip ++ fr), e - fr.length), s)

/-- Section 6. -/
def readNumber : PyStr → Option (JValue × PyStr)
  | 0x2d :: s => (readUnsigned s).map fun ((m, e), s) => (.num (-(m : Int)) e, s)
  | s => (readUnsigned s).map fun ((m, e), s) => (.num m e, s)

mutual
/-- Section 3: a value, possibly behind white space, and the rest of the text.  The first
argument bounds the depth of the recursion. -/
def readValue : Nat → PyStr → Option (JValue × PyStr)
  | 0, _ => none
  | fuel + 1, s =>
    match skipSpace s with
    | 0x22 :: s => (readChars s).map fun (u, s) => (.str u, s)
    | 0x5b :: s =>
      match skipSpace s with
      | 0x5d :: s => some (.arr [], s)
      | _ => (readArray fuel s).map fun (xs, s) => (.arr xs, s)
    | 0x7b :: s =>
      match skipSpace s with
      | 0x7d :: s => some (.obj [], s)
      | _ => (readObject fuel s).map fun (fs, s) => (.obj fs, s)
    | 0x6e :: 0x75 :: 0x6c :: 0x6c :: s => some (.null, s)
    | 0x74 :: 0x72 :: 0x75 :: 0x65 :: s => some (.bool true, s)
    | 0x66 :: 0x61 :: 0x6c :: 0x73 :: 0x65 :: s => some (.bool false, s)
    | s => readNumber s
/-- Section 5: the values of an array up to the closing bracket. -/
def readArray : Nat → PyStr → Option (List JValue × PyStr)
  | 0, _ => none
  | fuel + 1, s => do
    let (x, s) ← readValue fuel s
    match skipSpace s with
    | 0x5d :: s => return ([x], s)
    | 0x2c :: s => do
      let (xs, s) ← readArray fuel s
      return (x :: xs, s)
    | _ => none
/-- Section 4: the members of an object up to the closing brace. -/
def readObject : Nat → PyStr → Option (List (List Nat × JValue) × PyStr)
  | 0, _ => none
  | fuel + 1, s =>
    match skipSpace s with
    | 0x22 :: s => do
      let (k, s) ← readChars s
      match skipSpace s with
      | 0x3a :: s => do
        let (x, s) ← readValue fuel s
        match skipSpace s with
        | 0x7d :: s => return ([(k, x)], s)
        | 0x2c :: s => do
          let (fs, s) ← readObject fuel s
          return ((k, x) :: fs, s)
        | _ => none
      | _ => none
    | _ => none
end

/-- The value of a JSON text: a value, with white space around it and nothing else. -/
def readJson (s : PyStr) : Option JValue :=
  match readValue (s.length + 1) s with
  | some (v, rest) => if skipSpace rest = [] then some v else none
  | none => none

/-- A string of ASCII characters. -/
def ascii (s : String) : List Nat := s.toList.map Char.toNat

/-- The object shows a record: its numbers, the name of its tag, and its payload as lines of a
hexadecimal dump.  The members are in alphabetical order, so none is there twice. -/
def ShowsRecord (v : JValue) (tagid level size seqno : Nat) (payload : Bytes) : Prop :=
  ∃ (lines : List (List Char)) (name : PyStr),
    v = .obj [(ascii "level", .num level 0), (ascii "payload", .arr (lines.map fun l => .str (l.map Char.toNat))),
      (ascii "seqno", .num seqno 0), (ascii "size", .num size 0), (ascii "tagid", .num tagid 0),
      (ascii "tagname", .str name)] ∧
    TagName tagid name ∧ undump (['\n'].intercalate lines) = some payload

end Hwp.Spec
