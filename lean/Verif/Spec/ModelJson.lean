/-
Specification of the JSON form of models: which JSON value shows a value of a content.
-/
import Verif.Spec.Json
import Verif.Model.ModelParse
import Verif.Model.Decls
namespace Hwp.Spec

/-- Bytes as the characters with these codes. -/
def byteChars (b : Bytes) : List Nat := b.map UInt8.toNat

/-- The object of a control character. -/
def ctrlShown : CtrlChar → JValue
  | .plain code => .obj [(ascii "code", .num code 0)]
  | .tab code width u0 u1 u2 => .obj [(ascii "code", .num code 0), (ascii "param",
      .obj [(ascii "unknown0", .num u0 0), (ascii "unknown1", .num u1 0), (ascii "unknown2", .str (byteChars u2)),
        (ascii "width", .num width 0)])]
  | .other code chid param => .obj [(ascii "chid", .str (byteChars chid)), (ascii "code", .num code 0),
      (ascii "param", .str (byteChars param))]

/-- A part of a paragraph: its range of positions, and the text or the control character. -/
def chunkShown (c : Chunk) : JValue :=
  .arr [.arr [.num c.start 0, .num c.stop 0],
    match c.val with
    | .text s => .str (utf16 s)
    | .ctrl c => ctrlShown c]

/-- The value shows a leaf; `text` is the text of a floating point number. -/
inductive ShowsLeaf (text : Bytes → PyStr) : PVal → JValue → Prop
  | int (n : Int) : ShowsLeaf text (.int n) (.num n 0)
  | flags (f : FlagsDecl) (n : Nat) : ShowsLeaf text (.flags f n) (.num n 0)
  | str (s : PyStr) : ShowsLeaf text (.str s) (.str (utf16 s))
  | double (b : Bytes) (m e : Int) : readNumber (text b) = some (.num m e, []) → ShowsLeaf text (.double b) (.num m e)
  | hex (b : Bytes) (u : List Char) : undump u = some b → u.length = 2 * b.length →
      ShowsLeaf text (.hex b) (.str (u.map Char.toNat))
  | chid (b : Bytes) : ShowsLeaf text (.chid b) (.str (byteChars b))
  | chunks (cs : List Chunk) : ShowsLeaf text (.chunks cs) (.arr (cs.map chunkShown))
  | version (ns : List Nat) : ShowsLeaf text (.version ns) (.arr (ns.map fun (n : Nat) => .num n 0))

mutual
/-- The value shows a value of a content.  The members of an object may be in any order, but
none is there twice. -/
inductive ShowsValue (text : Bytes → PyStr) : Value PVal → JValue → Prop
  | leaf (p : PVal) (j : JValue) : ShowsLeaf text p j → ShowsValue text (.leaf p) j
  | list (xs : List (Value PVal)) (js : List JValue) : ShowsItems text xs js → ShowsValue text (.list xs) (.arr js)
  | tuple (xs : List (Value PVal)) (js : List JValue) : ShowsItems text xs js → ShowsValue text (.tuple xs) (.arr js)
  | struct (fs : List (String × Value PVal)) (ms ms' : List (List Nat × JValue)) : ShowsMembers text fs ms' →
      ms.Perm ms' → (ms.map Prod.fst).Nodup → ShowsValue text (.struct fs) (.obj ms)
/-- Items, one after the other. -/
inductive ShowsItems (text : Bytes → PyStr) : List (Value PVal) → List JValue → Prop
  | nil : ShowsItems text [] []
  | cons (x : Value PVal) (j : JValue) (xs : List (Value PVal)) (js : List JValue) :
      ShowsValue text x j → ShowsItems text xs js → ShowsItems text (x :: xs) (j :: js)
/-- Members, one after the other. -/
inductive ShowsMembers (text : Bytes → PyStr) : List (String × Value PVal) → List (List Nat × JValue) → Prop
  | nil : ShowsMembers text [] []
  | cons (k : String) (x : Value PVal) (j : JValue) (xs : List (String × Value PVal)) (js : List (List Nat × JValue)) :
      ShowsValue text x j → ShowsMembers text xs js → ShowsMembers text ((k, x) :: xs) ((utf16 (lit k), j) :: js)
end

mutual
/-- The floating point numbers in a value. -/
def doubles : Value PVal → List Bytes
  | .leaf (.double b) => [b]
  | .leaf _ => []
  | .list xs => doublesItems xs
  | .tuple xs => doublesItems xs
  | .struct fs => doublesMembers fs
/-- Those in items. -/
def doublesItems : List (Value PVal) → List Bytes
  | [] => []
  | x :: xs => doubles x ++ doublesItems xs
/-- Those in members. -/
def doublesMembers : List (String × Value PVal) → List Bytes
  | [] => []
  | (_, x) :: xs => doubles x ++ doublesMembers xs
end

/-- IEEE 754: the exponent field of the number with these bytes (least significant first) is not
all ones. -/
def Finite (b : Bytes) : Prop := leNat b / 2 ^ 52 % 2 ^ 11 ≠ 2 ^ 11 - 1

/-- `float.__repr__` writes finite numbers as JSON numbers. -/
def NumberText (text : Bytes → PyStr) : Prop :=
  ∀ b : Bytes, b.length = 8 → Finite b → ∃ m e, readNumber (text b) = some (.num m e, [])

/-- The lines of a dump of the bytes. -/
def DumpShown (j : JValue) (b : Bytes) : Prop :=
  ∃ lines : List (List Char), j = .arr (lines.map fun l => .str (l.map Char.toNat)) ∧
    undump (['\n'].intercalate lines) = some b

/-- The object shows a model: record, type, content, and what was not parsed (no member if
everything was). -/
def ShowsModel (text : Bytes → PyStr) (j : JValue) (m : PModel (List (String × Value PVal))) : Prop :=
  ∃ content payload name extra, ShowsValue text (.struct m.content) content ∧ DumpShown payload m.record.payload ∧
    TagName m.record.tagid name ∧
    (match m.unparsed with
    | none => extra = []
    | some u => ∃ d, extra = [(ascii "unparsed", d)] ∧ DumpShown d u) ∧
    j = .obj ([(ascii "content", content), (ascii "level", .num m.record.level 0), (ascii "payload", payload),
      (ascii "seqno", .num m.record.seqno 0), (ascii "size", .num m.record.size 0), (ascii "tagid", .num m.record.tagid 0),
      (ascii "tagname", .str name), (ascii "type", .str (utf16 (lit m.type)))] ++ extra)

end Hwp.Spec
