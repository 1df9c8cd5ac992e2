/-
Model of the command `hwp5proc records` (/repo/src/hwp5/proc/records.py) and of the names
of record tags (/repo/src/hwp5/tagids.py, /repo/src/hwp5/recordstream.py:36-37).
-/
import Verif.Model.Grouping
import Verif.Model.Filestructure
import Verif.Model.XmlFormat
namespace Hwp

/-! ### Names of tags -/

/-- tagids.py:24-76 `tagnames`. -/
def tagnames : List (Nat × String) :=
  [(16, "HWPTAG_DOCUMENT_PROPERTIES"), (17, "HWPTAG_ID_MAPPINGS"), (18, "HWPTAG_BIN_DATA"),
   (19, "HWPTAG_FACE_NAME"), (20, "HWPTAG_BORDER_FILL"), (21, "HWPTAG_CHAR_SHAPE"),
   (22, "HWPTAG_TAB_DEF"), (23, "HWPTAG_NUMBERING"), (24, "HWPTAG_BULLET"),
   (25, "HWPTAG_PARA_SHAPE"), (26, "HWPTAG_STYLE"), (27, "HWPTAG_DOC_DATA"),
   (28, "HWPTAG_DISTRIBUTE_DOC_DATA"), (30, "HWPTAG_COMPATIBLE_DOCUMENT"),
   (31, "HWPTAG_LAYOUT_COMPATIBILITY"), (32, "HWPTAG_BEGIN_PLUS_16"),
   (66, "HWPTAG_PARA_HEADER"), (67, "HWPTAG_PARA_TEXT"), (68, "HWPTAG_PARA_CHAR_SHAPE"),
   (69, "HWPTAG_PARA_LINE_SEG"), (70, "HWPTAG_PARA_RANGE_TAG"), (71, "HWPTAG_CTRL_HEADER"),
   (72, "HWPTAG_LIST_HEADER"), (73, "HWPTAG_PAGE_DEF"), (74, "HWPTAG_FOOTNOTE_SHAPE"),
   (75, "HWPTAG_PAGE_BORDER_FILL"), (76, "HWPTAG_SHAPE_COMPONENT"), (77, "HWPTAG_TABLE"),
   (78, "HWPTAG_SHAPE_COMPONENT_LINE"), (79, "HWPTAG_SHAPE_COMPONENT_RECTANGLE"),
   (80, "HWPTAG_SHAPE_COMPONENT_ELLIPSE"), (81, "HWPTAG_SHAPE_COMPONENT_ARC"),
   (82, "HWPTAG_SHAPE_COMPONENT_POLYGON"), (83, "HWPTAG_SHAPE_COMPONENT_CURVE"),
   (84, "HWPTAG_SHAPE_COMPONENT_OLE"), (85, "HWPTAG_SHAPE_COMPONENT_PICTURE"),
   (86, "HWPTAG_SHAPE_COMPONENT_CONTAINER"), (87, "HWPTAG_CTRL_DATA"), (88, "HWPTAG_CTRL_EQEDIT"),
   (90, "HWPTAG_SHAPE_COMPONENT_TEXTART"), (91, "HWPTAG_FORM_OBJECT"), (92, "HWPTAG_MEMO_SHAPE"),
   (93, "HWPTAG_MEMO_LIST"), (94, "HWPTAG_FORBIDDEN_CHAR"), (95, "HWPTAG_CHART_DATA"),
   (115, "HWPTAG_SHAPE_COMPONENT_UNKNOWN")]

/-- recordstream.py:36-37 `tagname`: `'HWPTAG%d' % (tagid - 16)` for tags outside the table. -/
def tagname (t : Nat) : PyStr :=
  match tagnames.lookup t with
  | some n => lit n
  | none => lit "HWPTAG" ++ intStr ((t : Int) - 16)

/-! ### Which records -/

/-- `s.split('-', 1)`. -/
def splitDash (s : PyStr) : List PyStr :=
  match s.dropWhile (· != 0x2d) with
  | [] => [s]
  | _ :: rest => [s.takeWhile (· != 0x2d), rest]

/-- `int(x)`, with the exception. -/
def intArg (s : PyStr) : Except PyErr Int :=
  match pyInt s with
  | some n => .ok n
  | none => .error .valueError

/-- proc/records.py:54-60: the value of `--range`.  An absent or empty option sets nothing. -/
def parseRange : Option PyStr → Except PyErr (Option (Int × Int))
  | none => .ok none
  | some [] => .ok none
  | some s => do
    let ns ← (splitDash s).mapM intArg
    match ns with
    | [n] => return some (n, n + 1)
    | n :: m :: _ => return some (n, m)
    | [] => .error .indexError

/-- proc/records.py:61-63: the value of `--treegroup`. -/
def parseTreegroup : Option PyStr → Except PyErr (Option Int)
  | none => .ok none
  | some s => do return some (← intArg s)

/-- `sys.maxsize` of a 64-bit Python. -/
def sysMaxsize : Nat := 9223372036854775807

/-- An argument of `itertools.islice`: negative numbers and numbers above `sys.maxsize` are a `ValueError` when the `islice` object is made. -/
def isliceArg (n : Int) : Except PyErr Nat :=
  if 0 ≤ n ∧ n.toNat ≤ sysMaxsize then .ok n.toNat else .error .valueError

/-- proc/records.py:53-63 and recordstream.py:156-164: the records of the stream `s` the
command iterates over.  A tree group that does not exist is `None`, and iterating over that
is a `TypeError`. -/
def selectRecords (range treegroup : Option PyStr) (s : Bytes) : Gen Record :=
  let opts : Except PyErr (Gen Record) := do
    let rng ← parseRange range
    let tg ← parseTreegroup treegroup
    match rng, tg with
    | some (a, b), _ => do
      let a ← isliceArg a
      let b ← isliceArg b
      return recordsRange s a b
    | none, some n => do
      let n ← isliceArg n
      match ← recordsTreegroup s n with
      | none => .error .typeError
      | some rs => return .ofList rs
    | none, none => return readRecords s
  match opts with
  | .error e => .raise e
  | .ok g => g

/-! ### What is written for them -/

/-- A loop over `records` whose body writes something for each record: what is written,
up to the first exception of the body or of the iterator. -/
def writeEach {α β} (f : α → Except PyErr (List β)) (err : Option PyErr) : List α → Gen β
  | [] => ⟨[], err⟩
  | r :: rs =>
    match f r with
    | .error e => .raise e
    | .ok cs => .prepend cs (writeEach f err rs)

/-- `'{:04d}'.format(n)`. -/
def pad4 (n : Nat) : PyStr := List.replicate (4 - (natStr n).length) 0x30 ++ natStr n

/-- proc/records.py:66-71: one line of `--simple`. -/
def simpleLine (r : Record) : PyStr :=
  pad4 r.seqno ++ [0x20] ++ List.replicate (2 * r.level) 0x20 ++ [0x20] ++ tagname r.tagid ++ [0x0a]

/-- proc/records.py:65-71 `--simple`: the text written. -/
def recordsSimple (g : Gen Record) : Gen Nat :=
  writeEach (fun r => .ok (simpleLine r)) g.err g.out

/-- proc/records.py:72-74 `--raw`: the bytes written. -/
def recordsRaw (g : Gen Record) : Gen UInt8 := writeEach dumpRecord g.err g.out

/-- proc/records.py:75-78 `--raw-header`. -/
def recordsRawHeader (g : Gen Record) : Gen UInt8 :=
  writeEach (fun r => encodeRecordHeader r.tagid r.level r.payload.length) g.err g.out

/-- proc/records.py:79-81 `--raw-payload`. -/
def recordsRawPayload (g : Gen Record) : Gen UInt8 :=
  writeEach (fun r => .ok r.payload) g.err g.out

end Hwp
