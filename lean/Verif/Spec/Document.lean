/-
Specification of what an XML document of a file consists of.
-/
import Verif.Model.Document
import Verif.Spec.Pipeline
import Verif.Spec.DeclReader
namespace Hwp.Spec

/-- An item that can come out of the passes over the records `I` of a section: a record that
is not a text record, possibly with changed attributes; a line of one of the
`ParaLineSeg` records or a dummy one; text, a known control character, a column set or a
table row. -/
def Derived (I : List Item) : Item → Prop
  | .paraText _ _ | .paraCharShape _ _ | .paraLineSeg _ _ | .paraRangeTag _ => False
  | .lineSeg (some t, k) => ∃ ls, .paraLineSeg ls t ∈ I ∧ k < ls.length
  | .lineSeg (none, _) => True
  | .text _ _ _ => True
  | .controlChar code kind _ => kindOf code = some kind
  | .columnSet => True
  | .tableRow => True
  | .sectionDef _ t => ∃ i, .sectionDef i t ∈ I
  | .tableBody _ t => ∃ r, .tableBody r t ∈ I
  | a => a ∈ I

/-- The id attribute that elements of this name get. -/
def idNameOf (model : String) : Option String :=
  match model with
  | "Paragraph" => some "paragraph_id"
  | "TableControl" => some "table_id"
  | "GShapeObjectControl" => some "gshape_id"
  | "ShapeComponent" => some "shape_id"
  | _ => none

/-! ### Trees of a document -/

/-- The forest with `f` applied to every item. -/
def _root_.Hwp.Forest.map {α β} (f : α → β) : Forest α → Forest β
  | .nil => .nil
  | .node a cs sibs => .node (f a) (cs.map f) (sibs.map f)

/-- The record stream `s` can be read, and the levels of its records, the first of which is 0,
are the depths of the models in `f`; every model comes with its number. -/
structure StreamTree (rd : ModelReader Fields) (s : Bytes) (f : Forest (Nat × PModel Fields)) : Prop where
  records : (readRecords s).err = none
  first : ∀ r, (readRecords s).out[0]? = some r → r.level = 0
  models : (streamModels rd s).err = none
  depths : startDepths 0 (eventsOf f) = (streamModels rd s).out.mapIdx fun i m => (m.record.level, i, m)

/-- An element with the events of its content. -/
def element {α} (m : α) (es : List (Ev α)) : List (Ev α) := .start m :: (es ++ [.stop m])

/-- The elements with `f` applied at their start. -/
def atStarts {α} (f : α → α) : List (Ev α) → List (Ev α)
  | [] => []
  | .start m :: es => .start (f m) :: atStarts f es
  | .stop m :: es => .stop m :: atStarts f es

/-- How many elements with this name start. -/
def countModel (model : String) : List (Ev ModelItem) → Nat
  | [] => 0
  | .start m :: es => (if m.model = model then 1 else 0) + countModel model es
  | .stop _ :: es => countModel model es

/-- An element behind the events `pre` with its id: the number of elements with its name
before it. -/
def withId (pre : List (Ev ModelItem)) (m : ModelItem) : ModelItem :=
  match idNameOf m.model with
  | none => m
  | some k => { m with attributes := m.attributes ++ [(k, .leaf (.int (countModel m.model pre)))] }

/-- The events with ids, after the events `pre`. -/
def numberedFrom (pre : List (Ev ModelItem)) : List (Ev ModelItem) → List (Ev ModelItem)
  | [] => []
  | .start m :: es => .start (withId pre m) :: numberedFrom (pre ++ [.start m]) es
  | .stop m :: es => .stop m :: numberedFrom (pre ++ [.stop m]) es

/-- The events with ids. -/
def numbered (es : List (Ev ModelItem)) : List (Ev ModelItem) := numberedFrom [] es

/-! ### Embedded data -/

/-- The name of the stream with the data of an embedded `BinData` record. -/
def binaryName (id : Int) (ext : PyStr) : PyStr := lit "BIN" ++ upperHex 4 id.toNat ++ lit "." ++ ext

/-- A `BinData` record whose data are in a stream of the file (storage kind 1) gets them as
text; everything else stays. -/
def withData (bindata : List (PyStr × Bytes)) (m : ModelItem) : ModelItem :=
  match m.attributes with
  | [(k1, .leaf (.flags f n)), (k2, .struct [(k3, .leaf (.int id)), (k4, .leaf (.str ext))])] =>
    if m.model = "BinData" ∧ n % 16 = 1 then
      { m with attributes := [(k1, .leaf (.flags f n)), (k2, .struct [(k3, .leaf (.int id)), (k4, .leaf (.str ext)),
          ("<text>", .leaf (.str (chars (embedText ((bindata.lookup (binaryName id ext)).getD []))))),
          ("inline", .leaf (.str (lit "true")))])] }
    else m
  | _ => m

/-- The data of the embedded `BinData` records are there. -/
def DataThere (bindata : List (PyStr × Bytes)) (content : Fields) : Prop :=
  ∀ f n id ext, content = [("flags", .leaf (.flags f n)),
      ("bindata", .struct [("storage_id", .leaf (.int id)), ("ext", .leaf (.str ext))])] → n % 16 = 1 →
    (bindata.lookup (binaryName id ext)).isSome

/-! ### Summary information -/

/-- Lower case hexadecimal digits, at least `w`. -/
def lowerHex (w : Nat) (n : Nat) : PyStr := ((Nat.toDigits 16 n).leftpad w '0').map Char.toNat

/-- The usual text of a class id: the first three groups of its bytes are little endian. -/
def guidText (b : List Nat) : PyStr :=
  let hex (is : List Nat) : PyStr := is.flatMap fun i => lowerHex 2 (b.getD i 0)
  hex [3, 2, 1, 0] ++ lit "-" ++ hex [5, 4] ++ lit "-" ++ hex [7, 6] ++ lit "-" ++ hex [8, 9] ++ lit "-" ++
    hex [10, 11, 12, 13, 14, 15]

/-- Type of a property value, as shown. -/
def typeAttrs : PropValue → Fields
  | .i4 _ => [("type", .leaf (.str (lit "VT_I4"))), ("type_code", .leaf (.str (lit "0x0003")))]
  | .lpwstr _ => [("type", .leaf (.str (lit "VT_LPWSTR"))), ("type_code", .leaf (.str (lit "0x001f")))]
  | .filetime _ => [("type", .leaf (.str (lit "VT_FILETIME"))), ("type_code", .leaf (.str (lit "0x0040")))]
  | .dictionary _ => []

/-- The value of a property, as shown. -/
def valueAttrs (filetime : Nat → PyStr) : PropValue → Fields
  | .i4 n => [("value", .leaf (.int n))]
  | .lpwstr s => [("value", .leaf (.str s))]
  | .filetime n => [("value", .leaf (.str (filetime n)))]
  | .dictionary _ => []

/-- The label of a property, as shown. -/
def labelAttrs : Option String → Fields
  | some l => [("id_label", .leaf (.str (lit l)))]
  | none => []

/-- The entries of a dictionary, each an element. -/
def entryElements : PropValue → List (Ev ModelItem)
  | .dictionary es => es.flatMap fun e =>
      element ⟨"DictionaryEntry", [("id", .leaf (.int e.1)), ("name", .leaf (.str e.2))], ⟨none, none⟩⟩ []
  | _ => []

/-- The element of a property. -/
def propertyElement (filetime : Nat → PyStr) (p : PropObj) : List (Ev ModelItem) :=
  element ⟨"Property", [("id", .leaf (.int p.id)), ("offset", .leaf (.int p.offset))] ++
      labelAttrs p.label ++ typeAttrs p.value ++ valueAttrs filetime p.value, ⟨none, none⟩⟩
    (entryElements p.value)

/-- `sorted` are the properties in the order of their offsets; those with the same offset are in the
order in which they were read. -/
def InOffsetOrder (ps sorted : List PropObj) : Prop :=
  sorted.Perm ps ∧ sorted.Pairwise (fun p q => p.offset ≤ q.offset) ∧
  ∀ o, sorted.filter (fun p => p.offset = o) = ps.filter (fun p => p.offset = o)

/-- The element of a property set. -/
def setElement (filetime : Nat → PyStr) (s : PropSetObj) (sorted : List PropObj) : List (Ev ModelItem) :=
  element ⟨"PropertySet", [("fmtid", .leaf (.str (guidText s.fmtid))), ("offset", .leaf (.int s.offset))], ⟨none, none⟩⟩
    (sorted.flatMap (propertyElement filetime))

/-- The element of the summary information with the elements of its property sets. -/
def summaryElement (s : PropStreamObj) (sets : List (Ev ModelItem)) : List (Ev ModelItem) :=
  element ⟨"HwpSummaryInfo", [], ⟨none, none⟩⟩
    (element ⟨"PropertySetStream", [("byte_order", .leaf (.str (lowerHex 4 s.byteOrder))),
      ("version", .leaf (.str (decimal s.version))),
      ("system_identifier", .leaf (.str (lowerHex 8 s.systemIdentifier))),
      ("clsid", .leaf (.str (guidText s.clsid)))], ⟨none, none⟩⟩ sets)

/-- The labels of the properties of the summary format, by id. -/
def summaryLabels : List (Nat × String) :=
  [(0, "PID_DICTIONARY"),
   (1, "PID_CODEPAGE"),
   (2, "PIDSI_TITLE"),
   (3, "PIDSI_SUBJECT"),
   (4, "PIDSI_AUTHOR"),
   (5, "PIDSI_KEYWORDS"),
   (6, "PIDSI_COMMENTS"),
   (7, "PIDSI_TEMPLATE"),
   (8, "PIDSI_LASTAUTHOR"),
   (9, "PIDSI_REVNUMBER"),
   (10, "PIDSI_EDITTIME"),
   (11, "PIDSI_LASTPRINTED"),
   (12, "PIDSI_CREATE_DTM"),
   (13, "PIDSI_LASTSAVE_DTM"),
   (14, "PIDSI_PAGECOUNT"),
   (15, "PIDSI_WORDCOUNT"),
   (16, "PIDSI_CHARCOUNT"),
   (17, "PIDSI_THUMBNAIL"),
   (18, "PIDSI_APPNAME"),
   (19, "PIDSI_SECURITY"),
   (20, "HWPPIDSI_DATE_STR"),
   (21, "HWPPIDSI_PARACOUNT"),
   (2147483648, "PID_LOCALE"),
   (2147483651, "PID_BEHAVIOR")]

/-! ### Documents -/

/-- The models of a stream are as they can be in this place and can be shown: a `BinData` record
has its contents. -/
def BinDataOk (ms : List (PModel Fields)) : Prop :=
  ∀ m ∈ ms, m.type = "BinData" → "bindata" ∈ m.content.map (·.1)

/-- A document that can be converted: its streams can be read, records in `DocInfo` are not
those of a paragraph, the sections are proper, embedded data are there. -/
structure ProperDocument (rd : ModelReader Fields) (d : DocSource) : Prop where
  version : d.version.length = 4
  summary : ∃ data, readStreamObj data = .ok d.summary
  docinfo : ∃ f, StreamTree rd d.docinfo f
  docinfoTypes : ∀ m ∈ (streamModels rd d.docinfo).out, m.type ∉ paragraphParts
  docinfoData : BinDataOk (streamModels rd d.docinfo).out
  embedded : ∀ bd, d.bindata = some bd → ∀ m ∈ (streamModels rd d.docinfo).out, m.type = "BinData" →
    DataThere bd m.content
  sections : ∀ s ∈ d.sections, ∃ f, StreamTree rd s.2 f ∧ ProperSection (f.map fun p => itemOf p.1 p.2)
  sectionData : ∀ s ∈ d.sections, BinDataOk (streamModels rd s.2).out

/-- `b` is what becomes of the section number `idx` with the tree `f` of models: one element with
the number of the section; no element and no text is lost or made up, and no text is outside of
paragraphs. -/
def SectionBody (idx : Nat) (f : Forest (Nat × PModel Fields)) (b : Forest Item) : Prop :=
  ∃ i t g, b = .node (.sectionDef (some idx) t) g .nil ∧
    .sectionDef i t ∈ allItems (f.map fun p => itemOf p.1 p.2) ∧
    ((starts (eventsOf b)).flatMap keptItem).Perm ((allItems (f.map fun p => itemOf p.1 p.2)).flatMap keptItem) ∧
    ((starts (eventsOf b)).flatMap textItem).Perm (documentText (f.map fun p => itemOf p.1 p.2)) ∧
    (paragraphTexts g).Perm (recordTexts (f.map fun p => itemOf p.1 p.2)) ∧ ownText g = []

/-- The element of a whole document without ids: summary information, `DocInfo`, and `BodyText` with the sections. -/
def documentElement (version : Version) (summary docinfo sections : List (Ev ModelItem)) : List (Ev ModelItem) :=
  element ⟨"HwpDoc", [("version", .leaf (.version version))], ⟨none, none⟩⟩
    (summary ++ element ⟨"DocInfo", [], ⟨none, none⟩⟩ docinfo ++ element ⟨"BodyText", [], ⟨none, none⟩⟩ sections)

/-- The events of `DocInfo` with the tree `f` of models. -/
def docinfoEvs (d : DocSource) (f : Forest (Nat × PModel Fields)) : List (Ev ModelItem) :=
  let es := eventsOf (f.map fun p => (⟨p.2.type, p.2.content, ⟨some d.version, none⟩⟩ : ModelItem))
  match d.bindata with
  | none => es
  | some bd => atStarts (withData bd) es

end Hwp.Spec
