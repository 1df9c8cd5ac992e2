/-
Model of `parse_models`, /repo/src/hwp5/binmodel/__init__.py:259-400, with the registries
of model classes, and of `ModelStream`, 434-466.

Classes are represented by their names.  What reading the members of a class gives
(`resolve_type_events`, subject of C36–C39) is a parameter, as is the representation of
the content dictionaries.
-/
import Verif.Model.TreeOp
import Verif.Model.Grouping
namespace Hwp

/-! ### Classes -/

/-- `tag_models`, binmodel/_shared.py:46-57, filled by the classes with a `tagid`
(tagids.py:22-78). -/
def tagModels : List (Nat × String) :=
  [(16, "DocumentProperties"), (17, "IdMappings"), (18, "BinData"), (19, "FaceName"),
   (20, "BorderFill"), (21, "CharShape"), (22, "TabDef"), (23, "Numbering"), (24, "Bullet"),
   (25, "ParaShape"), (26, "Style"), (27, "DocData"), (28, "DistributeDocData"),
   (30, "CompatibleDocument"), (31, "LayoutCompatibility"), (32, "TagModel32"),
   (66, "Paragraph"), (67, "ParaText"), (68, "ParaCharShape"), (69, "ParaLineSeg"),
   (70, "ParaRangeTag"), (71, "Control"), (72, "ListHeader"), (73, "PageDef"),
   (74, "FootnoteShape"), (75, "PageBorderFill"), (76, "ShapeComponent"), (77, "TableBody"),
   (78, "ShapeLine"), (79, "ShapeRectangle"), (80, "ShapeEllipse"), (81, "ShapeArc"),
   (82, "ShapePolygon"), (83, "ShapeCurve"), (84, "ShapeOLE"), (85, "ShapePicture"),
   (86, "ShapeContainer"), (87, "ControlData"), (88, "EqEdit"), (90, "ShapeTextArt"),
   (91, "FormObject"), (92, "MemoShape"), (93, "MemoList"), (94, "ForbiddenChar"),
   (95, "ChartData"), (115, "ShapeUnknown")]

/-- The characters of a control id as bytes (compare `chidDecode`). -/
def asciiBytes (s : String) : Bytes := s.toList.map fun c => UInt8.ofNat c.toNat

/-- `control_models`, controls/_shared.py:31-42, filled by the classes with a `chid`
(controlchar.py:42-107). -/
def controlModels : List (Bytes × String) :=
  [("gso ", "GShapeObjectControl"), ("tbl ", "TableControl"), ("secd", "SectionDef"),
   ("cold", "ColumnsDef"), ("head", "Header"), ("foot", "Footer"), ("fn  ", "FootNote"),
   ("en  ", "EndNote"), ("atno", "AutoNumbering"), ("nwno", "NewNumbering"), ("pghd", "PageHide"),
   ("pgct", "PageOddEven"), ("pgnp", "PageNumberPosition"), ("idxm", "IndexMarker"),
   ("bokm", "BookmarkControl"), ("tcps", "TCPSControl"), ("tdut", "Dutmal"),
   ("tcmt", "HiddenComment"), ("%unk", "FieldUnknown"), ("%dte", "FieldDate"),
   ("%ddt", "FieldDocDate"), ("%pat", "FieldPath"), ("%bmk", "FieldBookmark"),
   ("%mmg", "FieldMailMerge"), ("%xrf", "FieldCrossRef"), ("%fmu", "FieldFormula"),
   ("%clk", "FieldClickHere"), ("%smr", "FieldSummary"), ("%usr", "FieldUserInfo"),
   ("%hlk", "FieldHyperLink"), ("%sig", "FieldRevisionSign"), ("%%*d", "FieldRevisionDelete"),
   ("%%*a", "FieldRevisionAttach"), ("%%*C", "FieldRevisionClipping"),
   ("%%*S", "FieldRevisionSawtooth"), ("%%*T", "FieldRevisionThinking"),
   ("%%*P", "FieldRevisionPraise"), ("%%*L", "FieldRevisionLine"),
   ("%%*c", "FieldRevisionSimpleChange"), ("%%*h", "FieldRevisionHyperlink"),
   ("%%*A", "FieldRevisionLineAttach"), ("%%*i", "FieldRevisionLineLink"),
   ("%%*t", "FieldRevisionLineTransfer"), ("%%*r", "FieldRevisionRightMove"),
   ("%%*l", "FieldRevisionLeftMove"), ("%%*n", "FieldRevisionTransfer"),
   ("%%*e", "FieldRevisionSimpleInsert"), ("%spl", "FieldRevisionSplit"),
   ("%%mr", "FieldRevisionChange"), ("%%me", "FieldMemo"),
   ("%cpr", "FieldPrivateInfoSecurity")].map fun p => (asciiBytes p.1, p.2)

/-- `list_header_models`, tagid56_list_header.py:44-57, filled by the classes with a
`parent_model_type` (89-158); the second part of the key is called `before_tablebody` there
and compared with `seen_table_body`. -/
def listHeaderModels : List ((String × Bool) × String) :=
  [(("TableControl", false), "TableCaption"), (("TableControl", true), "TableCell"),
   (("GShapeObjectControl", false), "GShapeObjectCaption"),
   (("ShapeComponent", false), "TextboxParagraphList"),
   (("Header", false), "HeaderParagraphList"), (("Footer", false), "FooterParagraphList")]

/-- `control_data_models`, tagid71_ctrl_data.py:30-41 (controls/field.py:84,
bookmark_control.py:41, section_def.py:68). -/
def controlDataModels : List (String × String) :=
  [("FieldClickHere", "FieldClickHereData"), ("BookmarkControl", "BookmarkControlData"),
   ("SectionDef", "SectionDefData")]

/-- The base class of an extension class; the classes not listed here derive from
`Control` or `Field` directly as `superclass` says. -/
def superclassTable : List (String × String) :=
  [("TableControl", "CommonControl"), ("GShapeObjectControl", "CommonControl"),
   ("CommonControl", "Control"), ("SectionDef", "Control"), ("ColumnsDef", "Control"),
   ("Header", "HeaderFooter"), ("Footer", "HeaderFooter"), ("HeaderFooter", "Control"),
   ("FootNote", "Note"), ("EndNote", "Note"), ("Note", "Control"),
   ("AutoNumbering", "NumberingControl"), ("NewNumbering", "NumberingControl"),
   ("NumberingControl", "Control"), ("PageHide", "Control"), ("PageOddEven", "Control"),
   ("PageNumberPosition", "Control"), ("IndexMarker", "Control"), ("BookmarkControl", "Control"),
   ("TCPSControl", "Control"), ("Dutmal", "Control"), ("HiddenComment", "Control"),
   ("Field", "Control"), ("TableCaption", "ListHeader"), ("TableCell", "ListHeader"),
   ("GShapeObjectCaption", "TableCaption"), ("TextboxParagraphList", "ListHeader"),
   ("HeaderFooterParagraphList", "ListHeader"),
   ("HeaderParagraphList", "HeaderFooterParagraphList"),
   ("FooterParagraphList", "HeaderFooterParagraphList"),
   ("FieldClickHereData", "ControlData"), ("BookmarkControlData", "ControlData"),
   ("SectionDefData", "ControlData")]

/-- The base class; the remaining control classes are those of controls/field.py, which
derive from `Field`. -/
def superclass (c : String) : Option String :=
  match superclassTable.lookup c with
  | some s => some s
  | none => if c ∈ controlModels.map (·.2) then some "Field" else none

/-- `inspect.getmro(cls)`: a chain, as all the classes have one base; it has at most four
classes up to the class of the tag. -/
def mro : Nat → String → List String
  | 0, c => [c]
  | n + 1, c =>
    match superclass c with
    | none => [c]
    | some s => c :: mro n s

/-- The extension classes without `attributes` of their own. -/
def withoutAttributes : List String :=
  ["TableControl", "GShapeObjectControl", "Header", "Footer", "FootNote", "EndNote",
   "NewNumbering", "GShapeObjectCaption", "HeaderParagraphList", "FooterParagraphList",
   "FieldClickHereData"]

/-- `'attributes' in cls.__dict__` for an extension class (controls/*.py,
tagid56_list_header.py). -/
def hasAttributes (c : String) : Bool :=
  c ∉ withoutAttributes ∧ superclass c ≠ some "Field"

/-- binmodel/__init__.py:398-403 `get_extension_mro(cls, up_to_cls)`. -/
def extensionMro (cls upTo : String) : List String :=
  (((mro 4 cls).takeWhile (fun c => c ≠ upTo)).filter hasAttributes).reverse

/-! ### Parsing one model -/

/-- What the parser needs: reading the members of a class (the content and the unread
rest), given type and content of the parent model (`none` for the root), `content['chid']`,
and `content.update(more)`. -/
structure ModelReader (κ : Type) where
  read : Option (String × κ) → String → Bytes → Except PyErr (κ × Bytes)
  chid : κ → Except PyErr Bytes
  update : κ → κ → κ

/-- What a child sees of its parent: type and content (`none` for the root, an empty dict)
and `parent_context['seen_table_body']`. -/
structure PFrame (κ : Type) where
  model : Option (String × κ)
  seen : Bool

/-- The type of the parent, if it is not the root. -/
def PFrame.type {κ} (f : PFrame κ) : Option String := f.model.map (·.1)

/-- binmodel/__init__.py:362-363. -/
def baseType (tagid : Nat) : String := (tagModels.lookup tagid).getD "UnknownTagModel"

/-- binmodel/__init__.py:370-373 with `get_extension_key` of `Control`
(controls/_shared.py:56-59), `ListHeader` (tagid56_list_header.py:80-86) and `ControlData`
(tagid71_ctrl_data.py:51-56).  The key `'type'` is missing in the root. -/
def extensionOf {κ} (rd : ModelReader κ) (base : String) (parent : PFrame κ) (content : κ) :
    Except PyErr (Option String) :=
  if base = "Control" then do
    let chid ← rd.chid content
    return controlModels.lookup chid
  else if base = "ListHeader" then
    match parent.type with
    | none => .error .keyError
    | some t => .ok (listHeaderModels.lookup (t, parent.seen))
  else if base = "ControlData" then
    match parent.type with
    | none => .error .keyError
    | some t => .ok (controlDataModels.lookup t)
  else .ok none

/-- binmodel/__init__.py:380-386: read the members of further classes into the content. -/
def readClasses {κ} (rd : ModelReader κ) (parent : PFrame κ) (content : κ) (s : Bytes) :
    List String → Except PyErr (κ × Bytes)
  | [] => .ok (content, s)
  | c :: cs => do
    let (more, s) ← rd.read parent.model c s
    readClasses rd parent (rd.update content more) s cs

/-- binmodel/__init__.py:358-387 (first part of `resolve_model_events`): type, content and
the unread rest of the payload. -/
def resolveModel {κ} (rd : ModelReader κ) (parent : PFrame κ) (r : Record) :
    Except PyErr (String × κ × Bytes) := do
  let base := baseType r.tagid
  let (content, s) ← rd.read parent.model base r.payload
  match ← extensionOf rd base parent content with
  | none => return (base, content, s)
  | some ext => do
    let (content, s) ← readClasses rd parent content s (extensionMro ext base)
    return (ext, content, s)

/-- binmodel/__init__.py:389-395 with `TableControl.on_child`
(controls/table_control.py:31-36), the only `on_child`. -/
def onChild {κ} (parent : PFrame κ) (childType : String) : PFrame κ :=
  if parent.type = some "TableControl" ∧ childType = "TableBody" then { parent with seen := true }
  else parent

/-! ### Parsing all models -/

/-- A parsed model: the record, `model['type']`, `model['content']` and
`model['unparsed']`, if set. -/
structure PModel (κ : Type) where
  record : Record
  type : String
  content : κ
  unparsed : Option Bytes

/-- binmodel/__init__.py:275-303 `parse_models_intern`, `parse_models_with_parent`; the
stack (top first) of `prefix_ancestors_from_level` (treeop.py:70-93) holds the contexts and
models.  `ancestors[-1]` of an empty list is an `IndexError`. -/
def parseModelsGo {κ} (rd : ModelReader κ) (err : Option PyErr) (base : Option Int)
    (stack : List (PFrame κ)) : List Record → Gen (PModel κ)
  | [] => ⟨[], err⟩
  | r :: rs =>
    match popTo ((relLevel base r.level).1 + 1) stack with
    | (_, .error e) => .raise e
    | (_, .ok st) =>
      if (st.length : Int) < (relLevel base r.level).1 + 1 then .raise .exception
      else if (st.length : Int) = (relLevel base r.level).1 + 1 then
        match st with
        | [] => .raise .indexError
        | parent :: st =>
          match resolveModel rd parent r with
          | .error e => .raise e
          | .ok (type, content, rest) =>
            .cons ⟨r, type, content, if rest = [] then none else some rest⟩
              (parseModelsGo rd err (some (relLevel base r.level).2)
                (⟨some (type, content), false⟩ :: onChild parent type :: st) rs)
      else .raise .assertionError

/-- binmodel/__init__.py:275-277 `parse_models(context, records)`. -/
def parseModels {κ} (rd : ModelReader κ) (records : Gen Record) : Gen (PModel κ) :=
  parseModelsGo rd records.err none [⟨none, false⟩] records.out

/-! ### ModelStream -/

/-- binmodel/__init__.py:428-431 `chain_iterables`, for groups that are parsed one after
the other: output stops at the first exception. -/
def chainModels {κ} (rd : ModelReader κ) (err : Option PyErr) : List (List Record) → Gen (PModel κ)
  | [] => ⟨[], err⟩
  | g :: gs =>
    match parseModels rd (.ofList g) with
    | ⟨out, none⟩ => .prepend out (chainModels rd err gs)
    | ⟨out, some e⟩ => ⟨out, some e⟩

/-- binmodel/__init__.py:436-461 `ModelStream.models()`: the models of the groups of
records one after the other.  (`records_treegrouped`, recordstream.py:185-190, collects each
group in a list before it is parsed.) -/
def streamModels {κ} (rd : ModelReader κ) (s : Bytes) : Gen (PModel κ) :=
  let groups := groupByTop (readRecords s)
  chainModels rd groups.err groups.out

/-- binmodel/__init__.py:445-447 `ModelStream.models(treegroup=n)`; without such a group
`parse_models` iterates over `None`. -/
def treegroupModels {κ} (rd : ModelReader κ) (s : Bytes) (n : Nat) : Gen (PModel κ) :=
  match recordsTreegroup s n with
  | .error e => .raise e
  | .ok none => .raise .typeError
  | .ok (some rs) => parseModels rd (.ofList rs)

end Hwp
