/-
Model of the XML form of a whole document: /repo/src/hwp5/xmlmodel.py:71-91, 518-638,
731-820, and how the items of the passes (Model/Passes.lean) stand for models and their
attributes.

Simplifications: the summary information, the streams of the sections and of `BinData` have
been read; section indexes are natural numbers.
-/
import Verif.Model.DeclReader
import Verif.Model.Summary
namespace Hwp

/-! ### Events of the models of a stream -/

/-- treeop.py:32-55 `prefix_event` over a generator that ends with `err`; an exception of it
leaves the stack as it is. -/
def prefixEventErr {α} (err : Option PyErr) (base : Option Int) (stack : List α) : List (Int × α) → Gen (Ev α)
  | [] =>
    match err with
    | some e => .raise e
    | none => .ofList ((stack.take (stack.length - 1)).map .stop)
  | (level, item) :: rest =>
    let (lv, b) := relLevel base level
    match popTo (lv + 1) stack with
    | (evs, .error e) => ⟨evs, some e⟩
    | (evs, .ok st) =>
      if (st.length : Int) < lv + 1 then ⟨evs, some .exception⟩
      else if (st.length : Int) = lv + 1 then
        .prepend evs (.cons (.start item) (prefixEventErr err (some b) (item :: st) rest))
      else ⟨evs, some .assertionError⟩

/-- xmlmodel.py:548-552 `prefix_binmodels_with_event`; `f i m` is the item of the `i`-th
model. -/
def modelEvents {α} (root : α) (f : Nat → PModel Fields → α) (g : Gen (PModel Fields)) : Gen (Ev α) :=
  prefixEventErr g.err none [root] (g.out.mapIdx fun i m => ((m.record.level : Int), f i m))

/-! ### Items -/

/-- `issubclass(type, base)`. -/
def isSubclass (type base : String) : Bool := base ∈ mro 4 type

/-- `Paragraph.SplitFlags(attributes['split']).new_columnsdef`, xmlmodel.py:295-298. -/
def newColumnsOf (content : Fields) : Bool :=
  match content.lookup "split" with
  | some (.leaf (.flags _ n)) =>
    match Decl.ParagraphSplitFlags.get n "new_columnsdef" with
    | .ok b => b ≠ 0
    | .error _ => false
  | _ => false

/-- `attributes['chunks']`, xmlmodel.py:205. -/
def chunksOf (content : Fields) : List Chunk :=
  match content.lookup "chunks" with
  | some (.leaf (.chunks cs)) => cs
  | _ => []

/-- A pair of numbers in `attributes['charshapes']`. -/
def pairOf : Value PVal → Nat × Nat
  | .tuple [.leaf (.int a), .leaf (.int b)] => (a.toNat, b.toNat)
  | _ => (0, 0)

/-- `attributes['charshapes']`, xmlmodel.py:206. -/
def charshapesOf (content : Fields) : List (Nat × Nat) :=
  match content.lookup "charshapes" with
  | some (.list xs) => xs.map pairOf
  | _ => []

/-- The dicts in `attributes['linesegs']`, xmlmodel.py:218. -/
def linesegsOf (content : Fields) : List Fields :=
  match content.lookup "linesegs" with
  | some (.list xs) => xs.map fun x => match x with | .struct fs => fs | _ => []
  | _ => []

/-- `lineseg['chpos']`, xmlmodel.py:217.  It is only compared with positions in the text
(xmlmodel.py:110-126), which are not negative. -/
def chposOf (lineseg : Fields) : Nat :=
  match lineseg.lookup "chpos" with
  | some (.leaf (.int n)) => n.toNat
  | _ => 0

/-- `attributes['rowcols']`, xmlmodel.py:472. -/
def rowcolsOf (content : Fields) : List Nat :=
  match content.lookup "rowcols" with
  | some (.list xs) => xs.map fun x => match x with | .leaf (.int n) => n.toNat | _ => 0
  | _ => []

/-- The item of a model: what the passes look at, and its number. -/
def itemOf (i : Nat) (m : PModel Fields) : Item :=
  let cls := modelNames.idxOf m.type
  if m.type = "Paragraph" then .paragraph (newColumnsOf m.content) i
  else if m.type = "ParaText" then .paraText (chunksOf m.content) i
  else if m.type = "ParaCharShape" then .paraCharShape (charshapesOf m.content) i
  else if m.type = "ParaLineSeg" then .paraLineSeg ((linesegsOf m.content).map chposOf) i
  else if m.type = "ParaRangeTag" then .paraRangeTag i
  else if m.type = "SectionDef" then .sectionDef none i
  else if m.type = "TableBody" then .tableBody (some (rowcolsOf m.content)) i
  else if m.type = "TableCell" then .tableCell i
  else if m.type = "TableControl" then .tableControl i
  else if m.type = "GShapeObjectControl" then .gshapeControl i
  else if m.type = "ShapeComponent" then .shapeComponent i
  else if isSubclass m.type "ListHeader" then .listHeader cls i
  else if isSubclass m.type "Field" then .field cls i
  else if isSubclass m.type "Control" then .control cls i
  else .other cls i

/-- controlchar.py:131-157, 203-205 `ControlChar.get_name_by_code` for the known codes. -/
def ctrlName (code : Nat) : String :=
  (["NULL", "CTLCHR01", "SECTION_COLUMN_DEF", "FIELD_START", "FIELD_END", "CTLCHR05", "CTLCHR06", "CTLCHR07",
    "TITLE_MARK", "TAB", "LINE_BREAK", "DRAWING_TABLE_OBJECT", "CTLCHR0C", "PARAGRAPH_BREAK", "CTLCHR0E",
    "HIDDEN_EXPLANATION", "HEADER_FOOTER", "FOOT_END_NOTE", "AUTO_NUMBER", "CTLCHR13", "CTLCHR14", "PAGE_CTLCHR",
    "BOOKMARK", "CTLCHR17", "HYPHEN", "", "", "", "", "", "NONBREAK_SPACE", "FIXWIDTH_SPACE"][code]?).getD ""

/-- `__name__` of the kinds, controlchar.py:122-130. -/
def kindName : CtrlKind → String
  | .char => "CHAR"
  | .inline => "INLINE"
  | .extended => "EXTENDED"

/-- The languages, charsets.py. -/
def langName : Lang → String
  | .ko => "ko" | .en => "en" | .cn => "cn" | .symbol => "symbol" | .jp => "jp" | .other => "other"

/-- xmlmodel.py:213-214: the attributes of the dummy line segment. -/
def dummyLineSeg : Fields :=
  ["chpos", "y", "height", "height2", "height85", "space_below", "x", "width", "a8", "flags"].map fun k =>
    (k, .leaf (.int 0))

/-- The content of the `i`-th model. -/
def contentAt (ms : List (PModel Fields)) (i : Nat) : Fields := ((ms[i]?).map PModel.content).getD []

/-- The model with the number `i`, with its attributes. -/
def recordItem (ms : List (PModel Fields)) (ctx : DCtx) (i : Nat) : ModelItem :=
  ⟨((ms[i]?).map PModel.type).getD "", contentAt ms i, ctx⟩

/-- `(model, attributes, context)` of an item among the models `ms` of a stream:
xmlmodel.py:223-253, 268-269, 301, 472, 486, 502-506 for what the passes make and change. -/
def concItem (ms : List (PModel Fields)) (ctx : DCtx) : Item → ModelItem
  | .paragraph _ i | .paraText _ i | .paraCharShape _ i | .paraLineSeg _ i | .paraRangeTag i
  | .sectionDef none i | .tableBody (some _) i | .tableCell i | .listHeader _ i | .field _ i
  | .tableControl i | .gshapeControl i | .control _ i | .shapeComponent i | .other _ i => recordItem ms ctx i
  | .sectionDef (some n) i => ⟨"SectionDef", setField "section_id" (.leaf (.int n)) (contentAt ms i), ctx⟩
  | .tableBody none i => ⟨"TableBody", (contentAt ms i).filter (fun p => p.1 ≠ "rowcols"), ctx⟩
  | .lineSeg (some i, k) => ⟨"LineSeg", ((linesegsOf (contentAt ms i))[k]?).getD [], ctx⟩
  | .lineSeg (none, _) => ⟨"LineSeg", dummyLineSeg, noCtx⟩
  | .text s shape lang => ⟨"Text", [natAttr "charshape_id" shape] ++
      (match lang with
       | some l => [strAttr "lang" (lit (langName l))]
       | none => []) ++ [strAttr "text" s], ctx⟩
  | .controlChar code kind shape => ⟨"ControlChar", [strAttr "name" (lit (ctrlName code)), natAttr "code" code,
      ("kind", .leaf (.cls (kindName kind))), natAttr "charshape_id" shape] ++
      (if code = 0x9 ∨ code = 0xa ∨ code = 0xd then [strAttr "char" [code]] else []), ctx⟩
  | .columnSet => ⟨"ColumnSet", [], noCtx⟩
  | .tableRow => ⟨"TableRow", [], ctx⟩

/-- An event of the item. -/
def concEvent (ms : List (PModel Fields)) (ctx : DCtx) : IEv → Ev ModelItem
  | .start a => .start (concItem ms ctx a)
  | .stop a => .stop (concItem ms ctx a)

/-! ### The parts of a document -/

/-- xmlmodel.py:521-544: one item.  `attributes['flags'].storage is EMBEDDING`; the name of
the stream; a missing stream is a `KeyError`. -/
def embedItem (bindata : List (PyStr × Bytes)) (m : ModelItem) : Except PyErr ModelItem :=
  if m.model = "BinData" then
    match m.attributes.lookup "flags" with
    | some (.leaf (.flags f n)) =>
      match f.get n "storage" with
      | .error e => .error e
      | .ok storage =>
        if storage = 1 then
          match m.attributes.lookup "bindata" with
          | some (.struct fs) =>
            match fs.lookup "storage_id", fs.lookup "ext" with
            | some (.leaf (.int id)), some (.leaf (.str ext)) =>
              match bindata.lookup (lit "BIN" ++ hexPadInt 4 id ++ lit "." ++ ext) with
              | none => .error .keyError
              | some binary => .ok { m with attributes := setField "bindata" (.struct
                  (setField "inline" (.leaf (.str (lit "true")))
                    (setField "<text>" (.leaf (.str (chars (embedText binary)))) fs))) m.attributes }
            | _, _ => .error .keyError
          | _ => .error .keyError
        else .ok m
    | _ => .error .keyError
  else .ok m

/-- xmlmodel.py:518-545 `embed_bindata`. -/
def embedGo (bindata : List (PyStr × Bytes)) (err : Option PyErr) : List (Ev ModelItem) → Gen (Ev ModelItem)
  | [] => ⟨[], err⟩
  | .start m :: es =>
    match embedItem bindata m with
    | .error e => .raise e
    | .ok m' => .cons (.start m') (embedGo bindata err es)
  | .stop m :: es => .cons (.stop m) (embedGo bindata err es)

/-- A document: version of the file header, the summary information, the streams `DocInfo`
and `BodyText/Section<n>` in the order of `section_indexes()`, and the streams of `BinData` if
they are to be embedded (xmlmodel.py:801-804). -/
structure DocSource where
  version : Version
  summary : PropStreamObj
  docinfo : Bytes
  sections : List (Nat × Bytes)
  bindata : Option (List (PyStr × Bytes))

/-- The context of the events of a stream. -/
def streamCtx (ver : Version) : DCtx := ⟨some ver, none⟩

/-- The models of `DocInfo` as items. -/
def docItem (ver : Version) (_ : Nat) (m : PModel Fields) : ModelItem := ⟨m.type, m.content, streamCtx ver⟩

/-- xmlmodel.py:733-739 `DocInfo.events`. -/
def docinfoEvents (rd : ModelReader Fields) (d : DocSource) : Gen (Ev ModelItem) :=
  let g := modelEvents ⟨"", [], noCtx⟩ (docItem d.version) (streamModels rd d.docinfo)
  wrapModelevents ⟨"DocInfo", [], noCtx⟩
    (match d.bindata with
     | some bindata => embedGo bindata g.err g.out
     | none => g)

/-- xmlmodel.py:744-760 `Section.events`. -/
def sectionDocEvents (rd : ModelReader Fields) (ver : Version) (idx : Nat) (s : Bytes) : Gen (Ev ModelItem) :=
  let models := streamModels rd s
  let g := sectionEvents (some idx) (modelEvents .columnSet itemOf models)
  ⟨g.out.map (concEvent models.out (streamCtx ver)), g.err⟩

/-- xmlmodel.py:767-779 `Sections.events`. -/
def bodyEvents (rd : ModelReader Fields) (d : DocSource) : Gen (Ev ModelItem) :=
  wrapModelevents ⟨"BodyText", [], noCtx⟩
    (.chain (d.sections.map fun s => sectionDocEvents rd d.version s.1 s.2))

/-- xmlmodel.py:71-91 `give_elements_unique_id`. -/
def numberGo (c : IdCounters) : List (Ev ModelItem) → List (Ev ModelItem)
  | [] => []
  | .start m :: es =>
    let set (k : String) (n : Nat) : Ev ModelItem := .start { m with attributes := setField k (.leaf (.int n)) m.attributes }
    if m.model = "Paragraph" then set "paragraph_id" c.paragraph :: numberGo { c with paragraph := c.paragraph + 1 } es
    else if m.model = "TableControl" then set "table_id" c.table :: numberGo { c with table := c.table + 1 } es
    else if m.model = "GShapeObjectControl" then set "gshape_id" c.gshape :: numberGo { c with gshape := c.gshape + 1 } es
    else if m.model = "ShapeComponent" then set "shape_id" c.shape :: numberGo { c with shape := c.shape + 1 } es
    else .start m :: numberGo c es
  | .stop m :: es => .stop m :: numberGo c es

/-- xmlmodel.py:800-819 `Hwp5File.events`. -/
def documentEvents (rd : ModelReader Fields) (filetime : Nat → PyStr) (d : DocSource) : Gen (Ev ModelItem) :=
  let g := wrapModelevents ⟨"HwpDoc", [("version", .leaf (.version d.version))], noCtx⟩
    (.chain [summaryEvents filetime d.summary, docinfoEvents rd d, bodyEvents rd d])
  ⟨numberGo {} g.out, g.err⟩

/-- xmlmodel.py:619-622, 585-586: `hwp5file.xmlevents()` as events. -/
def documentXml (env : XmlEnv) (rd : ModelReader Fields) (filetime : Nat → PyStr) (d : DocSource) : Gen XEv :=
  modelToXml env (documentEvents rd filetime d)

end Hwp
