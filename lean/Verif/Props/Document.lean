/-
Properties C73–C77: the XML form of a whole document.
-/
import Verif.Proofs.DocAll
import Verif.Proofs.Shown
import Verif.Props.Xml
import Verif.Props.XmlRecord
set_option linter.unusedSimpArgs false
set_option linter.unusedVariables false
set_option autoImplicit false
namespace Hwp.Props
open Hwp Spec

/-! ### A sample document -/

/-- A record: its header, then its payload. -/
def recordBytes (tag level : Nat) (payload : Bytes) : Bytes :=
  let n := tag + level * 1024 + payload.length * 1048576
  [UInt8.ofNat n, UInt8.ofNat (n / 256), UInt8.ofNat (n / 65536), UInt8.ofNat (n / 16777216)] ++ payload

/-- `DocInfo` with two records: document properties and an embedded picture. -/
def sampleDocInfo : Bytes :=
  recordBytes 16 0 (List.replicate 26 1) ++ recordBytes 18 0 [1, 0, 1, 0, 3, 0, 0x70, 0, 0x6e, 0, 0x67, 0]

/-- A section with a paragraph: its text is a section definition and the letter A. -/
def sampleBody : Bytes :=
  recordBytes 66 0 [10, 0, 0, 0, 4, 0, 0, 0, 0, 0, 0, 3, 1, 0, 0, 0, 0, 0, 0, 0, 0, 0] ++
  recordBytes 67 1 ([2, 0] ++ asciiBytes "dces" ++ [0, 0, 0, 0, 0, 0, 0, 0, 2, 0, 0x41, 0, 13, 0]) ++
  recordBytes 68 1 [0, 0, 0, 0, 7, 0, 0, 0] ++
  recordBytes 71 1 (asciiBytes "dces" ++ List.replicate 34 0)

/-- Summary information: a title, and no dictionary entries. -/
def sampleDocSummary : Bytes :=
  [0xfe, 0xff, 0, 0, 2, 0, 0, 0] ++ clsidHwpSummary.map UInt8.ofNat ++ [1, 0, 0, 0] ++ clsidHwpSummary.map UInt8.ofNat ++
  [48, 0, 0, 0] ++ [0, 0, 0, 0, 2, 0, 0, 0] ++ [2, 0, 0, 0, 24, 0, 0, 0] ++ [0, 0, 0, 0, 36, 0, 0, 0] ++
  [0x1f, 0, 0, 0, 2, 0, 0, 0, 0x54, 0, 0, 0] ++ [0, 0, 0, 0]

/-- The summary information as read. -/
def sampleSummaryObj : PropStreamObj :=
  ⟨0xfffe, 0, 2, clsidHwpSummary, [⟨clsidHwpSummary, 48, [⟨0, 36, some "PID_DICTIONARY", .dictionary []⟩,
    ⟨2, 24, some "PIDSI_TITLE", .lpwstr (lit "T")⟩]⟩]⟩

/-- The sample document. -/
def sampleDoc : DocSource :=
  ⟨[5, 0, 1, 7], sampleSummaryObj, sampleDocInfo, [(0, sampleBody)], some [(lit "BIN0001.png", [1, 2, 3])]⟩

example : readStreamObj sampleDocSummary = .ok sampleSummaryObj := by decide +kernel
example : (streamModels (directReader [5, 0, 1, 7]) sampleBody).err = none := by decide +kernel
example : (streamModels (directReader [5, 0, 1, 7]) sampleDocInfo).out.map (·.type) = ["DocumentProperties", "BinData"] := by decide +kernel
example : (streamModels (directReader [5, 0, 1, 7]) sampleBody).out.map (·.type) = ["Paragraph", "ParaText", "ParaCharShape", "SectionDef"] := by decide +kernel

/-! ### The sample is a proper document -/

/-- The items of the section of the sample document. -/
def sampleItems : Forest Item :=
  .node (.paragraph true 0) (.node (.paraText [⟨0, 8, .ctrl (.other 2 [115, 101, 99, 100] [0, 0, 0, 0, 0, 0, 0, 0])⟩,
    ⟨8, 9, .text [65]⟩, ⟨9, 10, .ctrl (.plain 13)⟩] 1) .nil (.node (.paraCharShape [(0, 7)] 2) .nil
    (.node (.sectionDef none 3) .nil .nil))) .nil

/-- Id and extension of embedded data. -/
def pictureOf : Fields → Option (Int × PyStr)
  | [_, (_, .struct [(_, .leaf (.int id)), (_, .leaf (.str ext))])] => some (id, ext)
  | _ => none

theorem sample_proper : ProperDocument (directReader [5, 0, 1, 7]) sampleDoc where
  version := rfl
  summary := ⟨sampleDocSummary, by decide +kernel⟩
  docinfo := streamTree_exists _ _ (by decide +kernel) (by
    intro r hr
    have : ((readRecords sampleDocInfo).out[0]?).map Record.level = some 0 := by decide +kernel
    rw [show sampleDoc.docinfo = sampleDocInfo from rfl] at hr
    rw [hr] at this
    simpa using this) (by decide +kernel)
  docinfoTypes := by decide +kernel
  docinfoData := by unfold BinDataOk; decide +kernel
  embedded := by
    intro bd hbd m hm ht f n id ext hc hn
    obtain rfl : bd = [(lit "BIN0001.png", [1, 2, 3])] := by simpa [sampleDoc] using hbd.symm
    have hall : ∀ m ∈ (streamModels (directReader [5, 0, 1, 7]) sampleDocInfo).out, m.type = "BinData" → pictureOf m.content = some (1, lit "png") := by
      decide +kernel
    have := hall m hm ht
    rw [hc] at this
    obtain ⟨rfl, rfl⟩ : id = 1 ∧ ext = lit "png" := by simpa [pictureOf] using this
    decide +kernel
  sections := by
    intro s hs
    obtain rfl : s = (0, sampleBody) := by simpa [sampleDoc] using hs
    obtain ⟨f, hf⟩ := streamTree_exists (directReader [5, 0, 1, 7]) sampleBody (by decide +kernel) (by
      intro r hr
      have : ((readRecords sampleBody).out[0]?).map Record.level = some 0 := by decide +kernel
      rw [hr] at this
      simpa using this) (by decide +kernel)
    refine ⟨f, hf, ?_⟩
    have : f.map (fun p => itemOf p.1 p.2) = sampleItems := by
      apply depthsOf_inj _ _ 0
      rw [depthsOf_map, streamTree_depths hf]
      decide +kernel
    rw [this]
    decide +kernel
  sectionData := by
    intro s hs
    obtain rfl : s = (0, sampleBody) := by simpa [sampleDoc] using hs
    unfold BinDataOk
    decide +kernel

/-! ### C73 structure of a document -/

/-- C73: a record stream that is read without exception and starts at level 0 has exactly one
tree of models. -/
theorem C73_tree (rd : ModelReader Fields) (s : Bytes) (h1 : (readRecords s).err = none)
    (h2 : ∀ r, (readRecords s).out[0]? = some r → r.level = 0) (h3 : (streamModels rd s).err = none) :
    ∃ f, StreamTree rd s f ∧ ∀ g, StreamTree rd s g → g = f := by
  obtain ⟨f, hf⟩ := streamTree_exists rd s h1 h2 h3
  exact ⟨f, hf, fun g hg => streamTree_unique hg hf⟩

/-- C73: the events of a proper document are, with ids: `HwpDoc` with the summary information,
the tree of `DocInfo` and, for each section, what became of its tree, shown with the names in the source. -/
theorem C73_document (rd : ModelReader Fields) (filetime : Nat → PyStr) (d : DocSource)
    (hrd : ReadsDecls d.version rd) (h : ProperDocument rd d) :
    ∃ (docinfo : Forest (Nat × PModel Fields)) (body : Nat × Bytes → Forest Item) (sorted : PropSetObj → List PropObj),
      StreamTree rd d.docinfo docinfo ∧
      (∀ s ∈ d.sections, ∃ f, StreamTree rd s.2 f ∧ SectionBody s.1 f (body s)) ∧
      (∀ t ∈ d.summary.sets, InOffsetOrder t.properties (sorted t)) ∧
      documentEvents rd filetime d = .ofList (numbered (documentElement d.version
        (summaryElement d.summary (d.summary.sets.flatMap fun t => setElement filetime t (sorted t)))
        (docinfoEvs d docinfo)
        (d.sections.flatMap fun s => eventsOf ((body s).map (shownItem (streamModels rd s.2).out ⟨some d.version, none⟩))))) := by
  obtain ⟨f, body, sorted, h1, h2, h3, h4, -⟩ := document_parts rd filetime d hrd h
  simp only [concItem_shown] at h4
  exact ⟨f, body, sorted, h1, fun s hs => (h2 s hs).imp fun g hg => ⟨hg.1, hg.2.1⟩, h3, h4⟩

/-- The names and depths of the elements of the sample document. -/
example : (startDepths 0 (documentEvents (directReader [5, 0, 1, 7]) (fun _ => []) sampleDoc).out).map (fun p => (p.1, p.2.model)) =
    [(0, "HwpDoc"), (1, "HwpSummaryInfo"), (2, "PropertySetStream"), (3, "PropertySet"), (4, "Property"), (4, "Property"),
     (1, "DocInfo"), (2, "DocumentProperties"), (2, "BinData"),
     (1, "BodyText"), (2, "SectionDef"), (3, "ColumnSet"), (4, "Paragraph"), (5, "LineSeg"), (6, "Text"), (6, "ControlChar")] := by
  decide +kernel

/-- How a control character and a line segment that was made are shown. -/
example : XEv.start (lit "ControlChar") [(lit "name", lit "PARAGRAPH_BREAK"), (lit "code", lit "13"), (lit "kind", lit "CHAR"),
    (lit "charshape-id", lit "7"), (lit "char", [13])] ∈ (documentXml sampleEnv (directReader [5, 0, 1, 7]) (fun _ => []) sampleDoc).out := by
  decide +kernel
example : (shownItem [] ⟨none, none⟩ (.lineSeg (none, 0))).attributes.map (·.1) =
    ["chpos", "y", "height", "height2", "height85", "space_below", "x", "width", "a8", "flags"] := by decide +kernel

/-- C14: the control characters that are known, their kinds and their sizes are those of the table in the source. -/
theorem C14_source (code : Nat) :
    ((sourceChar code).isSome ↔ (ctrlKind code).isSome) ∧
    ∀ name kind, sourceChar code = some (name, kind) → ∃ k, ctrlKind code = some k ∧ kindName k = kind ∧ sourceSize kind = some k.size := by
  rw [(C14_kinds code).1]
  by_cases h : code < 32
  · have : ∀ c < 32, ((sourceChar c).isSome ↔ (kindOf c).isSome) ∧
        ∀ p ∈ sourceChar c, (kindOf c).any fun k => kindName k = p.2 ∧ sourceSize p.2 = some k.size := by decide +kernel
    refine ⟨(this code h).1, fun name kind he => ?_⟩
    have h2 := (this code h).2 _ he
    cases hk : kindOf code with
    | none => simp [hk] at h2
    | some k => exact ⟨k, rfl, by simpa [hk] using h2⟩
  · rw [sourceChar_none code (by omega)]
    have : kindOf code = none := by
      unfold kindOf
      rw [if_neg, if_neg, if_neg] <;> simp only [List.mem_cons, List.not_mem_nil, or_false] <;> omega
    rw [this]
    exact ⟨Iff.rfl, fun _ _ h => by cases h⟩

example : sourceChar 0x0b = some ("DRAWING_TABLE_OBJECT", "EXTENDED") ∧ sourceSize "EXTENDED" = some 8 := by decide +kernel

/-! ### C74 XML of a document -/

/-- C74: a proper document is converted without exception, and the result has one root element
with matching tags, valid names and no attribute twice. -/
theorem C74_well_formed (env : XmlEnv) (rd : ModelReader Fields) (filetime : Nat → PyStr) (d : DocSource)
    (hrd : ReadsDecls d.version rd) (h : ProperDocument rd d) :
    ∃ evs, documentXml env rd filetime d = .ofList evs ∧ OneRoot evs ∧ ∀ e ∈ evs, NamesOk e := by
  obtain ⟨es, X, -, h1, -, h2, h3⟩ := document_shown env rd filetime d hrd h
  exact ⟨X, h1, h2, h3⟩

/-- C74: if its values can be written in XML and its text has no carriage returns, an XML parser
gets back what the document shows.  Missing: values with characters XML does not allow
(C28_control_character_not_well_formed) and text with carriage returns
(C28_carriage_return_lost). -/
theorem C74_parses_back_partial (env : XmlEnv) (rd : ModelReader Fields) (filetime : Nat → PyStr) (d : DocSource)
    (hrd : ReadsDecls d.version rd) (h : ProperDocument rd d) (evs : List XEv)
    (he : documentXml env rd filetime d = .ofList evs) (hv : ∀ e ∈ evs, ValuesOk e) :
    parseDocument (xmlText evs) = some (joined evs) := by
  obtain ⟨X, h1, h2, h3⟩ := C74_well_formed env rd filetime d hrd h
  obtain rfl : evs = X := congrArg Gen.out (he.symm.trans h1)
  refine C28_document_parses_back_partial evs (fun e hm => ?_) h2
  have hn := h3 e hm
  have hw := hv e hm
  cases e with
  | start n as => exact ⟨hn.1, hn.2.1, fun a ha => ⟨hn.2.2 a ha, hw a ha⟩⟩
  | stop n => exact hn
  | text t => exact hw

example : ∃ evs, documentXml sampleEnv (directReader [5, 0, 1, 7]) (fun _ => []) sampleDoc = .ofList evs ∧ OneRoot evs ∧
    ∀ e ∈ evs, NamesOk e :=
  C74_well_formed sampleEnv (directReader [5, 0, 1, 7]) _ sampleDoc ((C68_reader _ _).2 rfl) sample_proper

/-! ### C75 ids -/

/-- C75: in every document, proper or not, the elements with ids of a kind have the ids
0, 1, 2, ... in the order of the document. -/
theorem C75_ids (rd : ModelReader Fields) (filetime : Nat → PyStr) (d : DocSource) (model k : String) (h : idNameOf model = some k) :
    let elements := (starts (documentEvents rd filetime d).out).filter fun m => m.model = model
    elements.map (fun m => m.attributes.lookup k) = (List.range elements.length).map fun n => some (.leaf (.int n)) := by
  dsimp only
  unfold documentEvents
  dsimp only
  have := ids_of h (wrapModelevents ⟨"HwpDoc", [("version", .leaf (.version d.version))], noCtx⟩
    (.chain [summaryEvents filetime d.summary, docinfoEvents rd d, bodyEvents rd d])).out
  have hl := congrArg List.length this
  simp only [List.length_map, List.length_range] at hl
  rw [hl]
  exact this

/-- A number as an attribute. -/
def numberOf : Option (Value PVal) → Option Int
  | some (.leaf (.int n)) => some n
  | _ => none

example : ((starts (documentEvents (directReader [5, 0, 1, 7]) (fun _ => []) { sampleDoc with sections := [(0, sampleBody), (1, sampleBody)] }).out).filter
    fun m => m.model = "Paragraph").map (fun m => numberOf (m.attributes.lookup "paragraph_id")) = [some 0, some 1] := by
  decide +kernel

/-! ### C76 embedded data -/

/-- C76: the element of every `BinData` record of a document whose storage kind is 1 has an element with
the name of the stream and, as text, base64 of its bytes. -/
theorem C76_embedded (env : XmlEnv) (rd : ModelReader Fields) (filetime : Nat → PyStr) (d : DocSource)
    (hrd : ReadsDecls d.version rd) (h : ProperDocument rd d) (bd : List (PyStr × Bytes)) (hbd : d.bindata = some bd)
    (evs : List XEv) (hx : documentXml env rd filetime d = .ofList evs) (m : PModel Fields)
    (hm : m ∈ (streamModels rd d.docinfo).out) (ht : m.type = "BinData") :
    ∃ n v, m.content = [("flags", .leaf (.flags Decl.BinDataFlags n)), ("bindata", v)] ∧
      (n % 16 = 1 → ∃ id ext data text pre post attrs,
        v = .struct [("storage_id", .leaf (.int id)), ("ext", .leaf (.str ext))] ∧
        bd.lookup (lit "BIN" ++ upperHex 4 id.toNat ++ lit "." ++ ext) = some data ∧
        evs = pre ++ [.start (lit "BinData") attrs,
          .start (lit "BinDataEmbedding") [(lit "storage-id", lit "BIN" ++ upperHex 4 id.toNat), (lit "ext", ext),
            (lit "inline", lit "true"), (lit "attribute-name", lit "bindata")],
          .text (text.map Char.toNat), .stop (lit "BinDataEmbedding")] ++ post ∧
        b64decode ((textLines text).flatten) = some data) := by
  obtain ⟨n, v, h1, h2⟩ := document_embedded env rd filetime d hrd h bd hbd evs hx m hm ht
  refine ⟨n, v, h1, fun hn => ?_⟩
  obtain ⟨id, ext, data, pre, post, attrs, h3, h4, h5⟩ := h2 hn
  exact ⟨id, ext, data, embedText data, pre, post, attrs, h3, h4, h5, C29_embedded_data_recoverable data⟩

/-- C76: an embedded record whose stream is missing stops the conversion with a `KeyError`. -/
theorem C76_missing_stream (bd : List (PyStr × Bytes)) (n : Nat) (id : Nat) (ext : PyStr) (ctx : DCtx) (err : Option PyErr)
    (es : List (Ev ModelItem)) (hn : n % 16 = 1) (h : bd.lookup (lit "BIN" ++ upperHex 4 id ++ lit "." ++ ext) = none) :
    embedGo bd err (.start ⟨"BinData", [("flags", .leaf (.flags Decl.BinDataFlags n)),
      ("bindata", .struct [("storage_id", .leaf (.int id)), ("ext", .leaf (.str ext))])], ctx⟩ :: es) = .raise .keyError := by
  unfold embedGo embedItem
  rw [if_pos rfl]
  have hname : lit "BIN" ++ hexPadInt 4 (id : Int) ++ lit "." ++ ext = lit "BIN" ++ upperHex 4 id ++ lit "." ++ ext := by
    rw [hexPadInt_nat]
  simp only [List.lookup_cons, beq_self_eq_true, show ("bindata" == "flags") = false by decide, show ("ext" == "storage_id") = false by decide,
    storage_get, hn, if_true, hname, h]

example : (docinfoEvents (directReader [5, 0, 1, 7]) { sampleDoc with bindata := some [] }).err = some .keyError := by decide +kernel
example : XEv.start (lit "BinDataEmbedding") [(lit "storage-id", lit "BIN0001"), (lit "ext", lit "png"), (lit "inline", lit "true"),
    (lit "attribute-name", lit "bindata")] ∈ (documentXml sampleEnv (directReader [5, 0, 1, 7]) (fun _ => []) sampleDoc).out ∧
    XEv.text (lit "\nAQID\n") ∈ (documentXml sampleEnv (directReader [5, 0, 1, 7]) (fun _ => []) sampleDoc).out := by decide +kernel

/-! ### C77 summary information -/

/-- C77: the properties in the XML form are those of the summary API, and both fail alike. -/
theorem C77_same_properties (data : Bytes) :
    readPropertySetStream data =
      (readStreamObj data).map fun s => (s.clsid, s.sets.map fun t => t.properties.map fun p => (p.id, p.value)) :=
  (readStreamObj_eq data).symm

/-- C77: the value shown for a property is the one at the offset shown for it and its property set, and
it has the label of its id if the set has the format of the summary information. -/
theorem C77_value_at_offset (data : Bytes) (s : PropStreamObj) (h : readStreamObj data = .ok s) (t : PropSetObj) (ht : t ∈ s.sets)
    (p : PropObj) (hp : p ∈ t.properties) :
    (if p.id = 0 then readDictionary data (t.offset + p.offset) else readProperty data (t.offset + p.offset)) = .ok p.value ∧
    p.label = if t.fmtid = [0x60, 0xb6, 0xa2, 0x9f, 0x61, 0x10, 0xd4, 0x11, 0xb4, 0xc6, 0x00, 0x60, 0x97, 0xc0, 0x9d, 0x8c]
      then summaryLabels.lookup p.id else none := by
  obtain ⟨h1, h2⟩ := readSetObj_at data _ _ t (readStreamObj_sets data s h t ht) p hp
  refine ⟨h2, ?_⟩
  rw [h1]
  unfold propLabel
  have : ∀ id, hwpPropertyLabels.lookup id = summaryLabels.lookup id := by
    intro id
    by_cases hm : id ∈ summaryLabels.map (·.1)
    · have hall : ∀ id ∈ summaryLabels.map (·.1), hwpPropertyLabels.lookup id = summaryLabels.lookup id := by decide +kernel
      exact hall id hm
    · have none_of : ∀ (l : List (Nat × String)), id ∉ l.map (·.1) → l.lookup id = none := by
        intro l
        induction l with
        | nil => intro _; rfl
        | cons x l ih =>
          intro hx
          simp only [List.map_cons, List.mem_cons, not_or] at hx
          rw [List.lookup_cons, show (id == x.1) = false by simpa using hx.1]
          exact ih hx.2
      rw [none_of _ hm, none_of]
      intro hc
      have hsub : ∀ id ∈ hwpPropertyLabels.map (·.1), id ∈ summaryLabels.map (·.1) := by decide +kernel
      exact hm (hsub id hc)
  rw [this]
  rfl

/-- C77: the events of the summary information of a stream: every property once, in the order of the
offsets. -/
theorem C77_events (filetime : Nat → PyStr) (data : Bytes) (s : PropStreamObj) (h : readStreamObj data = .ok s) :
    ∃ sorted : PropSetObj → List PropObj, (∀ t ∈ s.sets, InOffsetOrder t.properties (sorted t)) ∧
      summaryEvents filetime s = .ofList (summaryElement s (s.sets.flatMap fun t => setElement filetime t (sorted t))) :=
  ⟨fun t => sortByOffset t.properties, fun t _ => sortByOffset_order _, summary_events filetime s (readStreamObj_ok data s h).1⟩

example : modelToXml sampleEnv (summaryEvents (fun _ => []) sampleSummaryObj) = .ofList [.start (lit "HwpSummaryInfo") [],
    .start (lit "PropertySetStream") [(lit "byte-order", lit "fffe"), (lit "version", lit "0"),
      (lit "system-identifier", lit "00000002"), (lit "clsid", lit "9fa2b660-1061-11d4-b4c6-006097c09d8c")],
    .start (lit "PropertySet") [(lit "fmtid", lit "9fa2b660-1061-11d4-b4c6-006097c09d8c"), (lit "offset", lit "48")],
    .start (lit "Property") [(lit "id", lit "2"), (lit "offset", lit "24"), (lit "id-label", lit "PIDSI_TITLE"),
      (lit "type", lit "VT_LPWSTR"), (lit "type-code", lit "0x001f"), (lit "value", lit "T")], .stop (lit "Property"),
    .start (lit "Property") [(lit "id", lit "0"), (lit "offset", lit "36"), (lit "id-label", lit "PID_DICTIONARY")], .stop (lit "Property"),
    .stop (lit "PropertySet"), .stop (lit "PropertySetStream"), .stop (lit "HwpSummaryInfo")] := by decide +kernel

end Hwp.Props
