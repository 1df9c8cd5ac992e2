/- C93, C94: the text of a document in HTML and in ODT. -/
import Verif.Proofs.PagesDoc
import Verif.Props.Document
import Verif.Props.Html
import Verif.Props.DeclReader
set_option autoImplicit false
set_option linter.unusedSimpArgs false
set_option linter.unusedVariables false
set_option Elab.async false
namespace Hwp.Props
open Hwp Spec

/-- C93: the HTML of a proper document has a page for every section, in their order, between texts `H` and `F` from the headers and the
footers of the document.  The text of the page and the text out of view together are the text of all paragraphs of the section, every
character exactly as often; and out of view is what is not in the lines of a paragraph, or in something else in a line than
text, tables and drawings.  If tables and drawings are in the flow of the text, it is in the order of the document.
Missing: that nothing is out of view, which is not so; values with characters XML does not allow and text with carriage
returns, as for C74. -/
theorem C93_html_partial (declaration : Bool) (env : XmlEnv) (rd : ModelReader Fields) (filetime : Nat → PyStr) (d : DocSource)
    (hrd : ReadsDecls d.version rd) (h : ProperDocument rd d) (evs : List XEv)
    (he : documentXml env rd filetime d = .ofList evs) (hv : ∀ e ∈ evs, ValuesOk e) :
    ∃ (xml : Bytes) (pieces : List Piece) (H F : PyStr) (pages : List (PyStr × PyStr)),
      xmlDump declaration (documentXml env rd filetime d) = (xml, none) ∧
      pagesOf parseFile htmlBody xml = some pieces ∧
      printed pieces = (pages.map fun p => H ++ p.1 ++ F).flatten ∧
      List.Forall₂ (fun s p => ∃ f, StreamTree rd s.2 f ∧ (p.1 ++ p.2).Perm (noNul (documentText (f.map fun q => itemOf q.1 q.2))))
        d.sections pages ∧
      (pages.map (·.2)).flatten = hiddenSections htmlPlaces .anything (bodyTree (xmlTree (joined evs))) ∧
      (everyElem htmlFlows (bodyTree (xmlTree (joined evs))) = true →
        (pages.map (·.1)).flatten.Sublist (allTexts (bodyTree (xmlTree (joined evs))))) ∧
      (∃ rest, (H ++ rest).Perm (textIn "Header" (xmlTree (joined evs)))) ∧ ∃ rest, (F ++ rest).Perm (textIn "Footer" (xmlTree (joined evs))) := by
  obtain ⟨bs, h1, -, h3⟩ := C86_document_partial declaration env rd filetime d hrd h evs he hv
  obtain ⟨a0, a1, a2, a3, T1, T2, T3, docinfo, ht, hn, -⟩ := doc_nodes env rd filetime d hrd h evs he
  obtain ⟨pages, p1, p2, p3, p4⟩ := sections_pages html_agrees .all .anything rfl
    (descend (lit "Header") (forEach (lit "HeaderParagraphList") fun cs => walk htmlSheet cs .paragraphs) (xmlTree (joined evs)))
    (descend (lit "Footer") (forEach (lit "FooterParagraphList") fun cs => walk htmlSheet cs .paragraphs) (xmlTree (joined evs))) _ _ hn
    (Q := fun s p => ∃ f, StreamTree rd s.2 f ∧ p.Perm (noNul (documentText (f.map fun q => itemOf q.1 q.2)))) (by
      intro s _ cs hc p hp
      obtain ⟨f, hf, ht⟩ := sectionOf_text hc
      exact ⟨f, hf, hp.trans ht⟩)
  refine ⟨bs, _, _, _, pages, h1, by simp only [pagesOf, h3]; rfl, ?_, ?_, ?_, ?_, descend_part "Header" "HeaderParagraphList" _,
    descend_part "Footer" "FooterParagraphList" _⟩
  · rw [← p2]
    have e : ∀ doc, forEach (lit "HwpDoc") (forEach (lit "BodyText") (forEach (lit "SectionDef") (htmlSection doc))) (xmlTree (joined evs)) =
        forEach (lit "SectionDef") (htmlSection doc) T3 := by
      intro doc
      rw [ht]
      simp [forEach, lit_eq]
    exact congrArg printed (e _)
  · exact p1
  · rw [p3, ht]; rfl
  · rw [p4, ht]
    exact sections_order htmlSheet htmlFlows .all (fun T h => html_order T h .all) T3

/-- C94: the content of the ODT of a proper document has the text of its sections, in their order.  The text of a section and the
text out of view together are the text of all its paragraphs, every character exactly as often; and out of view is what is not
in the lines of a paragraph, or in something else in a line than text, the cells of tables, the boxes of drawings and notes.
If there are no tables, the text is in the order of the document.
Missing: that nothing is out of view, which is not so; and what is missing for C93. -/
theorem C94_odt_partial (declaration : Bool) (env : XmlEnv) (rd : ModelReader Fields) (filetime : Nat → PyStr) (d : DocSource)
    (hrd : ReadsDecls d.version rd) (h : ProperDocument rd d) (evs : List XEv)
    (he : documentXml env rd filetime d = .ofList evs) (hv : ∀ e ∈ evs, ValuesOk e) :
    ∃ (xml : Bytes) (pieces : List Piece) (pages : List (PyStr × PyStr)),
      xmlDump declaration (documentXml env rd filetime d) = (xml, none) ∧
      pagesOf parseFile odtBody xml = some pieces ∧
      printed pieces = (pages.map (·.1)).flatten ∧
      List.Forall₂ (fun s p => ∃ f, StreamTree rd s.2 f ∧ (p.1 ++ p.2).Perm (noNul (documentText (f.map fun q => itemOf q.1 q.2))))
        d.sections pages ∧
      (pages.map (·.2)).flatten = hiddenSections odtPlaces .anything (bodyTree (xmlTree (joined evs))) ∧
      (everyElem odtFlows (bodyTree (xmlTree (joined evs))) = true →
        (pages.map (·.1)).flatten.Sublist (allTexts (bodyTree (xmlTree (joined evs))))) := by
  obtain ⟨bs, h1, -, h3⟩ := C86_document_partial declaration env rd filetime d hrd h evs he hv
  obtain ⟨a0, a1, a2, a3, T1, T2, T3, docinfo, ht, hn, -⟩ := doc_nodes env rd filetime d hrd h evs he
  obtain ⟨pages, p1, p2, p3, p4⟩ := sections_pages odt_agrees .all .anything rfl [] [] _ _ hn
    (Q := fun s p => ∃ f, StreamTree rd s.2 f ∧ p.Perm (noNul (documentText (f.map fun q => itemOf q.1 q.2)))) (by
      intro s _ cs hc p hp
      obtain ⟨f, hf, ht⟩ := sectionOf_text hc
      exact ⟨f, hf, hp.trans ht⟩)
  refine ⟨bs, _, pages, h1, by simp only [pagesOf, h3]; rfl, ?_, ?_, ?_, ?_⟩
  · have e : (pages.map (·.1)).flatten = (pages.map fun pg => printed [] ++ pg.1 ++ printed []).flatten := by
      congr 1
      apply List.map_congr_left
      intro p _
      simp [printed]
    rw [e, ← p2]
    dsimp only
    rw [ht]
    simp [odtBody, forEach, lit_eq]
  · exact p1
  · rw [p3, ht]; rfl
  · rw [p4, ht]
    exact sections_order odtSheet odtFlows .all (fun T h => odt_order T h .all) T3

/-- C93, what is not so: the title of the page is the title of the document.  It is empty, whatever the title of the document: the
properties are not children of `HwpSummaryInfo`. -/
theorem C93_title (declaration : Bool) (env : XmlEnv) (rd : ModelReader Fields) (filetime : Nat → PyStr) (d : DocSource)
    (hrd : ReadsDecls d.version rd) (h : ProperDocument rd d) (evs : List XEv)
    (he : documentXml env rd filetime d = .ofList evs) (hv : ∀ e ∈ evs, ValuesOk e) :
    ∃ xml, xmlDump declaration (documentXml env rd filetime d) = (xml, none) ∧
      (parseFile xml).map (fun X => htmlTitle (xmlTree X)) = some [] := by
  obtain ⟨bs, h1, -, h3⟩ := C86_document_partial declaration env rd filetime d hrd h evs he hv
  obtain ⟨a0, a1, a2, a3, T1, T2, T3, docinfo, ht, -, ⟨as, K, rfl⟩, -⟩ := doc_nodes env rd filetime d hrd h evs he
  refine ⟨bs, h1, ?_⟩
  rw [h3, Option.map_some, ht]
  simp [htmlTitle, forEach, titleValue, lit_eq]

/-- The template finds a title that is where it looks for it; the title of the sample document is "T". -/
example : htmlTitle (.node (.elem (lit "HwpDoc") []) (.node (.elem (lit "HwpSummaryInfo") []) (.node (.elem (lit "Property")
    [(lit "name", lit "PIDSI_TITLE"), (lit "value", lit "T")]) .nil .nil) .nil) .nil) = lit "T" := by decide +kernel
example : sampleDoc.summary.sets.map (fun s => s.properties.map (·.label)) = [[some "PID_DICTIONARY", some "PIDSI_TITLE"]] := by decide +kernel

/-! ### Small trees -/

/-- An element. -/
def el (name : String) (as : List (String × String)) (kids : Forest XNode) (sibs : Forest XNode := .nil) : Forest XNode :=
  .node (.elem (lit name) (as.map fun a => (lit a.1, lit a.2))) kids sibs
def txt (t : String) (sibs : Forest XNode := .nil) : Forest XNode := .node (.elem (lit "Text") []) (.node (.text (lit t)) .nil .nil) sibs

/-- A paragraph "a", a table with a caption "t" and the cells "b", "c", and "d". -/
def tableTree (inline : String) : Forest XNode :=
  el "Paragraph" [] (el "LineSeg" [] (txt "a" (el "TableControl" [("inline", inline)]
    (el "TableCaption" [] (el "Paragraph" [] (el "LineSeg" [] (txt "t")))
      (el "TableBody" [] (el "TableRow" [] (el "TableCell" [] (el "Paragraph" [] (el "LineSeg" [] (txt "b")))
        (el "TableCell" [] (el "Paragraph" [] (el "LineSeg" [] (txt "c")))))))) (txt "d"))))

example : printed (walk htmlSheet (tableTree "1") .all) = lit "atbcd" ∧ hiddenText htmlPlaces (tableTree "1") .anything = [] ∧
    everyElem htmlFlows (tableTree "1") = true := by decide +kernel
example : printed (walk htmlSheet (tableTree "0") .all) = lit "adtbc" ∧ hiddenText htmlPlaces (tableTree "0") .anything = [] ∧
    everyElem htmlFlows (tableTree "0") = false := by decide +kernel
example : printed (walk odtSheet (tableTree "1") .all) = lit "adbc" ∧ hiddenText odtPlaces (tableTree "1") .anything = lit "t" := by decide +kernel

/-- A paragraph with a drawing that has text in a rectangle, and a note. -/
def boxTree : Forest XNode :=
  el "Paragraph" [] (el "LineSeg" [] (txt "a" (el "GShapeObjectControl" [("inline", "1")]
    (el "ShapeComponent" [("chid", "$rec")] (el "TextboxParagraphList" [] (el "Paragraph" [] (el "LineSeg" [] (txt "b")))))
    (el "FootNote" [("number", "7")] (el "ListHeader" [] (el "Paragraph" [] (el "LineSeg" [] (txt "c")))) (txt "d")))))

example : printed (walk htmlSheet boxTree .all) = lit "abd" ∧ hiddenText htmlPlaces boxTree .anything = lit "c" := by decide +kernel
example : printed (walk odtSheet boxTree .all) = lit "abcd" ∧ hiddenText odtPlaces boxTree .anything = [] ∧
    everyElem odtFlows boxTree = true ∧ Piece.other (lit "7") ∈ walk odtSheet boxTree .all := by decide +kernel

/-! ### What is not printed -/

/-- A section with this paragraph: its text, and the records of its controls. -/
def oneParagraph (chars : Nat) (text controls : Bytes) : Bytes :=
  recordBytes 66 0 ([UInt8.ofNat chars, 0, 0, 0, 4, 0, 0, 0, 0, 0, 0, 3, 1, 0, 0, 0, 0, 0, 0, 0, 0, 0]) ++
  recordBytes 67 1 ([2, 0] ++ asciiBytes "dces" ++ [0, 0, 0, 0, 0, 0, 0, 0, 2, 0] ++ text ++ [13, 0]) ++
  recordBytes 68 1 [0, 0, 0, 0, 7, 0, 0, 0] ++
  recordBytes 71 1 (asciiBytes "dces" ++ List.replicate 34 0) ++ controls

/-- "A", a hyperlink "B", "C". -/
def linkBody : Bytes :=
  oneParagraph 28 ([0x41, 0] ++ ([3, 0] ++ asciiBytes "klh%" ++ [0, 0, 0, 0, 0, 0, 0, 0, 3, 0]) ++ [0x42, 0] ++
      ([4, 0] ++ asciiBytes "klh%" ++ [0, 0, 0, 0, 0, 0, 0, 0, 4, 0]) ++ [0x43, 0])
    (recordBytes 71 1 (asciiBytes "klh%" ++ [0, 0, 0, 0, 0, 0, 0, 1, 0, 0, 0]))

/-- "A" and a control with a list of one paragraph "N". -/
def listBody (code : UInt8) (chid : String) (control : Bytes) : Bytes :=
  oneParagraph 18 ([0x41, 0] ++ ([code, 0] ++ asciiBytes chid ++ [0, 0, 0, 0, 0, 0, 0, 0, code, 0]))
    (recordBytes 71 1 (asciiBytes chid ++ control) ++
      recordBytes 72 2 ([1, 0, 0, 0, 0, 0, 0, 0] ++ List.replicate 20 0) ++
      recordBytes 66 2 [2, 0, 0, 0, 0, 0, 0, 0, 0, 0, 0, 0, 1, 0, 0, 0, 0, 0, 0, 0, 0, 0] ++
      recordBytes 67 3 [0x4e, 0, 13, 0] ++ recordBytes 68 3 [0, 0, 0, 0, 7, 0, 0, 0])

/-- The sample document with these sections. -/
def docWith (bodies : List Bytes) : DocSource := { sampleDoc with sections := bodies.mapIdx fun i b => (i, b) }

/-- The section has these items. -/
structure SectionWith (b : Bytes) (items : Forest Item) : Prop where
  records : (readRecords b).err = none
  level : ((readRecords b).out[0]?).map Record.level = some 0
  models : (streamModels (directReader [5, 0, 1, 7]) b).err = none
  same : ((streamModels (directReader [5, 0, 1, 7]) b).out.mapIdx fun i m => (m.record.level, itemOf i m)) = depthsOf 0 items
  proper : ProperSection items
  data : BinDataOk (streamModels (directReader [5, 0, 1, 7]) b).out

theorem docWith_proper (bodies : List Bytes) (h : ∀ b ∈ bodies, ∃ items, SectionWith b items) :
    ProperDocument (directReader [5, 0, 1, 7]) (docWith bodies) where
  version := sample_proper.version
  summary := sample_proper.summary
  docinfo := sample_proper.docinfo
  docinfoTypes := sample_proper.docinfoTypes
  docinfoData := sample_proper.docinfoData
  embedded := sample_proper.embedded
  sections := by
    intro s hs
    obtain ⟨i, hi, rfl⟩ := List.mem_mapIdx.1 hs
    obtain ⟨items, hb⟩ := h _ (List.getElem_mem hi)
    obtain ⟨f, hf⟩ := streamTree_exists (directReader [5, 0, 1, 7]) bodies[i] hb.records (by
      intro r hr
      have := hb.level
      rw [hr] at this
      simpa using this) hb.models
    refine ⟨f, hf, ?_⟩
    have : f.map (fun p => itemOf p.1 p.2) = items := by
      apply depthsOf_inj _ _ 0
      rw [depthsOf_map, streamTree_depths hf, ← hb.same]
      exact List.ext_getElem (by simp) (by simp)
    rw [this]
    exact hb.proper
  sectionData := by
    intro s hs
    obtain ⟨i, hi, rfl⟩ := List.mem_mapIdx.1 hs
    exact (h _ (List.getElem_mem hi)).choose_spec.data

/-- The text of the section is `t`. -/
def HasText (b : Bytes) (t : String) : Prop :=
  ∃ f, StreamTree (directReader [5, 0, 1, 7]) b f ∧ documentText (f.map fun p => itemOf p.1 p.2) = lit t

theorem hasText_of (b : Bytes) (items : Forest Item) (t : String) (hb : SectionWith b items) (h : documentText items = lit t) : HasText b t := by
  obtain ⟨f, hf⟩ := streamTree_exists (directReader [5, 0, 1, 7]) b hb.records (by
    intro r hr
    have := hb.level
    rw [hr] at this
    simpa using this) hb.models
  refine ⟨f, hf, ?_⟩
  have : f.map (fun p => itemOf p.1 p.2) = items := by
    apply depthsOf_inj _ _ 0
    rw [depthsOf_map, streamTree_depths hf, ← hb.same]
    exact List.ext_getElem (by simp) (by simp)
  rw [this]
  exact h

/-- The items of `linkBody`. -/
def linkItems : Forest Item :=
  .node (.paragraph true 0) (.node (.paraText [⟨0, 8, .ctrl (.other 2 [115, 101, 99, 100] [0, 0, 0, 0, 0, 0, 0, 0])⟩,
    ⟨8, 9, .text [65]⟩, ⟨9, 17, .ctrl (.other 3 [37, 104, 108, 107] [0, 0, 0, 0, 0, 0, 0, 0])⟩, ⟨17, 18, .text [66]⟩,
    ⟨18, 26, .ctrl (.other 4 [37, 104, 108, 107] [0, 0, 0, 0, 0, 0, 0, 0])⟩, ⟨26, 27, .text [67]⟩, ⟨27, 28, .ctrl (.plain 13)⟩] 1) .nil
    (.node (.paraCharShape [(0, 7)] 2) .nil (.node (.sectionDef none 3) .nil (.node (.field 75 4) .nil .nil)))) .nil

/-- The items of `listBody`. -/
def listItems (code : Nat) (chid : Bytes) (control list : Nat) : Forest Item :=
  .node (.paragraph true 0) (.node (.paraText [⟨0, 8, .ctrl (.other 2 [115, 101, 99, 100] [0, 0, 0, 0, 0, 0, 0, 0])⟩,
    ⟨8, 9, .text [65]⟩, ⟨9, 17, .ctrl (.other code chid [0, 0, 0, 0, 0, 0, 0, 0])⟩, ⟨17, 18, .ctrl (.plain 13)⟩] 1) .nil
    (.node (.paraCharShape [(0, 7)] 2) .nil (.node (.sectionDef none 3) .nil (.node (.control control 4)
      (.node (.listHeader list 5) .nil (.node (.paragraph false 6)
        (.node (.paraText [⟨0, 1, .text [78]⟩, ⟨1, 2, .ctrl (.plain 13)⟩] 7) .nil (.node (.paraCharShape [(0, 7)] 8) .nil .nil)) .nil)) .nil)))) .nil

/-- "A" with a footnote "N". -/
def noteBody : Bytes := listBody 17 "  nf" (List.replicate 12 0)

/-- "A", and a header "N". -/
def headerBody : Bytes := listBody 16 "daeh" (List.replicate 4 0)

theorem link_section : SectionWith linkBody linkItems where
  records := by decide +kernel
  level := by decide +kernel
  models := by decide +kernel
  same := by decide +kernel
  proper := by decide +kernel
  data := by unfold BinDataOk; decide +kernel

theorem note_section : SectionWith noteBody (listItems 17 [102, 110, 32, 32] 52 22) where
  records := by decide +kernel
  level := by decide +kernel
  models := by decide +kernel
  same := by decide +kernel
  proper := by decide +kernel
  data := by unfold BinDataOk; decide +kernel

theorem header_section : SectionWith headerBody (listItems 16 [104, 101, 97, 100] 50 101) where
  records := by decide +kernel
  level := by decide +kernel
  models := by decide +kernel
  same := by decide +kernel
  proper := by decide +kernel
  data := by unfold BinDataOk; decide +kernel

theorem plain_section : SectionWith sampleBody sampleItems where
  records := by decide +kernel
  level := by decide +kernel
  models := by decide +kernel
  same := by decide +kernel
  proper := by decide +kernel
  data := by unfold BinDataOk; decide +kernel

/-- The events of the file of a document with these sections. -/
def docXml (bodies : List Bytes) : Gen XEv := documentXml sampleEnv (directReader [5, 0, 1, 7]) (fun _ => []) (docWith bodies)

/-- What is printed of a document with these sections. -/
def samplePages (body : Forest XNode → List Piece) (bodies : List Bytes) : Option PyStr :=
  (pagesOf parseFile body (xmlDump true (docXml bodies)).1).map printed

/-- The values of an event are ones that XML has. -/
def valuesOkB : XEv → Bool
  | .start _ as => as.all fun a => a.2.all fun c => xmlChar c || c == 0
  | .stop _ => true
  | .text t => (t.all fun c => xmlChar c || c == 0) && !t.contains 0xD

theorem valuesOk_of (e : XEv) (h : valuesOkB e = true) : ValuesOk e := by
  cases e with
  | start n as =>
    simp only [valuesOkB, List.all_eq_true, Bool.or_eq_true, beq_iff_eq] at h
    exact h
  | stop n => trivial
  | text t =>
    simp only [valuesOkB, Bool.and_eq_true, List.all_eq_true, Bool.or_eq_true, beq_iff_eq, Bool.not_eq_true',
      List.contains_eq_mem, decide_eq_false_iff_not] at h
    exact h

theorem link_proper : ProperDocument (directReader [5, 0, 1, 7]) (docWith [linkBody]) ∧ HasText linkBody "ABC" :=
  ⟨docWith_proper _ (by simp only [List.mem_singleton, forall_eq]; exact ⟨_, link_section⟩), hasText_of _ _ _ link_section (by decide +kernel)⟩
theorem note_proper : ProperDocument (directReader [5, 0, 1, 7]) (docWith [noteBody]) ∧ HasText noteBody "AN" :=
  ⟨docWith_proper _ (by simp only [List.mem_singleton, forall_eq]; exact ⟨_, note_section⟩), hasText_of _ _ _ note_section (by decide +kernel)⟩
theorem header_proper : ProperDocument (directReader [5, 0, 1, 7]) (docWith [headerBody, sampleBody]) ∧ HasText headerBody "AN" ∧ HasText sampleBody "A" :=
  ⟨docWith_proper _ (by simp only [List.mem_cons, List.not_mem_nil, or_false, forall_eq_or_imp, forall_eq]; exact ⟨⟨_, header_section⟩, _, plain_section⟩),
    hasText_of _ _ _ header_section (by decide +kernel), hasText_of _ _ _ plain_section (by decide +kernel)⟩

/-- What is seen from the events is printed. -/
theorem pages_of (bodies : List Bytes) (html odt : String) (hp : ProperDocument (directReader [5, 0, 1, 7]) (docWith bodies))
    (h : (fun X : List XEv => X.all valuesOkB && (fun T => printed (htmlBody T) == lit html && printed (odtBody T) == lit odt) (xmlTree (joined X)))
      (docXml bodies).out = true) :
    samplePages htmlBody bodies = some (lit html) ∧ samplePages odtBody bodies = some (lit odt) := by
  obtain ⟨es, X, -, h2, -⟩ := document_shown sampleEnv (directReader [5, 0, 1, 7]) (fun _ => []) (docWith bodies) ((C68_reader _ _).2 rfl) hp
  have hX : docXml bodies = .ofList X := h2
  rw [hX] at h
  simp only [Gen.ofList, Bool.and_eq_true, beq_iff_eq, List.all_eq_true] at h
  obtain ⟨bs, g1, -, g2⟩ := C86_document_partial true sampleEnv (directReader [5, 0, 1, 7]) (fun _ => []) (docWith bodies) ((C68_reader _ _).2 rfl) hp X h2
    fun e he => valuesOk_of e (h.1 e he)
  unfold samplePages docXml pagesOf
  rw [g1]
  dsimp only
  rw [g2]
  exact ⟨congrArg some h.2.1, congrArg some h.2.2⟩

theorem link_pages : samplePages htmlBody [linkBody] = some (lit "AC") ∧ samplePages odtBody [linkBody] = some (lit "AC") :=
  pages_of _ _ _ link_proper.1 (by decide +kernel)
theorem note_pages : samplePages htmlBody [noteBody] = some (lit "A") ∧ samplePages odtBody [noteBody] = some (lit "AN") :=
  pages_of _ _ _ note_proper.1 (by decide +kernel)
theorem header_pages : samplePages htmlBody [headerBody, sampleBody] = some (lit "NANA") ∧
    samplePages odtBody [headerBody, sampleBody] = some (lit "AA") :=
  pages_of _ _ _ header_proper.1 (by decide +kernel)

/-- C93, what is lost: the text of a hyperlink and of a footnote is not in the HTML of proper documents; a header is before each section,
also before those it does not belong to. -/
theorem C93_lost :
    ((ProperDocument (directReader [5, 0, 1, 7]) (docWith [linkBody]) ∧ HasText linkBody "ABC") ∧
      samplePages htmlBody [linkBody] = some (lit "AC")) ∧
    ((ProperDocument (directReader [5, 0, 1, 7]) (docWith [noteBody]) ∧ HasText noteBody "AN") ∧
      samplePages htmlBody [noteBody] = some (lit "A")) ∧
    (ProperDocument (directReader [5, 0, 1, 7]) (docWith [headerBody, sampleBody]) ∧ HasText headerBody "AN" ∧ HasText sampleBody "A") ∧
      samplePages htmlBody [headerBody, sampleBody] = some (lit "NANA") :=
  ⟨⟨link_proper, link_pages.1⟩, ⟨note_proper, note_pages.1⟩, header_proper, header_pages.1⟩

/-- C94, what is lost: the text of a hyperlink and of a header is not in the ODT of proper documents.  (That of a footnote is.) -/
theorem C94_lost :
    ((ProperDocument (directReader [5, 0, 1, 7]) (docWith [linkBody]) ∧ HasText linkBody "ABC") ∧
      samplePages odtBody [linkBody] = some (lit "AC")) ∧
    ((ProperDocument (directReader [5, 0, 1, 7]) (docWith [noteBody]) ∧ HasText noteBody "AN") ∧
      samplePages odtBody [noteBody] = some (lit "AN")) ∧
    (ProperDocument (directReader [5, 0, 1, 7]) (docWith [headerBody, sampleBody]) ∧ HasText headerBody "AN" ∧ HasText sampleBody "A") ∧
      samplePages odtBody [headerBody, sampleBody] = some (lit "AA") :=
  ⟨⟨link_proper, link_pages.2⟩, ⟨note_proper, note_pages.2⟩, header_proper, header_pages.2⟩

/-- The sample document: all of its text is printed. -/
example : samplePages htmlBody [sampleBody] = some (lit "A") ∧ samplePages odtBody [sampleBody] = some (lit "A") :=
  pages_of _ _ _ sample_proper (by decide +kernel)

end Hwp.Props
