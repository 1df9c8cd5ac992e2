/- C102: the tables of a document in HTML and in ODT. -/
import Verif.Proofs.Tables
import Verif.Props.Pages
set_option autoImplicit false
set_option linter.unusedSimpArgs false
set_option linter.unusedVariables false
set_option Elab.async false
namespace Hwp.Props
open Hwp Spec

theorem spanNumbers_texts (rows : List (List CellAt)) : spanNumbers (spanTexts rows) = rows.map fun r => r.map fun c => (c.rowspan, c.colspan) := by
  simp [spanNumbers, spanTexts, List.map_map, Function.comp_def, decimal_nat, xpathNumber_natStr]

theorem perm_map_lift {α β : Type} (b : α → β) (R : List α) : ∀ X : List β, X.Perm (R.map b) → ∃ R' : List α, R'.Perm R ∧ R'.map b = X := by
  induction R with
  | nil =>
    intro X h
    exact ⟨[], .refl _, (List.perm_nil.1 h).symm⟩
  | cons r R ih =>
    intro X h
    have hm : b r ∈ X := h.symm.subset (by simp)
    obtain ⟨s, t, rfl⟩ := List.append_of_mem hm
    have h2 : (s ++ t).Perm (R.map b) := by
      have := (List.perm_middle.symm.trans h : (b r :: (s ++ t)).Perm _)
      exact this.cons_inv
    obtain ⟨R', h3, h4⟩ := ih _ h2
    obtain ⟨R1, R2, rfl, rfl, rfl⟩ := List.map_eq_append_iff.1 h4
    exact ⟨R1 ++ r :: R2, List.perm_middle.trans (h3.cons r), by simp⟩

/-- Pages of tables as pages of records. -/
theorem pages_lift {S A B : Type} (rows : A → List (List (PyStr × PyStr))) (tables : S → B → Prop) (rec : B → List (List (List CellAt))) (ss : List S)
    (pages : List (List A × List A)) (h : List.Forall₂ (fun s pg => ∃ f, tables s f ∧ ((pg.1 ++ pg.2).map rows).Perm ((rec f).map spanTexts)) ss pages) :
    ∃ pages' : List (List (List (List CellAt)) × List (List (List CellAt))),
      List.Forall₂ (fun s p => ∃ f, tables s f ∧ (p.1 ++ p.2).Perm (rec f)) ss pages' ∧
      pages'.map (fun p => (p.1.map spanTexts, p.2.map spanTexts)) = pages.map fun p => (p.1.map rows, p.2.map rows) := by
  induction h with
  | nil => exact ⟨[], .nil, rfl⟩
  | cons h1 _ ih =>
    obtain ⟨f, hf, hp⟩ := h1
    obtain ⟨pages', i1, i2⟩ := ih
    obtain ⟨R, h3, h4⟩ := perm_map_lift spanTexts _ _ hp
    rw [List.map_append] at h4
    obtain ⟨R1, R2, rfl, h5, h6⟩ := List.map_eq_append_iff.1 h4
    exact ⟨(R1, R2) :: pages', .cons ⟨f, hf, h3⟩ i1, by simp [h5, h6, i2]⟩

/-- C102: the page of a proper document has the tables of its sections, in the order of the sections, between tables `H` and `F` from the headers and the
footers of the document.  The tables on the page of a section and those out of view together are the tables of the records, each exactly as often: each
has the rows its body declares, and each cell has the spans its record declares.  A browser shows each cell of a table in the row and the column
its record declares, and over as many rows and columns, if the cells fill a grid and are in reading order.
Missing: that nothing is out of view, which is not so; tables with paragraphs that are not in cells or captions; rows without cells; spans over more than 65534 rows
or 1000 columns, which HTML cuts; and what is missing for C93. -/
theorem C102_html_partial (declaration : Bool) (env : XmlEnv) (rd : ModelReader Fields) (filetime : Nat → PyStr) (d : DocSource)
    (hrd : ReadsDecls d.version rd) (h : ProperDocument rd d) (ht : ∀ s ∈ d.sections, ∀ f, StreamTree rd s.2 f → TidyTables f) (evs : List XEv)
    (he : documentXml env rd filetime d = .ofList evs) (hv : ∀ e ∈ evs, ValuesOk e) :
    ∃ (xml : Bytes) (H F : List (List (List (PyStr × PyStr)))) (pages : List (List (List (List CellAt)) × List (List (List CellAt)))),
      xmlDump declaration (documentXml env rd filetime d) = (xml, none) ∧
      tablesOf parseFile htmlTables xml = some (pages.map fun p => H ++ p.1.map spanTexts ++ F).flatten ∧
      List.Forall₂ (fun s p => ∃ f, StreamTree rd s.2 f ∧ (p.1 ++ p.2).Perm (recordTables f)) d.sections pages ∧
      (pages.map fun p => p.2.map spanTexts).flatten =
        (hiddenTablesInSections htmlPlaces htmlSeesTable .anything (bodyTree (xmlTree (joined evs)))).map tableRows ∧
      (∃ rest, (H ++ rest).Perm ((tablesIn "Header" (xmlTree (joined evs))).map tableRows)) ∧
      (∃ rest, (F ++ rest).Perm ((tablesIn "Footer" (xmlTree (joined evs))).map tableRows)) ∧
      ∀ p ∈ pages, ∀ rows ∈ p.1, ∀ cols, ProperTable cols rows → (∀ c ∈ rows.flatten, c.rowspan ≤ 65534 ∧ c.colspan ≤ 1000) →
        htmlLayout (spanNumbers (spanTexts rows)) = rows.flatten := by
  obtain ⟨bs, h1, -, h3⟩ := C86_document_partial declaration env rd filetime d hrd h evs he hv
  obtain ⟨a0, a1, a2, a3, T1, T2, T3, docinfo, htree, hn, -, -⟩ := doc_nodes env rd filetime d hrd h evs he
  generalize hDoc : xmlTree (joined evs) = doc at *
  obtain ⟨pages, p1, p2, p3⟩ := sections_tables html_agrees htmlShowsTable _ html_sees_tables .all .anything rfl
    (descend (lit "Header") (forEach (lit "HeaderParagraphList") fun cs => walkTables htmlSheet htmlShowsTable cs .paragraphs) doc)
    (descend (lit "Footer") (forEach (lit "FooterParagraphList") fun cs => walkTables htmlSheet htmlShowsTable cs .paragraphs) doc) _ _ hn
    (Q := fun s l => ∃ f, StreamTree rd s.2 f ∧ (l.map tableRows).Perm ((recordTables f).map spanTexts)) (by
      intro s hs cs hc l hl
      obtain ⟨f, hf, k⟩ := sectionOf_tables hrd hc
      exact ⟨f, hf, (hl.map _).trans (k (ht s hs f hf))⟩)
  obtain ⟨pages', q1, q2⟩ := pages_lift tableRows (fun (s : Nat × Bytes) f => StreamTree rd s.2 f) recordTables _ _ p1
  refine ⟨bs,
    (descend (lit "Header") (forEach (lit "HeaderParagraphList") fun cs => walkTables htmlSheet htmlShowsTable cs .paragraphs) doc).map tableRows,
    (descend (lit "Footer") (forEach (lit "FooterParagraphList") fun cs => walkTables htmlSheet htmlShowsTable cs .paragraphs) doc).map tableRows,
    pages', h1, ?_, q1, ?_, ?_, ?_, ?_⟩
  · simp only [tablesOf, h3, Option.map_some, hDoc]
    congr 1
    have e : htmlTables doc = (forEach (lit "SectionDef") (htmlSectionTables doc) T3).map tableRows := by
      have e' : ∀ doc', forEach (lit "HwpDoc") (forEach (lit "BodyText") (forEach (lit "SectionDef") (htmlSectionTables doc'))) doc =
          forEach (lit "SectionDef") (htmlSectionTables doc') T3 := by
        intro doc'
        rw [htree]
        simp [forEach, lit_eq]
      exact congrArg _ (e' _)
    rw [e, show forEach (lit "SectionDef") (htmlSectionTables doc) T3 = _ from p2]
    have e2 : ∀ A B : List (List (List (PyStr × PyStr))), pages'.map (fun p => A ++ p.1.map spanTexts ++ B) =
        pages.map fun p => A ++ p.1.map tableRows ++ B := by
      intro A B
      have := congrArg (List.map fun x : List (List (List (PyStr × PyStr))) × List (List (List (PyStr × PyStr))) => A ++ x.1 ++ B) q2
      simpa only [List.map_map, Function.comp_def] using this
    rw [e2, List.map_flatten, List.map_map]
    congr 1
    apply List.map_congr_left
    intro pg _
    simp
  · have e2 : pages'.map (fun p => p.2.map spanTexts) = pages.map fun p => p.2.map tableRows := by
      have := congrArg (List.map fun x : List (List (List (PyStr × PyStr))) × List (List (List (PyStr × PyStr))) => x.2) q2
      simpa only [List.map_map, Function.comp_def] using this
    have : hiddenTablesInSections htmlPlaces htmlSeesTable .anything (bodyTree doc) = (pages.map (·.2)).flatten := by
      rw [p3, htree]; rfl
    rw [e2, this, List.map_flatten, List.map_map]
    rfl
  · obtain ⟨rest, hr⟩ := descend_tables "Header" "HeaderParagraphList" doc
    exact ⟨rest.map tableRows, by rw [← List.map_append]; exact hr.map _⟩
  · obtain ⟨rest, hr⟩ := descend_tables "Footer" "FooterParagraphList" doc
    exact ⟨rest.map tableRows, by rw [← List.map_append]; exact hr.map _⟩
  · intro p _ rows _ cols hp hl
    rw [spanNumbers_texts, htmlLayout_eq hp (fun c hc => (hl c hc).1) fun c hc => (hl c hc).2]

/-- C102: the content of the text document has the tables of the sections, in the order of the sections.  The tables in it and those out of view
together are the tables of the records, with their rows and the spans of their cells.  An office program shows each cell in the row and the column its record
declares, if the cells fill a grid, are in reading order and none spans more than one row and one column.
Missing: cells that span more, which are put into wrong columns; that nothing is out of view, which is not so; tables with paragraphs that are
not in cells or captions; rows without cells; and what is missing for C93. -/
theorem C102_odt_partial (declaration : Bool) (env : XmlEnv) (rd : ModelReader Fields) (filetime : Nat → PyStr) (d : DocSource)
    (hrd : ReadsDecls d.version rd) (h : ProperDocument rd d) (ht : ∀ s ∈ d.sections, ∀ f, StreamTree rd s.2 f → TidyTables f) (evs : List XEv)
    (he : documentXml env rd filetime d = .ofList evs) (hv : ∀ e ∈ evs, ValuesOk e) :
    ∃ (xml : Bytes) (pages : List (List (List (List CellAt)) × List (List (List CellAt)))),
      xmlDump declaration (documentXml env rd filetime d) = (xml, none) ∧
      tablesOf parseFile odtTables xml = some (pages.map fun p => p.1.map spanTexts).flatten ∧
      List.Forall₂ (fun s p => ∃ f, StreamTree rd s.2 f ∧ (p.1 ++ p.2).Perm (recordTables f)) d.sections pages ∧
      (pages.map fun p => p.2.map spanTexts).flatten =
        (hiddenTablesInSections odtPlaces odtSeesTable .anything (bodyTree (xmlTree (joined evs)))).map tableRows ∧
      ∀ p ∈ pages, ∀ rows ∈ p.1, ∀ cols, ProperTable cols rows → (∀ c ∈ rows.flatten, c.rowspan = 1 ∧ c.colspan = 1) →
        odfLayout (spanNumbers (spanTexts rows)) = rows.flatten := by
  obtain ⟨bs, h1, -, h3⟩ := C86_document_partial declaration env rd filetime d hrd h evs he hv
  obtain ⟨a0, a1, a2, a3, T1, T2, T3, docinfo, htree, hn, -, -⟩ := doc_nodes env rd filetime d hrd h evs he
  generalize hDoc : xmlTree (joined evs) = doc at *
  obtain ⟨pages, p1, p2, p3⟩ := sections_tables odt_agrees odtShowsTable _ odt_sees_tables .all .anything rfl [] [] _ _ hn
    (Q := fun s l => ∃ f, StreamTree rd s.2 f ∧ (l.map tableRows).Perm ((recordTables f).map spanTexts)) (by
      intro s hs cs hc l hl
      obtain ⟨f, hf, k⟩ := sectionOf_tables hrd hc
      exact ⟨f, hf, (hl.map _).trans (k (ht s hs f hf))⟩)
  simp only [List.nil_append, List.append_nil] at p2
  obtain ⟨pages', q1, q2⟩ := pages_lift tableRows (fun (s : Nat × Bytes) f => StreamTree rd s.2 f) recordTables _ _ p1
  refine ⟨bs, pages', h1, ?_, q1, ?_, ?_⟩
  · simp only [tablesOf, h3, Option.map_some, hDoc]
    congr 1
    have e : odtTables doc = ((pages.map (·.1)).flatten).map tableRows := by
      rw [← p2]
      unfold odtTables
      rw [htree]
      simp [forEach, lit_eq]
    have e2 : pages'.map (fun p => p.1.map spanTexts) = pages.map fun p => p.1.map tableRows := by
      have := congrArg (List.map fun x : List (List (List (PyStr × PyStr))) × List (List (List (PyStr × PyStr))) => x.1) q2
      simpa only [List.map_map, Function.comp_def] using this
    rw [e, e2, List.map_flatten, List.map_map]
    rfl
  · have e2 : pages'.map (fun p => p.2.map spanTexts) = pages.map fun p => p.2.map tableRows := by
      have := congrArg (List.map fun x : List (List (List (PyStr × PyStr))) × List (List (List (PyStr × PyStr))) => x.2) q2
      simpa only [List.map_map, Function.comp_def] using this
    have : hiddenTablesInSections odtPlaces odtSeesTable .anything (bodyTree doc) = (pages.map (·.2)).flatten := by
      rw [p3, htree]; rfl
    rw [e2, this, List.map_flatten, List.map_map]
    rfl
  · intro p _ rows _ cols hp hl
    rw [spanNumbers_texts, odfLayout_eq hp hl]

/-! ### A document with tables -/

/-- A cell with an empty paragraph. -/
def gridCellRecords (row col rowspan colspan : UInt8) : Bytes :=
  recordBytes 72 2 ([1, 0, 0, 0, 0, 0, 0, 0] ++ [col, 0, row, 0, colspan, 0, rowspan, 0] ++ List.replicate 22 0) ++
  recordBytes 66 2 [1, 0, 0, 0, 0, 0, 0, 0, 0, 0, 0, 0, 1, 0, 0, 0, 0, 0, 0, 0, 0, 0] ++
  recordBytes 67 3 [13, 0] ++ recordBytes 68 3 [0, 0, 0, 0, 7, 0, 0, 0]

/-- "A" and a table. -/
def gridBody (inline rows cols : UInt8) (widths cells : Bytes) : Bytes :=
  oneParagraph 18 ([0x41, 0] ++ ([11, 0] ++ asciiBytes " lbt" ++ [0, 0, 0, 0, 0, 0, 0, 0, 11, 0]))
    (recordBytes 71 1 (asciiBytes " lbt" ++ [inline, 0, 0, 0] ++ List.replicate 36 0) ++
      recordBytes 77 2 ([0, 0, 0, 0, rows, 0, cols, 0] ++ List.replicate 10 0 ++ widths ++ [1, 0, 0, 0]) ++ cells)

/-- Two rows and three columns: a cell over two rows, a cell over two columns, and two cells below it. -/
def spanningBody : Bytes := gridBody 0 2 3 [2, 0, 2, 0] (gridCellRecords 0 0 2 1 ++ gridCellRecords 0 1 1 2 ++ gridCellRecords 1 1 1 1 ++ gridCellRecords 1 2 1 1)

/-- One row of two cells, in the line. -/
def plainGridBody : Bytes := gridBody 1 1 2 [2, 0] (gridCellRecords 0 0 1 1 ++ gridCellRecords 0 1 1 1)

/-- The items of a cell, before others. -/
def cellItems (t : Nat) (rest : Forest Item) : Forest Item :=
  .node (.tableCell t) .nil (.node (.paragraph false (t + 1)) (.node (.paraText [⟨0, 1, .ctrl (.plain 13)⟩] (t + 2)) .nil
    (.node (.paraCharShape [(0, 7)] (t + 3)) .nil .nil)) rest)

/-- The items of `gridBody`. -/
def gridItems (widths : List Nat) (cells : Forest Item) : Forest Item :=
  .node (.paragraph true 0) (.node (.paraText [⟨0, 8, .ctrl (.other 2 [115, 101, 99, 100] [0, 0, 0, 0, 0, 0, 0, 0])⟩,
    ⟨8, 9, .text [65]⟩, ⟨9, 17, .ctrl (.other 11 [116, 98, 108, 32] [0, 0, 0, 0, 0, 0, 0, 0])⟩, ⟨17, 18, .ctrl (.plain 13)⟩] 1) .nil
    (.node (.paraCharShape [(0, 7)] 2) .nil (.node (.sectionDef none 3) .nil (.node (.tableControl 4)
      (.node (.tableBody (some widths) 5) .nil cells) .nil)))) .nil

theorem spanning_section : SectionWith spanningBody (gridItems [2, 2] (cellItems 6 (cellItems 10 (cellItems 14 (cellItems 18 .nil))))) where
  records := by decide +kernel
  level := by decide +kernel
  models := by decide +kernel
  same := by decide +kernel
  proper := by decide +kernel
  data := by unfold BinDataOk; decide +kernel

theorem plainGrid_section : SectionWith plainGridBody (gridItems [2] (cellItems 6 (cellItems 10 .nil))) where
  records := by decide +kernel
  level := by decide +kernel
  models := by decide +kernel
  same := by decide +kernel
  proper := by decide +kernel
  data := by unfold BinDataOk; decide +kernel

/-- A document with both tables. -/
def gridDoc : DocSource := docWith [spanningBody, plainGridBody]

theorem grid_proper : ProperDocument (directReader [5, 0, 1, 7]) gridDoc :=
  docWith_proper [spanningBody, plainGridBody] (by
    simp only [List.mem_cons, List.not_mem_nil, or_false, forall_eq_or_imp, forall_eq]
    exact ⟨⟨_, spanning_section⟩, _, plainGrid_section⟩)

/-- The events of the file. -/
def gridXml : Gen XEv := documentXml sampleEnv (directReader [5, 0, 1, 7]) (fun _ => []) gridDoc

/-- The cells of the first table. -/
def spanningRows : List (List CellAt) := [[⟨0, 0, 2, 1⟩, ⟨0, 1, 1, 2⟩], [⟨1, 1, 1, 1⟩, ⟨1, 2, 1, 1⟩]]

/-- The cells of the second table. -/
def plainRows : List (List CellAt) := [[⟨0, 0, 1, 1⟩, ⟨0, 1, 1, 1⟩]]

theorem spanning_proper : ProperTable 3 spanningRows where
  fills := by
    refine ⟨by decide, ?_, by decide⟩
    simp only [spanningRows, List.flatten_cons, List.flatten_nil, List.cons_append, List.nil_append, List.append_nil, List.pairwise_cons, List.mem_cons,
      List.not_mem_nil, or_false, forall_eq_or_imp, forall_eq, CellAt.covers, List.Pairwise.nil, and_true, false_implies, implies_true]
    refine ⟨⟨?_, ?_, ?_⟩, ⟨?_, ?_⟩, ?_⟩ <;> intro i j h <;> omega
  order := by simp [ReadingOrder, spanningRows]
  inRow := by
    intro i row hi c hc
    match i, hi with
    | 0, hi => simp [spanningRows] at hi; subst hi; simp at hc; rcases hc with rfl | rfl <;> rfl
    | 1, hi => simp [spanningRows] at hi; subst hi; simp at hc; rcases hc with rfl | rfl <;> rfl
    | i + 2, hi => simp [spanningRows] at hi

/-- The records below the controls of the tables: they declare these tables, and the paragraphs are those of the cells. -/
example : (streamModels (directReader [5, 0, 1, 7]) spanningBody).out.map (fun m => (m.type, m.record.level)) =
    [("Paragraph", 0), ("ParaText", 1), ("ParaCharShape", 1), ("SectionDef", 1), ("TableControl", 1), ("TableBody", 2)] ++
      (List.replicate 4 [("TableCell", 2), ("Paragraph", 2), ("ParaText", 3), ("ParaCharShape", 3)]).flatten ∧
    recordRows ((streamModels (directReader [5, 0, 1, 7]) spanningBody).out.filter fun m => m.record.level = 2) = spanningRows ∧
    TidyList false ((streamModels (directReader [5, 0, 1, 7]) spanningBody).out.filter fun m => m.record.level = 2) := by decide +kernel

/-- C102 is violated by the text document: the table with spans has the rows and spans of the records, and a browser shows it as declared; but an office program
puts the first cell of the second row into the first column, where the record does not put it and which another cell covers.  `hwp5odt` writes no
`table:covered-table-cell`. -/
theorem C102_spans_shift :
    ProperDocument (directReader [5, 0, 1, 7]) gridDoc ∧ ProperTable 3 spanningRows ∧
    recordRows ((streamModels (directReader [5, 0, 1, 7]) spanningBody).out.filter fun m => m.record.level = 2) = spanningRows ∧
    tablesOf parseFile htmlTables (xmlDump true gridXml).1 = some [spanTexts spanningRows, spanTexts plainRows] ∧
    tablesOf parseFile odtTables (xmlDump true gridXml).1 = some [spanTexts spanningRows, spanTexts plainRows] ∧
    htmlLayout (spanNumbers (spanTexts spanningRows)) = spanningRows.flatten ∧
    odfLayout (spanNumbers (spanTexts spanningRows)) = [⟨0, 0, 2, 1⟩, ⟨0, 1, 1, 2⟩, ⟨1, 0, 1, 1⟩, ⟨1, 1, 1, 1⟩] := by
  refine ⟨grid_proper, spanning_proper, by decide +kernel, ?_⟩
  obtain ⟨es, X, -, h2, -⟩ := document_shown sampleEnv (directReader [5, 0, 1, 7]) (fun _ => []) gridDoc ((C68_reader _ _).2 rfl) grid_proper
  have hX : gridXml = .ofList X := h2
  have h : (fun X : List XEv => X.all valuesOkB &&
      (fun T => htmlTables T == [spanTexts spanningRows, spanTexts plainRows] &&
        odtTables T == [spanTexts spanningRows, spanTexts plainRows]) (xmlTree (joined X))) gridXml.out = true := by decide +kernel
  rw [hX] at h
  simp only [Gen.ofList, Bool.and_eq_true, beq_iff_eq, List.all_eq_true] at h
  obtain ⟨bs, g1, -, g2⟩ := C86_document_partial true sampleEnv (directReader [5, 0, 1, 7]) (fun _ => []) gridDoc ((C68_reader _ _).2 rfl) grid_proper X h2
    fun e he => valuesOk_of e (h.1 e he)
  unfold tablesOf gridXml
  rw [g1]
  dsimp only
  rw [g2]
  exact ⟨congrArg some h.2.1, congrArg some h.2.2, by decide +kernel, by decide +kernel⟩

/-- C102 is violated: a table in the text of a note is not on the page, as nothing there is (C99), and one in a header is not in the text document. -/
example : htmlTables (el "HwpDoc" [] (el "BodyText" [] (el "SectionDef" [] (el "Paragraph" [] (el "LineSeg" [] (el "FootNote" []
    (el "ListHeader" [] (el "Paragraph" [] (el "LineSeg" [] (el "TableControl" [("inline", "1")] .nil .nil) .nil) .nil) .nil) .nil) .nil) .nil) .nil) .nil) .nil) = [] ∧
  odtTables (el "HwpDoc" [] (el "BodyText" [] (el "SectionDef" [] (el "Paragraph" [] (el "LineSeg" [] (el "Header" []
    (el "HeaderParagraphList" [] (el "Paragraph" [] (el "LineSeg" [] (el "TableControl" [("inline", "1")] .nil .nil) .nil) .nil) .nil) .nil) .nil) .nil) .nil) .nil) .nil) = [] := by
  decide +kernel

/-- Tables in the line and behind the paragraph, in the order of the page; a table in a cell. -/
example : (fun t => htmlTables (el "HwpDoc" [] (el "BodyText" [] (el "SectionDef" [] (el "Paragraph" [] (el "LineSeg" []
      (el "TableControl" [("inline", "0")] (el "TableBody" [] (el "TableRow" [] (t "1" "2" .nil) (el "TableRow" [] (t "3" "1" (t "1" "1" .nil)) .nil)) .nil)
        (el "TableControl" [("inline", "1")] (el "TableBody" [] (el "TableRow" [] (t "7" "7" .nil) .nil) .nil) .nil)) .nil) .nil) .nil) .nil) .nil))
    (fun r c rest => el "TableCell" [("rowspan", r), ("colspan", c)] .nil rest) =
    [[[(lit "7", lit "7")]], [[(lit "1", lit "2")], [(lit "3", lit "1"), (lit "1", lit "1")]]] := by decide +kernel

/-- Cells go to the free columns. -/
example : htmlLayout [[(2, 1), (1, 1)], [(1, 1)]] = [⟨0, 0, 2, 1⟩, ⟨0, 1, 1, 1⟩, ⟨1, 1, 1, 1⟩] := by decide +kernel

end Hwp.Props
