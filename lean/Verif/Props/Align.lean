/-
C107: paragraphs are aligned as their paragraph shapes say, in a browser and in an office program, where they also begin new pages.
-/
import Verif.Proofs.AlignRecords
import Verif.Props.InfoRecords
set_option linter.unusedSimpArgs false
set_option linter.unusedVariables false
set_option autoImplicit false
set_option Elab.async false
namespace Hwp.Props
open Hwp Spec

/-! ### By the XML file -/

/-- C107: the paragraph around a run of text is aligned as the paragraph shape of the paragraph says: to the left, to the right, in the center, or else justified.
Missing: documents without the one table of ids; styles with names that are no classes or not distinct (`C107_style_lost`); paragraphs with
the paragraph shape of their style, if this is a style of characters (`C107_char_style`). -/
theorem C107_html_partial (doc T : Forest XNode) (ids : List (PyStr × PyStr)) (h : TablesAre doc ids T) (hN : ProperNames T) (embed : Bool)
    (r : HtmlRun) (hm : r ∈ htmlRuns doc) (s j : Nat) (hr : ShapedPara r.para s j) (st p : List (PyStr × PyStr) × Forest XNode)
    (hs : (entries "Style" T)[s]? = some st) (hj : (entries "ParaShape" T)[j]? = some p)
    (hk : attrOf st.1 "parashape-id" = some (Spec.decimal j) → attrOf st.1 "kind" = some (lit "paragraph"))
    (align : PyStr) (ha : attrOf p.1 "align" = some align) :
    ∃ span block around, r.path = span :: block :: around ∧ block.1 = lit "p" ∧
      styledValue (pageRules embed doc) (lit "text-align") (block :: around) = some (shownAlign align) := by
  obtain ⟨rest, hpath, _⟩ := htmlRuns_path doc r hm
  exact ⟨_, _, rest, hpath, rfl, styled_align h hN embed hr hs hj hk rest ha⟩

/-- C107: the same in an office program.
Missing: documents without the one table of ids; styles whose names are not distinct after the replacements, or taken (`C103_same_name`). -/
theorem C107_odt_partial (doc T : Forest XNode) (ids : List (PyStr × PyStr)) (h : TablesAre doc ids T) (hN : OfficeNames T) (hP : ParagraphsNumbered doc)
    (r : OdtRun) (hm : r ∈ odtRuns doc) (s j q : Nat) (hr : ShapedPara r.para s j) (st p d : List (PyStr × PyStr) × Forest XNode)
    (hs : (entries "Style" T)[s]? = some st) (hq : attrOf st.1 "parashape-id" = some (Spec.decimal q))
    (hj : (entries "ParaShape" T)[j]? = some p) (hd : (entries "ParaShape" T)[q]? = some d)
    (align : PyStr) (ha : attrOf p.1 "align" = some align) :
    paraValue (automaticStyles doc) (commonStyles doc) "fo:text-align" r.paraStyle = some (shownAlign align) ∧
    paraValue (automaticStyles doc) (commonStyles doc) "fo:break-before" r.paraStyle =
      if attrOf r.para "new-page" = some (lit "1") then some (lit "page") else none := by
  obtain ⟨hf, hB⟩ := run_from hm
  rcases hf with e | ⟨x, hx, i, l, hl, t, ht, e⟩
  · have := hr.style
    rw [e] at this
    simp [attrOf] at this
  have hp : r.para = x.1 := by rw [e]; rfl
  rw [hp] at hr ⊢
  have pv := fun prop => para_value h hN hP hx hr hs hq hd hj hB prop (i + 1) r.before t.1 (firstText t.2)
  rw [← e] at pv
  have n1 : ¬ lit "fo:break-before" = lit "fo:text-align" := by decide +kernel
  have n2 : ¬ lit "fo:text-align" = lit "fo:break-before" := fun e => n1 e.symm
  have a1 := shape_align
  have a2 := shape_break
  constructor
  · rw [pv, ← officeAlign_eq _ _ ha]
    by_cases hqj : q = j
    · subst hqj
      obtain rfl : d = p := Option.some.inj (hd.symm.trans hj)
      rw [lastSet_append, a1]
      by_cases g : attrOf x.1 "new-page" = some (lit "1") <;> simp [g, lastSet, n1]
    · rw [lastSet_append, a1]
      by_cases g : attrOf x.1 "new-page" = some (lit "1") <;> simp [g, lastSet, n1, hqj]
  · rw [pv, lastSet_append, a2, a2]
    by_cases g : attrOf x.1 "new-page" = some (lit "1") <;> simp [g, lastSet]

/-! ### By the records -/

section
variable (env : XmlEnv) (rd : ModelReader Fields) (filetime : Nat → PyStr) (d : DocSource) (hrd : ReadsDecls d.version rd)
    (h : ProperDocument rd d) (table : PModel Fields) (rows : Forest (Nat × PModel Fields)) (hI : InfoDocument rd d table rows)
    (evs : List XEv) (he : documentXml env rd filetime d = .ofList evs)
include hrd h hI he

/-- C107: a paragraph is aligned in a browser as the record of its paragraph shape says.
Missing: what is missing in `C107_html_partial`, and numbers of styles and shapes beyond the tables. -/
theorem C107_html_records_partial (hS : ProperStyles (tableRecords rows "Style")) (embed : Bool) (r : HtmlRun) (hm : r ∈ htmlRuns (xmlTree (joined evs)))
    (s j : Nat) (hr : ShapedPara r.para s j) (style shape : PModel Fields) (hs : (tableRecords rows "Style")[s]? = some style)
    (hj : (tableRecords rows "ParaShape")[j]? = some shape) (hk : styleParaShape style = some j → ofParagraphs style = true) :
    ∃ span block around, r.path = span :: block :: around ∧ block.1 = lit "p" ∧
      styledValue (pageRules embed (xmlTree (joined evs))) (lit "text-align") (block :: around) = some (shapeAlign shape) := by
  obtain ⟨ids, T, hT, -, hE⟩ := info_entries env rd filetime d hrd h table rows hI evs he
  obtain ⟨st, a1, a2⟩ := forall₂_get (hE "Style" (by decide)) s style hs
  obtain ⟨p, b1, b2⟩ := forall₂_get (hE "ParaShape" (by decide)) j shape hj
  obtain ⟨a, c1, c2⟩ := entry_align hrd b2
  obtain ⟨q, p1, p2⟩ := entry_parashape hrd a2
  rw [← c2]
  refine C107_html_partial _ T ids hT (entries_names hrd (hE "Style" (by decide)) hS) embed r hm s j hr st p a1 b1 (fun g => entry_kind hrd a2 (hk ?_)) a c1
  rw [p2, Option.some.injEq, decimal_nat, decimal_nat] at g
  rw [p1, natStr_inj g]

/-- C107: a paragraph is aligned in an office program as the record of its paragraph shape says.
Missing: what is missing in `C107_odt_partial`, and numbers of styles and shapes beyond the tables. -/
theorem C107_odt_records_partial (hS : OfficeStyles (tableRecords rows "Style")) (r : OdtRun) (hm : r ∈ odtRuns (xmlTree (joined evs)))
    (s j q : Nat) (hr : ShapedPara r.para s j) (style shape base : PModel Fields) (hs : (tableRecords rows "Style")[s]? = some style)
    (hj : (tableRecords rows "ParaShape")[j]? = some shape) (hq : styleParaShape style = some q) (hb : (tableRecords rows "ParaShape")[q]? = some base) :
    paraValue (automaticStyles (xmlTree (joined evs))) (commonStyles (xmlTree (joined evs))) "fo:text-align" r.paraStyle = some (shapeAlign shape) ∧
    paraValue (automaticStyles (xmlTree (joined evs))) (commonStyles (xmlTree (joined evs))) "fo:break-before" r.paraStyle =
      if attrOf r.para "new-page" = some (lit "1") then some (lit "page") else none := by
  obtain ⟨ids, T, hT, -, hE⟩ := info_entries env rd filetime d hrd h table rows hI evs he
  have hN := (doc_numbered env rd filetime d hrd h hI.separate evs he).1
  obtain ⟨st, a1, a2⟩ := forall₂_get (hE "Style" (by decide)) s style hs
  obtain ⟨p, b1, b2⟩ := forall₂_get (hE "ParaShape" (by decide)) j shape hj
  obtain ⟨dd, d1, d2⟩ := forall₂_get (hE "ParaShape" (by decide)) q base hb
  obtain ⟨a, c1, c2⟩ := entry_align hrd b2
  obtain ⟨q', p1, p2⟩ := entry_parashape hrd a2
  obtain rfl : q' = q := by rw [p1] at hq; exact Int.ofNat.inj (Option.some.inj hq)
  rw [← c2]
  exact C107_odt_partial _ T ids hT (entries_office hrd (hE "Style" (by decide)) hS) hN r hm s j q' hr st p dd a1 p2 b1 d1 a c1

end

/-! ### A document -/

/-- Three paragraph shapes: to both sides, to the right, in the center; a style with the first one, and a style of characters with the second one.
"A" with the first shape, on a new page; "B" with the third one; "C" with the second style and the second shape. -/
def alignXml : Forest XNode :=
  el "HwpDoc" [] (el "DocInfo" [] (el "IdMappings" []
    (el "CharShape" [] .nil
    (el "ParaShape" [("align", "both"), ("numbering-bullet-id", "0")] .nil
    (el "ParaShape" [("align", "right"), ("numbering-bullet-id", "0")] .nil
    (el "ParaShape" [("align", "center"), ("numbering-bullet-id", "2")] .nil
    (el "Bullet" [("align", "left")] .nil (el "Bullet" [("align", "left")] .nil
    (el "Style" [("local-name", "Body Text"), ("name", "Body Text"), ("kind", "paragraph"), ("parashape-id", "0"), ("charshape-id", "0")] .nil
    (el "Style" [("local-name", "Page"), ("name", "Page"), ("kind", "char"), ("parashape-id", "1"), ("charshape-id", "0")] .nil)))))))))
  (el "BodyText" [] (el "SectionDef" [] (el "ColumnSet" []
    (el "Paragraph" [("parashape-id", "0"), ("style-id", "0"), ("paragraph-id", "0"), ("new-page", "1")]
      (el "LineSeg" [] (el "Text" [("charshape-id", "0"), ("lang", "en")] (.node (.text (lit "A")) .nil .nil)))
    (el "Paragraph" [("parashape-id", "2"), ("style-id", "0"), ("paragraph-id", "1"), ("new-page", "0")]
      (el "LineSeg" [] (el "Text" [("charshape-id", "0"), ("lang", "en")] (.node (.text (lit "B")) .nil .nil)))
    (el "Paragraph" [("parashape-id", "1"), ("style-id", "1"), ("paragraph-id", "2"), ("new-page", "0")]
      (el "LineSeg" [] (el "Text" [("charshape-id", "0"), ("lang", "en")] (.node (.text (lit "C")) .nil .nil))))))))))

def alignIds : List (PyStr × PyStr) × Forest XNode := ((elementsNamed "IdMappings" alignXml).head?).getD ([], .nil)

theorem align_tables : TablesAre alignXml alignIds.1 alignIds.2 where
  hwpdoc := ⟨_, _, rfl, _, _, rfl, by decide +kernel⟩
  ids := by decide +kernel
  only := by decide +kernel

theorem align_names : ProperNames alignIds.2 where
  ident := by decide +kernel
  distinct := by decide +kernel
  shapes := by decide +kernel

theorem align_office : OfficeNames alignIds.2 where
  distinct := by decide +kernel
  free := by decide +kernel

theorem align_numbered : ParagraphsNumbered alignXml where
  number := by
    have : ∀ p ∈ elementsNamed "Paragraph" alignXml, attrOf p.1 "paragraph-id" = some (Spec.decimal (0 : Nat)) ∨ attrOf p.1 "paragraph-id" = some (Spec.decimal (1 : Nat)) ∨
      attrOf p.1 "paragraph-id" = some (Spec.decimal (2 : Nat)) := by decide +kernel
    intro p hp
    rcases this p hp with h | h | h
    exacts [⟨0, h⟩, ⟨1, h⟩, ⟨2, h⟩]
  distinct := by decide +kernel

/-- The alignment of the paragraphs around the runs of text, in a browser. -/
def htmlAligned (doc : Forest XNode) : List (PyStr × Option PyStr) :=
  (htmlRuns doc).map fun r => (r.text, styledValue (pageRules false doc) (lit "text-align") r.path.tail)

/-- The alignment and the page breaks of the paragraphs around the runs of text, in an office program. -/
def odtAligned (doc : Forest XNode) : List (PyStr × Option PyStr × Option PyStr) :=
  (odtRuns doc).map fun r => (r.text, paraValue (automaticStyles doc) (commonStyles doc) "fo:text-align" r.paraStyle,
    paraValue (automaticStyles doc) (commonStyles doc) "fo:break-before" r.paraStyle)

def alignEntry (name : String) (i : Nat) : List (PyStr × PyStr) × Forest XNode := ((entries name alignIds.2)[i]?).getD ([], .nil)

/-- The theorem applies: "B" is in the center. -/
example : ∃ r ∈ htmlRuns alignXml, r.text = lit "B" ∧ ∃ span block around, r.path = span :: block :: around ∧ block = (lit "p", lit "Body-Text parashape-2 Bullet-2") ∧
    styledValue (pageRules false alignXml) (lit "text-align") (block :: around) = some (lit "center") := by
  have e : ((htmlRuns alignXml)[1]?).map (fun r => (r.text, [attrOf r.para "style-id", attrOf r.para "parashape-id"], r.path[1]?)) =
      some (lit "B", [some (lit "0"), some (lit "2")], some (lit "p", lit "Body-Text parashape-2 Bullet-2")) := by decide +kernel
  cases hr : (htmlRuns alignXml)[1]? with
  | none => rw [hr] at e; cases e
  | some r =>
    rw [hr, Option.map_some, Option.some.injEq, Prod.mk.injEq, Prod.mk.injEq] at e
    simp only [List.cons.injEq, and_true] at e
    obtain ⟨e1, ⟨e2, e3⟩, e4⟩ := e
    obtain ⟨span, block, around, h1, h2, h3⟩ := C107_html_partial _ _ _ align_tables align_names false r (List.mem_of_getElem? hr) 0 2 ⟨e2, e3⟩
      (alignEntry "Style" 0) (alignEntry "ParaShape" 2) (by decide +kernel) (by decide +kernel) (by decide +kernel) (lit "center") (by decide +kernel)
    refine ⟨r, List.mem_of_getElem? hr, e1, span, block, around, h1, ?_, h3⟩
    rw [h1] at e4
    simpa using e4

/-- The theorem applies: "A" is justified, and on a new page. -/
example : ∃ r ∈ odtRuns alignXml, r.text = lit "A" ∧ paraValue (automaticStyles alignXml) (commonStyles alignXml) "fo:text-align" r.paraStyle = some (lit "justify") ∧
    paraValue (automaticStyles alignXml) (commonStyles alignXml) "fo:break-before" r.paraStyle = some (lit "page") := by
  have e : ((odtRuns alignXml)[0]?).map (fun r => (r.text, attrOf r.para "style-id", attrOf r.para "parashape-id", attrOf r.para "new-page")) =
      some (lit "A", some (lit "0"), some (lit "0"), some (lit "1")) := by decide +kernel
  cases hr : (odtRuns alignXml)[0]? with
  | none => rw [hr] at e; cases e
  | some r =>
    rw [hr, Option.map_some, Option.some.injEq, Prod.mk.injEq, Prod.mk.injEq, Prod.mk.injEq] at e
    obtain ⟨e1, e2, e3, e4⟩ := e
    obtain ⟨h1, h2⟩ := C107_odt_partial _ _ _ align_tables align_office align_numbered r (List.mem_of_getElem? hr) 0 0 0 ⟨e2, e3⟩
      (alignEntry "Style" 0) (alignEntry "ParaShape" 0) (alignEntry "ParaShape" 0) (by decide +kernel) (by decide +kernel) (by decide +kernel) (by decide +kernel)
      (lit "both") (by decide +kernel)
    exact ⟨r, List.mem_of_getElem? hr, e1, h1, by rw [h2, if_pos e4]⟩

/-- C107, violated: "C" has a shape that is aligned to the right, which is that of its style, a style of characters: in a browser it is not aligned;
in an office program it is. -/
theorem C107_char_style :
    htmlAligned alignXml = [(lit "A", some (lit "justify")), (lit "B", some (lit "center")), (lit "C", none)] ∧
    odtAligned alignXml = [(lit "A", some (lit "justify"), some (lit "page")), (lit "B", some (lit "center"), none), (lit "C", some (lit "right"), none)] := by
  decide +kernel

/-! ### From records -/

/-- The theorems apply: "B" is in the center, by the flags of the record of its paragraph shape. -/
example : ∃ r ∈ htmlRuns (styledTree ["Body Text"]), r.text = lit "B" ∧ ∃ span block around, r.path = span :: block :: around ∧ block.1 = lit "p" ∧
    styledValue (pageRules true (styledTree ["Body Text"])) (lit "text-align") (block :: around) = some (lit "center") := by
  have e := blue_attrs
  cases hr : (htmlRuns (styledTree ["Body Text"]))[1]? with
  | none => rw [hr] at e; cases e
  | some r =>
    rw [hr, Option.map_some, Option.some.injEq, Prod.mk.injEq] at e
    simp only [List.cons.injEq, and_true] at e
    refine ⟨r, List.mem_of_getElem? hr, e.1, ?_⟩
    obtain ⟨evs, he, hx⟩ := styled_events
    obtain ⟨table, ht, hI⟩ := styled_document
    obtain ⟨st, hs⟩ := styled_record "Style" 0 (by decide +kernel)
    obtain ⟨p, hp⟩ := styled_record "ParaShape" 0 (by decide +kernel)
    have hk : ((tableRecords styledRows "Style")[0]?).map ofParagraphs = some true := by decide +kernel
    have ha : ((tableRecords styledRows "ParaShape")[0]?).map shapeAlign = some (lit "center") := by decide +kernel
    rw [hs, Option.map_some, Option.some.injEq] at hk
    rw [hp, Option.map_some, Option.some.injEq] at ha
    have key := C107_html_records_partial sampleEnv _ (fun _ => []) styledDoc ((C68_reader _ _).2 rfl) styled_proper table styledRows hI evs he styled_styles.1 true
      r (by rw [hx]; exact List.mem_of_getElem? hr) 0 0 ⟨e.2.1, e.2.2.1⟩ st p hs hp (fun _ => hk)
    rw [hx, ha] at key
    exact key

/-- C107, violated: the paragraph is not aligned in a browser if the English name of its style is empty: the rule of the style is not valid, and the
paragraph has no class for its shape.  In an office program it is in the center. -/
theorem C107_style_lost :
    htmlAligned (styledTree [""]) = [(lit "A", none), (lit "B", none)] ∧
    (elementsNamed "ParaShape" (styledTree [""])).map (fun p => attrOf p.1 "align") = [some (lit "center")] ∧
    odtAligned (styledTree ["Body Text"]) = [(lit "A", some (lit "center"), none), (lit "B", some (lit "center"), none)] := by
  decide +kernel

end Hwp.Props
