/-
C110: paragraphs have the margins and indents that their paragraph shapes say, in a browser and in an office program.
-/
import Verif.Proofs.Margins
import Verif.Props.Align
set_option linter.unusedSimpArgs false
set_option linter.unusedVariables false
set_option autoImplicit false
set_option Elab.async false
namespace Hwp.Props
open Hwp Spec

/-! ### By the XML file -/

section
variable (doc T : Forest XNode) (ids : List (PyStr × PyStr)) (h : TablesAre doc ids T)
include h

/-- C110: the lines of a paragraph begin where its paragraph shape says, and the room to the right, above and below it is that of the shape.
Missing: documents without the one table of ids; styles with names that are no classes, not distinct (`C107_style_lost`), or "Paper" as the class of the
page; paragraphs with the paragraph shape of their style, if this is a style of characters (`C107_char_style`); and
paragraphs whose style is of a shape with hanging lines while their own is not (`C110_hanging_lost`). -/
theorem C110_html_partial (hN : ProperNames T) (embed : Bool) (r : HtmlRun) (hm : r ∈ htmlRuns doc) (s j q : Nat) (hr : ShapedPara r.para s j)
    (st p d : List (PyStr × PyStr) × Forest XNode) (hs : (entries "Style" T)[s]? = some st) (hj : (entries "ParaShape" T)[j]? = some p)
    (hq : attrOf st.1 "parashape-id" = some (Spec.decimal q)) (hd : (entries "ParaShape" T)[q]? = some d)
    (hk : q = j → attrOf st.1 "kind" = some (lit "paragraph")) (hP : embed = true ∨ styleClass st ≠ lit "Paper")
    (m n : Margins) (ha : ShapeMargins p.1 m) (hb : ShapeMargins d.1 n) (hn : attrOf st.1 "kind" = some (lit "paragraph") → n.indent < 0 → m.indent < 0) :
    ∃ span block around, r.path = span :: block :: around ∧ block.1 = lit "p" ∧
      browserRoom (pageRules embed doc) (block :: around) = some m.room := by
  obtain ⟨rest, hpath, _⟩ := htmlRuns_path doc r hm
  refine ⟨_, _, rest, hpath, rfl, ?_⟩
  rw [browser_room h hN embed hr hs hj hq hd hP rest hk ha hb.indent _ rfl, Margins.room]
  by_cases g : m.indent < 0
  · rw [if_pos g, max_eq_right (by omega), max_eq_left (by omega)]
    congr 3
    push_cast; ring
  · rw [if_neg g, if_neg (fun k => g (hn k.1 k.2)), max_eq_left (by omega), max_eq_right (by omega)]
    congr 3
    push_cast; ring

/-- C110, violated: a paragraph whose own shape is not of hanging lines while the one of its style is: all lines begin further to the right than
the own shape says, by the indent of the style. -/
theorem C110_hanging_lost (hN : ProperNames T) (embed : Bool) (r : HtmlRun) (hm : r ∈ htmlRuns doc) (s j q : Nat) (hr : ShapedPara r.para s j)
    (st p d : List (PyStr × PyStr) × Forest XNode) (hs : (entries "Style" T)[s]? = some st) (hj : (entries "ParaShape" T)[j]? = some p)
    (hq : attrOf st.1 "parashape-id" = some (Spec.decimal q)) (hd : (entries "ParaShape" T)[q]? = some d)
    (hk : attrOf st.1 "kind" = some (lit "paragraph")) (hP : embed = true ∨ styleClass st ≠ lit "Paper")
    (m n : Margins) (ha : ShapeMargins p.1 m) (hb : ShapeMargins d.1 n) (hn : n.indent < 0) (hi : 0 ≤ m.indent) :
    ∃ span block around, r.path = span :: block :: around ∧ block.1 = lit "p" ∧
      browserRoom (pageRules embed doc) (block :: around) = some { m with left := m.left - n.indent }.room ∧
      some { m with left := m.left - n.indent }.room ≠ some m.room := by
  obtain ⟨rest, hpath, _⟩ := htmlRuns_path doc r hm
  refine ⟨_, _, rest, hpath, rfl, ?_, ?_⟩
  · rw [browser_room h hN embed hr hs hj hq hd hP rest (fun _ => hk) ha hb.indent _ rfl, Margins.room, if_neg (by omega), if_pos ⟨hk, hn⟩]
    simp only
    rw [max_eq_left hi, max_eq_right (by omega)]
    congr 3
    push_cast; ring
  · intro e
    have e := congrArg Room.others (Option.some.inj e)
    simp only [Margins.room] at e
    have : ((m.left - n.indent + max (-m.indent) 0 : Int) : ℚ) = ((m.left + max (-m.indent) 0 : Int) : ℚ) := by
      have := congrArg (· * (200 : ℚ)) e
      simpa using this
    have := Int.cast_injective this
    omega

/-- C110: the same in an office program, with all indents.
Missing: documents without the one table of ids; styles whose names are not distinct after the replacements, or taken (`C103_same_name`). -/
theorem C110_odt_partial (hN : OfficeNames T) (hP : ParagraphsNumbered doc)
    (r : OdtRun) (hm : r ∈ odtRuns doc) (s j q : Nat) (hr : ShapedPara r.para s j) (st p d : List (PyStr × PyStr) × Forest XNode)
    (hs : (entries "Style" T)[s]? = some st) (hq : attrOf st.1 "parashape-id" = some (Spec.decimal q))
    (hj : (entries "ParaShape" T)[j]? = some p) (hd : (entries "ParaShape" T)[q]? = some d) (m : Margins) (ha : ShapeMargins p.1 m) :
    officeRoom (automaticStyles doc) (commonStyles doc) r.paraStyle = some m.room := by
  obtain ⟨hf, hB⟩ := run_from hm
  rcases hf with e | ⟨x, hx, i, l, hl, t, ht, e⟩
  · have := hr.style
    rw [e] at this
    simp [attrOf] at this
  have hp : r.para = x.1 := by rw [e]; rfl
  rw [hp] at hr
  have := office_room h hN hP hx hr hs hq hd hj hB ha (i + 1) r.before t.1 (firstText t.2)
  rw [← e] at this
  exact this

end

/-! ### By the records -/

section
variable (env : XmlEnv) (rd : ModelReader Fields) (filetime : Nat → PyStr) (d : DocSource) (hrd : ReadsDecls d.version rd)
    (h : ProperDocument rd d) (table : PModel Fields) (rows : Forest (Nat × PModel Fields)) (hI : InfoDocument rd d table rows)
    (evs : List XEv) (he : documentXml env rd filetime d = .ofList evs)
include hrd h hI he

/-- C110: a paragraph has the margins and indents in a browser that the record of its paragraph shape says.
Missing: what is missing in `C110_html_partial`, and numbers of styles and shapes beyond the tables. -/
theorem C110_html_records_partial (hS : ProperStyles (tableRecords rows "Style")) (r : HtmlRun) (hm : r ∈ htmlRuns (xmlTree (joined evs)))
    (s j q : Nat) (hr : ShapedPara r.para s j) (style shape base : PModel Fields) (hs : (tableRecords rows "Style")[s]? = some style)
    (hj : (tableRecords rows "ParaShape")[j]? = some shape) (hq : styleParaShape style = some q) (hb : (tableRecords rows "ParaShape")[q]? = some base)
    (hk : q = j → ofParagraphs style = true) :
    ∃ m n, recordMargins shape = some m ∧ recordMargins base = some n ∧ ((n.indent < 0 → m.indent < 0) →
      ∃ span block around, r.path = span :: block :: around ∧ block.1 = lit "p" ∧
        browserRoom (pageRules true (xmlTree (joined evs))) (block :: around) = some m.room) := by
  obtain ⟨ids, T, hT, -, hE⟩ := info_entries env rd filetime d hrd h table rows hI evs he
  obtain ⟨st, a1, a2⟩ := forall₂_get (hE "Style" (by decide)) s style hs
  obtain ⟨p, b1, b2⟩ := forall₂_get (hE "ParaShape" (by decide)) j shape hj
  obtain ⟨dd, d1, d2⟩ := forall₂_get (hE "ParaShape" (by decide)) q base hb
  obtain ⟨m, m1, m2⟩ := entry_margins hrd b2
  obtain ⟨n, n1, n2⟩ := entry_margins hrd d2
  obtain ⟨q', p1, p2⟩ := entry_parashape hrd a2
  obtain rfl : q' = q := by rw [p1] at hq; exact Int.ofNat.inj (Option.some.inj hq)
  exact ⟨m, n, m1, n1, fun hn => C110_html_partial _ T ids hT (entries_names hrd (hE "Style" (by decide)) hS) true r hm s j q' hr st p dd a1 b1 p2 d1
    (fun g => entry_kind hrd a2 (hk g)) (.inl rfl) m n m2 n2 (fun _ => hn)⟩

/-- C110: a paragraph has the margins and indents in an office program that the record of its paragraph shape says.
Missing: what is missing in `C110_odt_partial`, and numbers of styles and shapes beyond the tables. -/
theorem C110_odt_records_partial (hS : OfficeStyles (tableRecords rows "Style")) (r : OdtRun) (hm : r ∈ odtRuns (xmlTree (joined evs)))
    (s j q : Nat) (hr : ShapedPara r.para s j) (style shape base : PModel Fields) (hs : (tableRecords rows "Style")[s]? = some style)
    (hj : (tableRecords rows "ParaShape")[j]? = some shape) (hq : styleParaShape style = some q) (hb : (tableRecords rows "ParaShape")[q]? = some base) :
    ∃ m, recordMargins shape = some m ∧
      officeRoom (automaticStyles (xmlTree (joined evs))) (commonStyles (xmlTree (joined evs))) r.paraStyle = some m.room := by
  obtain ⟨ids, T, hT, -, hE⟩ := info_entries env rd filetime d hrd h table rows hI evs he
  have hN := (doc_numbered env rd filetime d hrd h hI.separate evs he).1
  obtain ⟨st, a1, a2⟩ := forall₂_get (hE "Style" (by decide)) s style hs
  obtain ⟨p, b1, b2⟩ := forall₂_get (hE "ParaShape" (by decide)) j shape hj
  obtain ⟨dd, d1, d2⟩ := forall₂_get (hE "ParaShape" (by decide)) q base hb
  obtain ⟨m, m1, m2⟩ := entry_margins hrd b2
  obtain ⟨q', p1, p2⟩ := entry_parashape hrd a2
  obtain rfl : q' = q := by rw [p1] at hq; exact Int.ofNat.inj (Option.some.inj hq)
  exact ⟨m, m1, C110_odt_partial _ T ids hT (entries_office hrd (hE "Style" (by decide)) hS) hN r hm s j q' hr st p dd a1 p2 b1 d1 m m2⟩

end

/-! ### A document -/

/-- Two paragraph shapes: one with hanging lines, one with an indented first line; a style with the first one.  "A" with the first shape, "B" with the second one. -/
def marginXml : Forest XNode :=
  el "HwpDoc" [] (el "DocInfo" [] (el "IdMappings" []
    (el "CharShape" [] .nil
    (el "ParaShape" [("align", "both"), ("numbering-bullet-id", "0"), ("doubled-margin-left", "2000"), ("doubled-margin-right", "0"), ("doubled-margin-top", "0"),
      ("doubled-margin-bottom", "0"), ("indent", "-2001")] .nil
    (el "ParaShape" [("align", "both"), ("numbering-bullet-id", "0"), ("doubled-margin-left", "0"), ("doubled-margin-right", "400"), ("doubled-margin-top", "-1"),
      ("doubled-margin-bottom", "3"), ("indent", "1500")] .nil
    (el "Style" [("local-name", "Body"), ("name", "Body"), ("kind", "paragraph"), ("parashape-id", "0"), ("charshape-id", "0")] .nil)))))
  (el "BodyText" [] (el "SectionDef" [] (el "ColumnSet" []
    (el "Paragraph" [("parashape-id", "0"), ("style-id", "0"), ("paragraph-id", "0"), ("new-page", "0")]
      (el "LineSeg" [] (el "Text" [("charshape-id", "0"), ("lang", "en")] (.node (.text (lit "A")) .nil .nil)))
    (el "Paragraph" [("parashape-id", "1"), ("style-id", "0"), ("paragraph-id", "1"), ("new-page", "0")]
      (el "LineSeg" [] (el "Text" [("charshape-id", "0"), ("lang", "en")] (.node (.text (lit "B")) .nil .nil)))))))))

def marginIds : List (PyStr × PyStr) × Forest XNode := ((elementsNamed "IdMappings" marginXml).head?).getD ([], .nil)

theorem margin_tables : TablesAre marginXml marginIds.1 marginIds.2 where
  hwpdoc := ⟨_, _, rfl, _, _, rfl, by decide +kernel⟩
  ids := by decide +kernel
  only := by decide +kernel

theorem margin_names : ProperNames marginIds.2 where
  ident := by decide +kernel
  distinct := by decide +kernel
  shapes := by decide +kernel

def marginEntry (name : String) (i : Nat) : List (PyStr × PyStr) × Forest XNode := ((entries name marginIds.2)[i]?).getD ([], .nil)

theorem margin_first : ShapeMargins (marginEntry "ParaShape" 0).1 ⟨2000, 0, 0, 0, -2001⟩ :=
  ⟨by decide +kernel, by decide +kernel, by decide +kernel, by decide +kernel, by decide +kernel⟩

theorem margin_second : ShapeMargins (marginEntry "ParaShape" 1).1 ⟨0, 400, -1, 3, 1500⟩ :=
  ⟨by decide +kernel, by decide +kernel, by decide +kernel, by decide +kernel, by decide +kernel⟩

theorem margin_rooms : (⟨2000, 0, 0, 0, -2001⟩ : Margins).room = ⟨10, 4001 / 200, 0, 0, 0⟩ ∧
    (⟨0, 400, -1, 3, 1500⟩ : Margins).room = ⟨15 / 2, 0, 2, -1 / 200, 3 / 200⟩ ∧ (⟨2001, 400, -1, 3, 1500⟩ : Margins).room = ⟨3501 / 200, 2001 / 200, 2, -1 / 200, 3 / 200⟩ := by
  simp only [Margins.room]
  norm_num

/-- The theorem applies: the first line of "A" begins at 10pt, the others at 20.005pt. -/
example : ∃ r ∈ htmlRuns marginXml, r.text = lit "A" ∧ ∃ span block around, r.path = span :: block :: around ∧
    browserRoom (pageRules false marginXml) (block :: around) = some ⟨10, 4001 / 200, 0, 0, 0⟩ := by
  have e : ((htmlRuns marginXml)[0]?).map (fun r => (r.text, [attrOf r.para "style-id", attrOf r.para "parashape-id"])) =
      some (lit "A", [some (lit "0"), some (lit "0")]) := by decide +kernel
  cases hr : (htmlRuns marginXml)[0]? with
  | none => rw [hr] at e; cases e
  | some r =>
    rw [hr, Option.map_some, Option.some.injEq, Prod.mk.injEq] at e
    simp only [List.cons.injEq, and_true] at e
    obtain ⟨e1, e2, e3⟩ := e
    obtain ⟨span, block, around, h1, h2, h3⟩ := C110_html_partial _ _ _ margin_tables margin_names false r (List.mem_of_getElem? hr) 0 0 0 ⟨e2, e3⟩
      (marginEntry "Style" 0) (marginEntry "ParaShape" 0) (marginEntry "ParaShape" 0) (by decide +kernel) (by decide +kernel) (by decide +kernel) (by decide +kernel)
      (by decide +kernel) (by decide +kernel) _ _ margin_first margin_first (fun _ h => h)
    exact ⟨r, List.mem_of_getElem? hr, e1, span, block, around, h1, h3.trans (by rw [margin_rooms.1])⟩

/-- C110, violated in the example: the first line of "B" should begin at 7.5pt and the others at 0pt, but begin at 17.505pt and at 10.005pt. -/
theorem C110_hanging_example : ∃ r ∈ htmlRuns marginXml, r.text = lit "B" ∧ ∃ span block around, r.path = span :: block :: around ∧
    browserRoom (pageRules false marginXml) (block :: around) = some ⟨3501 / 200, 2001 / 200, 2, -1 / 200, 3 / 200⟩ := by
  have e : ((htmlRuns marginXml)[1]?).map (fun r => (r.text, [attrOf r.para "style-id", attrOf r.para "parashape-id"])) =
      some (lit "B", [some (lit "0"), some (lit "1")]) := by decide +kernel
  cases hr : (htmlRuns marginXml)[1]? with
  | none => rw [hr] at e; cases e
  | some r =>
    rw [hr, Option.map_some, Option.some.injEq, Prod.mk.injEq] at e
    simp only [List.cons.injEq, and_true] at e
    obtain ⟨e1, e2, e3⟩ := e
    obtain ⟨span, block, around, h1, h2, h3, h4⟩ := C110_hanging_lost _ _ _ margin_tables margin_names false r (List.mem_of_getElem? hr) 0 1 0 ⟨e2, e3⟩
      (marginEntry "Style" 0) (marginEntry "ParaShape" 1) (marginEntry "ParaShape" 0) (by decide +kernel) (by decide +kernel) (by decide +kernel) (by decide +kernel)
      (by decide +kernel) (by decide +kernel) _ _ margin_second margin_first (by decide) (by decide)
    exact ⟨r, List.mem_of_getElem? hr, e1, span, block, around, h1, h3.trans (by rw [← margin_rooms.2.2]; rfl)⟩

theorem margin_office : OfficeNames marginIds.2 where
  distinct := by decide +kernel
  free := by decide +kernel

/-- The theorem applies: in an office program "B" is as its shape says. -/
example : ∃ r ∈ odtRuns marginXml, r.text = lit "B" ∧
    officeRoom (automaticStyles marginXml) (commonStyles marginXml) r.paraStyle = some ⟨15 / 2, 0, 2, -1 / 200, 3 / 200⟩ := by
  have e : ((odtRuns marginXml)[1]?).map (fun r => (r.text, attrOf r.para "style-id", attrOf r.para "parashape-id")) =
      some (lit "B", some (lit "0"), some (lit "1")) := by decide +kernel
  have hP : ParagraphsNumbered marginXml := by
    refine ⟨?_, by decide +kernel⟩
    have : ∀ p ∈ elementsNamed "Paragraph" marginXml, attrOf p.1 "paragraph-id" = some (Spec.decimal (0 : Nat)) ∨ attrOf p.1 "paragraph-id" = some (Spec.decimal (1 : Nat)) := by
      decide +kernel
    intro p hp
    rcases this p hp with h | h
    exacts [⟨0, h⟩, ⟨1, h⟩]
  cases hr : (odtRuns marginXml)[1]? with
  | none => rw [hr] at e; cases e
  | some r =>
    rw [hr, Option.map_some, Option.some.injEq, Prod.mk.injEq, Prod.mk.injEq] at e
    obtain ⟨e1, e2, e3⟩ := e
    refine ⟨r, List.mem_of_getElem? hr, e1, ?_⟩
    rw [C110_odt_partial _ _ _ margin_tables margin_office hP r (List.mem_of_getElem? hr) 0 1 0 ⟨e2, e3⟩
      (marginEntry "Style" 0) (marginEntry "ParaShape" 1) (marginEntry "ParaShape" 0) (by decide +kernel) (by decide +kernel) (by decide +kernel) (by decide +kernel)
      _ margin_second, margin_rooms.2.1]

/-- What is written for the shapes. -/
example : paraDecls (marginEntry "ParaShape" 0) = [(lit "margin", lit "0pt 0pt 0pt 10pt"), (lit "text-align", lit "justify"), (lit "text-indent", lit "-10.005pt"),
      (lit "padding-left", lit "10.005pt")] ∧
    shapeProps (marginEntry "ParaShape" 1) = [(lit "fo:text-align", lit "justify"), (lit "fo:text-indent", lit "7.5pt"), (lit "fo:margin-left", lit "0pt"),
      (lit "fo:margin-right", lit "2pt"), (lit "fo:margin-top", lit "-0.005pt"), (lit "fo:margin-bottom", lit "0.015pt")] := by
  decide +kernel

/-! ### From records -/

theorem styled_margins : ((tableRecords styledRows "ParaShape")[0]?).map recordMargins = some (some ⟨200, 0, 0, 0, -100⟩) := by decide +kernel

/-- The theorems apply: the first line of the paragraph of "B" begins at 1pt, the others at 1.5pt, by the record of its paragraph shape. -/
example : ∃ r ∈ htmlRuns (styledTree ["Body Text"]), r.text = lit "B" ∧ ∃ span block around, r.path = span :: block :: around ∧ block.1 = lit "p" ∧
    browserRoom (pageRules true (styledTree ["Body Text"])) (block :: around) = some ⟨1, 3 / 2, 0, 0, 0⟩ := by
  have e := blue_attrs
  cases hr : (htmlRuns (styledTree ["Body Text"]))[1]? with
  | none => rw [hr] at e; cases e
  | some r =>
    rw [hr, Option.map_some, Option.some.injEq, Prod.mk.injEq] at e
    simp only [List.cons.injEq, and_true] at e
    refine ⟨r, List.mem_of_getElem? hr, e.1, ?_⟩
    obtain ⟨evs, he, hx⟩ := styled_events
    obtain ⟨table, ht, hI⟩ := styled_document
    obtain ⟨st, hs⟩ := styled_record "Style" 0 (by decide +kernel)
    obtain ⟨p, hp⟩ := styled_record "ParaShape" 0 (by decide +kernel)
    have hk : ((tableRecords styledRows "Style")[0]?).map (fun s => (ofParagraphs s, styleParaShape s)) = some (true, some 0) := by decide +kernel
    have ha := styled_margins
    rw [hs, Option.map_some, Option.some.injEq, Prod.mk.injEq] at hk
    rw [hp, Option.map_some, Option.some.injEq] at ha
    obtain ⟨m, n, h1, h2, key⟩ := C110_html_records_partial sampleEnv _ (fun _ => []) styledDoc ((C68_reader _ _).2 rfl) styled_proper table styledRows hI evs he styled_styles.1
      r (by rw [hx]; exact List.mem_of_getElem? hr) 0 0 0 ⟨e.2.1, e.2.2.1⟩ st p p hs hp hk.2 hp (fun _ => hk.1)
    obtain rfl := Option.some.inj (ha.symm.trans h1)
    obtain rfl := Option.some.inj (ha.symm.trans h2)
    obtain ⟨span, block, around, k1, k2, k3⟩ := key (fun h => h)
    rw [hx] at k3
    refine ⟨span, block, around, k1, k2, k3.trans ?_⟩
    simp only [Margins.room]
    norm_num

end Hwp.Props
