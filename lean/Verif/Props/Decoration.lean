/-
C114: lines under, over and through the text in the conversion to HTML.
-/
import Verif.Proofs.Decoration
import Verif.Props.InfoRecords
set_option linter.unusedSimpArgs false
set_option linter.unusedVariables false
set_option autoImplicit false
set_option Elab.async false
namespace Hwp.Props
open Hwp Spec

/-! ### By the elements of the document -/

/-- C114: a run of text whose character shape has a line under, over or through it is shown with this line, in its color and its style; and with no
other, if no style with the class of an element around its paragraph has a shape with a line.  (The color and the style are declared after the line
in the same rule, so that the line does not reset them.)
Missing: runs in an inline table or drawing in a paragraph whose style has a line; styles without proper names (`C101_style_lost`). -/
theorem C114_line_partial (doc T : Forest XNode) (ids : List (PyStr × PyStr)) (h : TablesAre doc ids T) (hN : ProperNames T) (embed : Bool)
    (r : HtmlRun) (hm : r ∈ htmlRuns doc) (s k : Nat) (l : PyStr) (hr : RunOf r.para r.attrs s k l)
    (st c : List (PyStr × PyStr) × Forest XNode) (hs : (entries "Style" T)[s]? = some st) (hc : (entries "CharShape" T)[k]? = some c)
    (kind : String × String) (hk : kind ∈ cssLines) (hline : attrOf c.1 "underline" = some (lit kind.1)) :
    lit kind.2 ∈ drawnLines (pageRules embed doc) r.path ∧
    declaredValue (pageRules embed doc) "text-decoration" r.path = some (lit kind.2) ∧
    (∀ color, attrOf c.1 "underline-color" = some color → color ≠ [] →
      declaredValue (pageRules embed doc) "text-decoration-color" r.path = some color) ∧
    (∀ style ∈ cssLineStyles, attrOf c.1 "underline-style" = some (lit style.1) →
      declaredValue (pageRules embed doc) "text-decoration-style" r.path = some (lit style.2)) ∧
    ((∀ s ∈ entries "Style" T, (∃ b ∈ r.path.drop 2, styleClass s ∈ classesOf b.2) →
        ∃ q : Nat, attrOf s.1 "charshape-id" = some (Spec.decimal q) ∧ ∀ c, (entries "CharShape" T)[q]? = some c → LineLess c) →
      drawnLines (pageRules embed doc) r.path = [lit kind.2]) := by
  have hv := lineValue_of hk hline
  have own : declaredValue (pageRules embed doc) "text-decoration" r.path = some (lit kind.2) :=
    declared_own h hN embed r hm hr hs hc "text-decoration" (by decide +kernel) (by decide +kernel) _ (by rw [own_line, hv]; rfl)
  have hne : lit kind.2 ≠ lit "none" := by
    have : ∀ kind ∈ cssLines, lit kind.2 ≠ lit "none" := by decide +kernel
    exact this kind hk
  obtain ⟨b, bs, hp⟩ : ∃ b bs, r.path = b :: bs := by
    obtain ⟨rest, hpath, _⟩ := htmlRuns_path doc r hm
    exact ⟨_, _, hpath⟩
  have e : drawnLines (pageRules embed doc) r.path = lit kind.2 :: drawnLines (pageRules embed doc) r.path.tail := by
    rw [hp] at own
    rw [hp, drawnLines, own]
    simp [hne]
  refine ⟨by rw [e]; simp, own, ?_, ?_, ?_⟩
  · intro color hcolor hcne
    have ec : attrValue c.1 "underline-color" = color := by rw [attrValue_eq, hcolor]; rfl
    refine declared_own h hN embed r hm hr hs hc "text-decoration-color" (by decide +kernel) (by decide +kernel) color ?_
    rw [own_line_color c hv (by rw [ec]; exact hcne), ec]
  · intro style hst hstyle
    have es := lineStyle_of hst hstyle
    have hsn : ∀ style ∈ cssLineStyles, lit style.2 ≠ [] := by decide +kernel
    refine declared_own h hN embed r hm hr hs hc "text-decoration-style" (by decide +kernel) (by decide +kernel) _ ?_
    rw [own_line_style c hv (by rw [es]; exact hsn style hst), es]
  · intro hst
    rw [e, drawn_around h hN embed r hm]
    intro s' hs' hb c' hc'
    obtain ⟨q, hq, hoff⟩ := hst s' hs' hb
    rw [decimal_nat] at hq
    rw [style_shape h hq, Option.mem_toList] at hc'
    exact lineLess_value (hoff c' hc')

/-- C114: a run of text whose character shape has no line is shown without one, if no style with the class of an element around it has a shape with
a line.
Missing: runs without a line in a paragraph whose style has one (`C114_not_overridden`), and what is missing above. -/
theorem C114_no_line_partial (doc T : Forest XNode) (ids : List (PyStr × PyStr)) (h : TablesAre doc ids T) (hN : ProperNames T) (embed : Bool)
    (r : HtmlRun) (hm : r ∈ htmlRuns doc) (s k : Nat) (l : PyStr) (hr : RunOf r.para r.attrs s k l)
    (st c : List (PyStr × PyStr) × Forest XNode) (hs : (entries "Style" T)[s]? = some st) (hc : (entries "CharShape" T)[k]? = some c)
    (hline : LineLess c)
    (hown : ∃ q : Nat, attrOf st.1 "charshape-id" = some (Spec.decimal q) ∧ ∀ c, (entries "CharShape" T)[q]? = some c → LineLess c)
    (hst : ∀ s ∈ entries "Style" T, (∃ b ∈ r.path.drop 2, styleClass s ∈ classesOf b.2) →
      ∃ q : Nat, attrOf s.1 "charshape-id" = some (Spec.decimal q) ∧ ∀ c, (entries "CharShape" T)[q]? = some c → LineLess c) :
    drawnLines (pageRules embed doc) r.path = [] := by
  have shapes : ∀ s' : List (PyStr × PyStr) × Forest XNode,
      (∃ q : Nat, attrOf s'.1 "charshape-id" = some (Spec.decimal q) ∧ ∀ c, (entries "CharShape" T)[q]? = some c → LineLess c) →
      ∀ c ∈ nthOf doc "CharShape" (xpathNumber (attrValue s'.1 "charshape-id")), lineValue c.1 = none := by
    intro s' ⟨q, hq, hoff⟩ c' hc'
    rw [decimal_nat] at hq
    rw [style_shape h hq, Option.mem_toList] at hc'
    exact lineLess_value (hoff c' hc')
  have own := declared_line_none h hN embed r hm hr hs hc (lineLess_value hline) (shapes st hown)
  have around := drawn_around h hN embed r hm (fun s' hs' hb => shapes s' (hst s' hs' hb))
  obtain ⟨b, bs, hp⟩ : ∃ b bs, r.path = b :: bs := by
    obtain ⟨rest, hpath, _⟩ := htmlRuns_path doc r hm
    exact ⟨_, _, hpath⟩
  rw [hp] at own around ⊢
  rw [drawnLines, own]
  simpa using around

/-! ### By the records of the document -/

section
variable (env : XmlEnv) (rd : ModelReader Fields) (filetime : Nat → PyStr) (d : DocSource) (hrd : ReadsDecls d.version rd)
    (h : ProperDocument rd d) (table : PModel Fields) (rows : Forest (Nat × PModel Fields)) (hI : InfoDocument rd d table rows)
    (evs : List XEv) (he : documentXml env rd filetime d = .ofList evs)
include hrd h hI he

/-- C114: a run of text whose character shape has a line, by its record (1 under, 2 through, 3 over the text), is shown with it, in the color of the
record and in its style.
Missing: as above; styles of lines beyond the eleven that have names. -/
theorem C114_records_partial (hS : ProperStyles (tableRecords rows "Style")) (embed : Bool) (r : HtmlRun) (hm : r ∈ htmlRuns (xmlTree (joined evs)))
    (s k : Nat) (l : PyStr) (hr : RunOf r.para r.attrs s k l) (style shape : PModel Fields) (hs : (tableRecords rows "Style")[s]? = some style)
    (hk : (tableRecords rows "CharShape")[k]? = some shape) (line : Nat) (hline : shapeLine shape = some (line + 1)) (j : Nat)
    (hj : shapeLineStyle shape = some j) (hj' : j < 11) :
    ∃ kind lineStyle color, cssLines[line]? = some kind ∧ cssLineStyles[j]? = some lineStyle ∧
      intField "underline_color" shape.content = some color ∧
      lit kind.2 ∈ drawnLines (pageRules embed (xmlTree (joined evs))) r.path ∧
      declaredValue (pageRules embed (xmlTree (joined evs))) "text-decoration" r.path = some (lit kind.2) ∧
      declaredValue (pageRules embed (xmlTree (joined evs))) "text-decoration-color" r.path = some (colorText color) ∧
      declaredValue (pageRules embed (xmlTree (joined evs))) "text-decoration-style" r.path = some (lit lineStyle.2) := by
  obtain ⟨ids, T, hT, -, hE⟩ := info_entries env rd filetime d hrd h table rows hI evs he
  obtain ⟨st, a1, -⟩ := forall₂_get (hE "Style" (by decide)) s style hs
  obtain ⟨c, b1, b2⟩ := forall₂_get (hE "CharShape" (by decide)) k shape hk
  obtain ⟨n, c1, c2⟩ := entry_line_color hrd b2
  obtain ⟨k0, j0, l1, l2, l3, l4, l5⟩ := entry_line hrd b2
  obtain rfl : k0 = line + 1 := by rw [l2] at hline; exact Option.some.inj hline
  obtain rfl : j0 = j := by rw [l3] at hj; exact Option.some.inj hj
  have kinds : ∀ i < 3, ∃ kind, cssLines[i]? = some kind ∧ kind ∈ cssLines ∧ lineNames[i + 1]? = some kind.1 := by
    intro i hi
    match i, hi with
    | 0, _ => exact ⟨_, rfl, by decide, rfl⟩
    | 1, _ => exact ⟨_, rfl, by decide, rfl⟩
    | 2, _ => exact ⟨_, rfl, by decide, rfl⟩
  have names : (singleLines ++ doubleLines) = cssLineStyles.map (·.1) := by decide
  obtain ⟨kind, e1, e2, e3⟩ := kinds line (by omega)
  have hlt : j0 < cssLineStyles.length := hj'
  have e4 := List.getElem?_eq_getElem hlt
  have l6 := l5 (cssLineStyles[j0]).1 (by rw [names, List.getElem?_map, e4]; rfl)
  rw [e3] at l4
  obtain ⟨k1, k2, k3, k4, -⟩ := C114_line_partial _ T ids hT (entries_names hrd (hE "Style" (by decide)) hS) embed r hm s k l hr st c a1 b1 kind e2 l4
  exact ⟨kind, _, n, e1, e4, c1, k1, k2, k3 _ c2 (by simp [colorText, lit]), k4 _ (List.getElem_mem hlt) l6⟩

end

/-! ### Documents with lines -/

/-- A character shape with a line: its flags, and the color of the line. -/
def linedShape (flags : UInt8) (color : Bytes) : Bytes :=
  List.replicate 28 0 ++ List.replicate 7 100 ++ List.replicate 7 0 ++ [232, 3, 0, 0] ++ [flags, 0, 0, 0] ++ [0, 0] ++ [0, 0, 0, 0] ++ color ++
  List.replicate 8 0

/-- `DocInfo` with two character shapes and a style with the first. -/
def linedInfo (first second : UInt8) : Bytes :=
  recordBytes 16 0 (List.replicate 26 1) ++ recordBytes 17 0 ([0, 0, 0, 0, 1, 0, 0, 0, 1, 0, 0, 0] ++ List.replicate 52 0) ++
  recordBytes 19 1 ([0] ++ bstrBytes "K") ++ recordBytes 19 1 ([0] ++ bstrBytes "E") ++
  recordBytes 21 1 (linedShape first [255, 0, 0, 0]) ++ recordBytes 21 1 (linedShape second [0, 0, 255, 0]) ++
  recordBytes 25 1 ([12, 0, 0, 0, 200, 0, 0, 0, 0, 0, 0, 0, 156, 255, 255, 255] ++ List.replicate 8 0 ++ [160] ++ List.replicate 21 0) ++
  recordBytes 26 1 (bstrBytes "" ++ bstrBytes "Body Text" ++ [0, 0, 0, 0, 0, 0, 0, 0, 0, 0])

/-- The tree of the XML file of the document with "A" in the first and "B" in the second shape. -/
def linedTree (first second : UInt8) : Forest XNode :=
  xmlTree (joined (documentXml sampleEnv (directReader [5, 0, 1, 7]) (fun _ => [])
    ⟨[5, 0, 1, 7], sampleSummaryObj, linedInfo first second, [(0, styledBody)], none⟩).out)

/-- The runs with the lines drawn at them, and the color and style of their own. -/
def linedRuns (doc : Forest XNode) : List (PyStr × List PyStr × Option PyStr × Option PyStr) :=
  (htmlRuns doc).map fun r => (r.text, drawnLines (pageRules false doc) r.path,
    declaredValue (pageRules false doc) "text-decoration-color" r.path, declaredValue (pageRules false doc) "text-decoration-style" r.path)

/-- "A" has a dotted red line under it (4 for the line, 32 for its style), "B" a double blue one over it (12 and 112). -/
example : linedRuns (linedTree 36 124) =
    [(lit "A", [lit "underline"], some (lit "#ff0000"), some (lit "dotted")),
     (lit "B", [lit "overline"], some (lit "#0000ff"), some (lit "double"))] := by
  decide +kernel

/-- A document of elements: "A" with a solid green line under it as its style, "B" with a dashed line through it, "C" without a line in a paragraph
with a style without one. -/
def linedXml : Forest XNode :=
  el "HwpDoc" [] (el "DocInfo" [] (el "IdMappings" []
    (el "CharShape" [("underline", "underline"), ("underline-style", "solid"), ("underline-color", "#00ff00")] .nil
    (el "CharShape" [("underline", "line_through"), ("underline-style", "long_dashed"), ("underline-color", "#0000ff")] .nil
    (el "CharShape" [("underline", "none"), ("underline-style", "solid"), ("underline-color", "#000000")] .nil
    (el "Style" [("name", "Body Text"), ("parashape-id", "0"), ("charshape-id", "0")] .nil
    (el "Style" [("name", "Other"), ("parashape-id", "0"), ("charshape-id", "2")] .nil))))))
  (el "BodyText" [] (el "SectionDef" [] (el "ColumnSet" []
    (el "Paragraph" [("parashape-id", "0"), ("style-id", "0")] (el "LineSeg" []
      (el "Text" [("charshape-id", "0"), ("lang", "en")] (.node (.text (lit "A")) .nil .nil)
      (el "Text" [("charshape-id", "1"), ("lang", "en")] (.node (.text (lit "B")) .nil .nil))))
    (el "Paragraph" [("parashape-id", "0"), ("style-id", "1")] (el "LineSeg" []
      (el "Text" [("charshape-id", "2"), ("lang", "en")] (.node (.text (lit "C")) .nil .nil)))))))))

/-- Its table of ids. -/
def linedIds : List (PyStr × PyStr) × Forest XNode := ((elementsNamed "IdMappings" linedXml).head?).getD ([], .nil)

theorem lined_tables : TablesAre linedXml linedIds.1 linedIds.2 where
  hwpdoc := ⟨_, _, rfl, _, _, rfl, by decide +kernel⟩
  ids := by decide +kernel
  only := by decide +kernel

theorem lined_names : ProperNames linedIds.2 where
  ident := by decide +kernel
  distinct := by decide +kernel
  shapes := by decide +kernel

/-- The `i`-th run, and the `i`-th entry. -/
def linedRun (i : Nat) : HtmlRun := ((htmlRuns linedXml)[i]?).getD ⟨[], [], [], []⟩
def linedEntry (name : String) (i : Nat) : List (PyStr × PyStr) × Forest XNode := ((entries name linedIds.2)[i]?).getD ([], .nil)

/-- The theorems apply to it: "B" has a line through it and no other, although its style has another. -/
example : (linedRun 1).text = lit "B" ∧ drawnLines (pageRules true linedXml) (linedRun 1).path = [lit "line-through"] ∧
    declaredValue (pageRules true linedXml) "text-decoration-style" (linedRun 1).path = some (lit "dashed") := by
  refine ⟨by decide +kernel, ?_⟩
  obtain ⟨-, -, -, h4, h5⟩ := C114_line_partial _ _ _ lined_tables lined_names true (linedRun 1) (by decide +kernel) 0 1 (lit "en")
    ⟨by decide +kernel, ⟨0, by decide +kernel⟩, by decide +kernel, by decide +kernel, by decide +kernel⟩ (linedEntry "Style" 0) (linedEntry "CharShape" 1)
    (by decide +kernel) (by decide +kernel) ("line_through", "line-through") (by decide) (by decide +kernel)
  refine ⟨h5 ?_, h4 ("long_dashed", "dashed") (by decide) (by decide +kernel)⟩
  have no : ∀ s ∈ entries "Style" linedIds.2, ∀ b ∈ (linedRun 1).path.drop 2, styleClass s ∉ classesOf b.2 := by decide +kernel
  intro s hs ⟨b, hb, hc⟩
  exact absurd hc (no s hs b hb)

/-- "C" has none. -/
example : (linedRun 2).text = lit "C" ∧ drawnLines (pageRules true linedXml) (linedRun 2).path = [] := by
  refine ⟨by decide +kernel, ?_⟩
  have less : LineLess (linedEntry "CharShape" 2) := by unfold LineLess; decide +kernel
  have hc : (entries "CharShape" linedIds.2)[2]? = some (linedEntry "CharShape" 2) := by decide +kernel
  refine C114_no_line_partial _ _ _ lined_tables lined_names true (linedRun 2) (by decide +kernel) 1 2 (lit "en")
    ⟨by decide +kernel, ⟨0, by decide +kernel⟩, by decide +kernel, by decide +kernel, by decide +kernel⟩ (linedEntry "Style" 1) (linedEntry "CharShape" 2)
    (by decide +kernel) hc less ⟨2, by decide +kernel, fun c h => ?_⟩ ?_
  · rw [hc] at h
    obtain rfl := Option.some.inj h
    exact less
  · have no : ∀ s ∈ entries "Style" linedIds.2, ∀ b ∈ (linedRun 2).path.drop 2, styleClass s ∉ classesOf b.2 := by decide +kernel
    intro s hs ⟨b, hb, hc⟩
    exact absurd hc (no s hs b hb)

/-- "T", without a line, in the cell of an inline table in a paragraph whose style has a line. -/
def linedTable : Forest XNode :=
  el "HwpDoc" [] (el "DocInfo" [] (el "IdMappings" []
    (el "CharShape" [("underline", "underline"), ("underline-style", "solid"), ("underline-color", "#00ff00")] .nil
    (el "CharShape" [("underline", "none"), ("underline-style", "solid"), ("underline-color", "#000000")] .nil
    (el "Style" [("name", "Body Text"), ("parashape-id", "0"), ("charshape-id", "0")] .nil
    (el "Style" [("name", "Other"), ("parashape-id", "0"), ("charshape-id", "1")] .nil)))))
  (el "BodyText" [] (el "SectionDef" [] (el "ColumnSet" []
    (el "Paragraph" [("parashape-id", "0"), ("style-id", "0")] (el "LineSeg" []
      (el "TableControl" [("inline", "1")] (el "TableBody" [] (el "TableRow" [] (el "TableCell" []
        (el "Paragraph" [("parashape-id", "0"), ("style-id", "1")] (el "LineSeg" []
          (el "Text" [("charshape-id", "1"), ("lang", "en")] (.node (.text (lit "T")) .nil .nil))))))))))))))

/-- C114, violated: "T" has a character shape without a line, as has the style of its paragraph, and is shown underlined: the rule of the style of the
paragraph with the table also selects the `span` of the table. -/
theorem C114_inline_table :
    linedRuns linedTable = [(lit "T", [lit "underline"], none, none)] ∧
    (htmlRuns linedTable).map (fun r => r.path.map (·.1) |>.take 7) =
      [[lit "span", lit "p", lit "td", lit "tr", lit "table", lit "span", lit "p"]] := by
  decide +kernel

/-- No lines. -/
example : linedRuns (linedTree 0 0) = [(lit "A", [], none, none), (lit "B", [], none, none)] := by
  decide +kernel

/-- C114, violated: "B" has a character shape without a line, and is shown underlined, in the color of another shape: the rule of the style of its
paragraph also applies to it, and its own rule does not say that it has no line. -/
theorem C114_not_overridden :
    (elementsNamed "CharShape" (linedTree 4 0)).map (fun c => attrOf c.1 "underline") = [some (lit "underline"), some (lit "none")] ∧
    (htmlRuns (linedTree 4 0)).map (fun r => (r.text, attrOf r.attrs "charshape-id")) = [(lit "A", some (lit "0")), (lit "B", some (lit "1"))] ∧
    linedRuns (linedTree 4 0) =
      [(lit "A", [lit "underline"], some (lit "#ff0000"), some (lit "solid")),
       (lit "B", [lit "underline"], some (lit "#ff0000"), some (lit "solid"))] := by
  decide +kernel

end Hwp.Props
