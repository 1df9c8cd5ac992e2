/- C101: the formatting of runs of text in HTML. -/
import Verif.Proofs.Css
import Verif.Props.Pictures
set_option autoImplicit false
set_option linter.unusedSimpArgs false
set_option linter.unusedVariables false
set_option Elab.async false
namespace Hwp.Props
open Hwp Spec

/-- C101: a run of text with the character shape `k` is shown in the text color of the `k`-th character shape.
Missing: documents without the one table of ids, styles with names that are no classes or not distinct (`C101_style_lost`). -/
theorem C101_color_partial (doc T : Forest XNode) (ids : List (PyStr × PyStr)) (h : TablesAre doc ids T) (hN : ProperNames T) (embed : Bool)
    (r : HtmlRun) (hm : r ∈ htmlRuns doc) (s k : Nat) (l : PyStr) (hr : RunOf r.para r.attrs s k l)
    (st c : List (PyStr × PyStr) × Forest XNode) (hs : (entries "Style" T)[s]? = some st) (hc : (entries "CharShape" T)[k]? = some c)
    (color : PyStr) (hcolor : attrOf c.1 "text-color" = some color) (hne : color ≠ []) :
    styledValue (pageRules embed doc) (lit "color") r.path = some color := by
  have e : attrValue c.1 "text-color" = color := by rw [attrValue_eq, hcolor]; rfl
  exact styled_own h hN embed r hm hr hs hc _ (by decide +kernel) (by decide +kernel) color (by rw [own_color c (by rw [e]; exact hne), e])

/-- C101: a run of text with a bold character shape is shown in bold.  A run with a character shape that is not bold is not shown in bold, if no
style with a bold character shape has the class of an element around it.
Missing: runs that are not bold in a paragraph whose style is bold (`C101_not_overridden`), and what is missing above. -/
theorem C101_bold_partial (doc T : Forest XNode) (ids : List (PyStr × PyStr)) (h : TablesAre doc ids T) (hN : ProperNames T) (embed : Bool)
    (r : HtmlRun) (hm : r ∈ htmlRuns doc) (s k : Nat) (l : PyStr) (hr : RunOf r.para r.attrs s k l)
    (st c : List (PyStr × PyStr) × Forest XNode) (hs : (entries "Style" T)[s]? = some st) (hc : (entries "CharShape" T)[k]? = some c) :
    (FlagOn c "bold" → styledValue (pageRules embed doc) (lit "font-weight") r.path = some (lit "bold")) ∧
    (FlagOff c "bold" → (∀ s ∈ entries "Style" T, (∃ b ∈ r.path, styleClass s ∈ classesOf b.2) →
        ∃ q : Nat, attrOf s.1 "charshape-id" = some (Spec.decimal q) ∧ ∀ c, (entries "CharShape" T)[q]? = some c → FlagOff c "bold") →
      styledValue (pageRules embed doc) (lit "font-weight") r.path = none) := by
  refine ⟨fun hb => ?_, fun hb hst => ?_⟩
  · exact styled_own h hN embed r hm hr hs hc _ (by decide +kernel) (by decide +kernel) _ (by rw [own_bold, isOne_on hb]; rfl)
  · refine styled_unset h hN embed r hm hr hs hc _ (by decide +kernel) (by decide +kernel) (by rw [own_bold, isOne_off hb]; rfl) ?_
    intro s' hs' hb' c' hc'
    obtain ⟨q, hq, hoff⟩ := hst s' hs' hb'
    rw [decimal_nat] at hq
    rw [style_shape h hq, Option.mem_toList] at hc'
    rw [own_bold, isOne_off (hoff c' hc')]; rfl

/-- C101: the same for italic. -/
theorem C101_italic_partial (doc T : Forest XNode) (ids : List (PyStr × PyStr)) (h : TablesAre doc ids T) (hN : ProperNames T) (embed : Bool)
    (r : HtmlRun) (hm : r ∈ htmlRuns doc) (s k : Nat) (l : PyStr) (hr : RunOf r.para r.attrs s k l)
    (st c : List (PyStr × PyStr) × Forest XNode) (hs : (entries "Style" T)[s]? = some st) (hc : (entries "CharShape" T)[k]? = some c) :
    (FlagOn c "italic" → styledValue (pageRules embed doc) (lit "font-style") r.path = some (lit "italic")) ∧
    (FlagOff c "italic" → (∀ s ∈ entries "Style" T, (∃ b ∈ r.path, styleClass s ∈ classesOf b.2) →
        ∃ q : Nat, attrOf s.1 "charshape-id" = some (Spec.decimal q) ∧ ∀ c, (entries "CharShape" T)[q]? = some c → FlagOff c "italic") →
      styledValue (pageRules embed doc) (lit "font-style") r.path = none) := by
  refine ⟨fun hb => ?_, fun hb hst => ?_⟩
  · exact styled_own h hN embed r hm hr hs hc _ (by decide +kernel) (by decide +kernel) _ (by rw [own_italic, isOne_on hb]; rfl)
  · refine styled_unset h hN embed r hm hr hs hc _ (by decide +kernel) (by decide +kernel) (by rw [own_italic, isOne_off hb]; rfl) ?_
    intro s' hs' hb' c' hc'
    obtain ⟨q, hq, hoff⟩ := hst s' hs' hb'
    rw [decimal_nat] at hq
    rw [style_shape h hq, Option.mem_toList] at hc'
    rw [own_italic, isOne_off (hoff c' hc')]; rfl

/-- C101: a run of text of a language is shown in the face of its character shape for this language: the `i`-th face of the language, where the
faces of the languages follow one another in the table as often as its counts say.  Families that are taken if this one is missing may follow.
Missing: what is missing above; numbers beyond the faces of the language. -/
theorem C101_font_partial (doc T : Forest XNode) (ids : List (PyStr × PyStr)) (h : TablesAre doc ids T) (hN : ProperNames T) (embed : Bool)
    (r : HtmlRun) (hm : r ∈ htmlRuns doc) (s k : Nat) (l : String) (hl : l ∈ languages) (hr : RunOf r.para r.attrs s k (lit l))
    (st c : List (PyStr × PyStr) × Forest XNode) (hs : (entries "Style" T)[s]? = some st) (hc : (entries "CharShape" T)[k]? = some c)
    (count : String → Nat) (hcount : ∀ l ∈ languages, attrOf ids (l ++ "-fonts") = some (Spec.decimal (count l)))
    (fs : List (PyStr × PyStr)) (fk : Forest XNode) (hf : entries "FontFace" c.2 = [(fs, fk)]) (i : Nat) (hi : attrOf fs l = some (Spec.decimal i))
    (face : List (PyStr × PyStr) × Forest XNode) (hface : (facesOf count l languages (entries "FaceName" T))[i]? = some face)
    (name : PyStr) (hname : attrOf face.1 "name" = some name) :
    ∃ more, (more = [] ∨ lit ", " <+: more) ∧
      styledValue (pageRules embed doc) (lit "font-family") r.path = some (lit "\"" ++ name ++ lit "\"" ++ more) := by
  obtain ⟨g, g1, g2⟩ := familyOf_eq h count hcount l c face i hf hi hface
  rw [hname] at g2
  refine ⟨g, g1, ?_⟩
  rw [styled_font h hN embed r hm hl hr hs hc (by rw [g2]; simp [show lit "\"" ≠ [] from by decide]), g2]
  rfl

/-! ### A document with styles -/

/-- Two faces, a bold red and a plain blue character shape, two styles with the first; "A" with the character shape 0, "B" with the character shape 1. -/
def styledXml : Forest XNode :=
  el "HwpDoc" [] (el "DocInfo" [] (el "IdMappings" [("ko-fonts", "1"), ("en-fonts", "1"), ("cn-fonts", "0"), ("jp-fonts", "0"), ("other-fonts", "0"),
      ("symbol-fonts", "0"), ("user-fonts", "0")]
    (el "FaceName" [("name", "K")] .nil (el "FaceName" [("name", "E")] .nil
    (el "CharShape" [("basesize", "1000"), ("italic", "0"), ("bold", "1"), ("text-color", "#ff0000")] (el "FontFace" [("ko", "0"), ("en", "0")] .nil)
    (el "CharShape" [("basesize", "1050"), ("italic", "0"), ("bold", "0"), ("text-color", "#0000ff")] (el "FontFace" [("ko", "0"), ("en", "0")] .nil
      (el "RelativeSize" [("ko", "100"), ("en", "95"), ("other", "90")] .nil))
    (el "ParaShape" [("align", "both")] .nil
    (el "Style" [("name", "Body Text"), ("parashape-id", "0"), ("charshape-id", "0")] .nil
    (el "Style" [("name", "Other"), ("parashape-id", "0"), ("charshape-id", "0")] .nil))))))))
  (el "BodyText" [] (el "SectionDef" [] (el "ColumnSet" [] (el "Paragraph" [("parashape-id", "0"), ("style-id", "0")] (el "LineSeg" []
    (el "Text" [("charshape-id", "0"), ("lang", "en")] (.node (.text (lit "A")) .nil .nil)
    (el "Text" [("charshape-id", "1"), ("lang", "en")] (.node (.text (lit "B")) .nil .nil)))))))))

/-- Its table of ids. -/
def styledIds : List (PyStr × PyStr) × Forest XNode := ((elementsNamed "IdMappings" styledXml).head?).getD ([], .nil)

/-- What a browser shows of the runs of a page: their text, color, weight and font. -/
def shownRuns (doc : Forest XNode) : List (PyStr × List (Option PyStr)) :=
  (htmlRuns doc).map fun r => (r.text, ["color", "font-weight", "font-family"].map fun p => styledValue (pageRules false doc) (lit p) r.path)

theorem styled_tables : TablesAre styledXml styledIds.1 styledIds.2 where
  hwpdoc := ⟨_, _, rfl, _, _, rfl, by decide +kernel⟩
  ids := by decide +kernel
  only := by decide +kernel

theorem styled_names : ProperNames styledIds.2 where
  ident := by decide +kernel
  distinct := by decide +kernel
  shapes := by decide +kernel

/-- The `i`-th run, and the `i`-th entry. -/
def styledRun (i : Nat) : HtmlRun := ((htmlRuns styledXml)[i]?).getD ⟨[], [], [], []⟩
def styledEntry (name : String) (i : Nat) : List (PyStr × PyStr) × Forest XNode :=
  ((entries name styledIds.2)[i]?).getD ([], .nil)

theorem styled_run (i : Nat) (hi : i = 0 ∨ i = 1) : styledRun i ∈ htmlRuns styledXml ∧
    RunOf (styledRun i).para (styledRun i).attrs 0 i (lit "en") ∧ (entries "Style" styledIds.2)[0]? = some (styledEntry "Style" 0) ∧
    (entries "CharShape" styledIds.2)[i]? = some (styledEntry "CharShape" i) := by
  rcases hi with rfl | rfl <;>
    exact ⟨by decide +kernel, ⟨by decide +kernel, ⟨0, by decide +kernel⟩, by decide +kernel, by decide +kernel, by decide +kernel⟩, by decide +kernel, by decide +kernel⟩

/-- The theorems apply to a document with proper styles: "B" is blue. -/
example : (styledRun 1).text = lit "B" ∧ styledValue (pageRules false styledXml) (lit "color") (styledRun 1).path = some (lit "#0000ff") := by
  refine ⟨by decide +kernel, ?_⟩
  obtain ⟨h1, h2, h3, h4⟩ := styled_run 1 (.inr rfl)
  exact C101_color_partial _ _ _ styled_tables styled_names false (styledRun 1) h1 0 1 (lit "en") h2 (styledEntry "Style" 0) (styledEntry "CharShape" 1) h3 h4
    (lit "#0000ff") (by decide +kernel) (by decide +kernel)

/-- "A" is bold. -/
example : (styledRun 0).text = lit "A" ∧ styledValue (pageRules true styledXml) (lit "font-weight") (styledRun 0).path = some (lit "bold") := by
  refine ⟨by decide +kernel, ?_⟩
  obtain ⟨h1, h2, h3, h4⟩ := styled_run 0 (.inl rfl)
  exact (C101_bold_partial _ _ _ styled_tables styled_names true (styledRun 0) h1 0 0 (lit "en") h2 (styledEntry "Style" 0) (styledEntry "CharShape" 0) h3 h4).1
    (by unfold FlagOn; decide +kernel)

/-- "B" is not italic, and no style is. -/
example : styledValue (pageRules true styledXml) (lit "font-style") (styledRun 1).path = none := by
  obtain ⟨h1, h2, h3, h4⟩ := styled_run 1 (.inr rfl)
  refine (C101_italic_partial _ _ _ styled_tables styled_names true (styledRun 1) h1 0 1 (lit "en") h2 (styledEntry "Style" 0) (styledEntry "CharShape" 1) h3 h4).2
    ⟨0, by decide, by decide +kernel⟩ ?_
  have h5 : ∀ s ∈ entries "Style" styledIds.2, attrOf s.1 "charshape-id" = some (Spec.decimal (0 : Nat)) := by decide +kernel
  intro s hs _
  refine ⟨0, h5 s hs, fun c hc => ⟨0, by decide, ?_⟩⟩
  have h6 : (entries "CharShape" styledIds.2)[0]? = some (styledEntry "CharShape" 0) := by decide +kernel
  rw [h6] at hc
  obtain rfl := Option.some.inj hc
  decide +kernel

/-- "B" is in the first face for English, which is the second of the table. -/
example : ∃ more, (more = [] ∨ lit ", " <+: more) ∧ styledValue (pageRules true styledXml) (lit "font-family") (styledRun 1).path =
    some (lit "\"" ++ lit "E" ++ lit "\"" ++ more) := by
  obtain ⟨h1, h2, h3, h4⟩ := styled_run 1 (.inr rfl)
  exact C101_font_partial _ _ _ styled_tables styled_names true (styledRun 1) h1 0 1 "en" (by decide) h2 (styledEntry "Style" 0) (styledEntry "CharShape" 1) h3 h4
    (fun l => if l = "ko" ∨ l = "en" then 1 else 0) (by decide +kernel)
    ((entries "FontFace" (styledEntry "CharShape" 1).2).head?.getD ([], .nil)).1 ((entries "FontFace" (styledEntry "CharShape" 1).2).head?.getD ([], .nil)).2
    (by decide +kernel) 0 (by decide +kernel) (styledEntry "FaceName" 1) (by decide +kernel) (lit "E") (by decide +kernel)

/-! ### The same from records -/

/-- A text as in a record: its length, and its UTF-16. -/
def bstrBytes (s : String) : Bytes := [UInt8.ofNat s.length, 0] ++ s.toList.flatMap fun c => [UInt8.ofNat c.toNat, UInt8.ofNat (c.toNat / 256)]

/-- A character shape: its flags, its color, and the percents of its size. -/
def shapeBytes (flags : UInt8) (color : Bytes) (percent : UInt8 := 100) : Bytes :=
  List.replicate 28 0 ++ List.replicate 7 percent ++ List.replicate 7 0 ++ [232, 3, 0, 0] ++ [flags, 0, 0, 0] ++ [0, 0] ++ color ++ List.replicate 12 0

/-- `DocInfo` with two faces, a bold red and a plain blue character shape, a centered paragraph shape, and styles with these names and the red one. -/
def styleInfo (names : List String) : Bytes :=
  recordBytes 16 0 (List.replicate 26 1) ++ recordBytes 17 0 ([0, 0, 0, 0, 1, 0, 0, 0, 1, 0, 0, 0] ++ List.replicate 52 0) ++
  recordBytes 19 1 ([0] ++ bstrBytes "K") ++ recordBytes 19 1 ([0] ++ bstrBytes "E") ++
  recordBytes 21 1 (shapeBytes 2 [255, 0, 0, 0] 95) ++ recordBytes 21 1 (shapeBytes 0 [0, 0, 255, 0] 200) ++
  recordBytes 25 1 ([12, 0, 0, 0, 200, 0, 0, 0, 0, 0, 0, 0, 156, 255, 255, 255] ++ List.replicate 8 0 ++ [160] ++ List.replicate 21 0) ++
  names.flatMap fun name => recordBytes 26 1 (bstrBytes "" ++ bstrBytes name ++ [0, 0, 0, 0, 0, 0, 0, 0, 0, 0])

/-- "A" with the character shape 0, "B" with the character shape 1. -/
def styledBody : Bytes :=
  recordBytes 66 0 [11, 0, 0, 0, 4, 0, 0, 0, 0, 0, 0, 3, 2, 0, 0, 0, 0, 0, 0, 0, 0, 0] ++
  recordBytes 67 1 ([2, 0] ++ asciiBytes "dces" ++ [0, 0, 0, 0, 0, 0, 0, 0, 2, 0] ++ [0x41, 0, 0x42, 0, 13, 0]) ++
  recordBytes 68 1 [0, 0, 0, 0, 0, 0, 0, 0, 9, 0, 0, 0, 1, 0, 0, 0] ++
  recordBytes 71 1 (asciiBytes "dces" ++ List.replicate 34 0)

/-- The tree of the XML file of the document. -/
def styledTree (names : List String) : Forest XNode :=
  xmlTree (joined (documentXml sampleEnv (directReader [5, 0, 1, 7]) (fun _ => [])
    ⟨[5, 0, 1, 7], sampleSummaryObj, styleInfo names, [(0, styledBody)], none⟩).out)

/-- C101, violated: "B" has a character shape that is not bold, and is shown in bold: the rule of the style of its paragraph also applies to it, and
its own rule does not say that it is not bold. -/
theorem C101_not_overridden :
    (elementsNamed "CharShape" (styledTree ["Body Text"])).map (fun c => attrOf c.1 "bold") = [some (lit "1"), some (lit "0")] ∧
    (htmlRuns (styledTree ["Body Text"])).map (fun r => (r.text, attrOf r.attrs "charshape-id")) =
      [(lit "A", some (lit "0")), (lit "B", some (lit "1"))] ∧
    shownRuns (styledTree ["Body Text"]) =
      [(lit "A", [some (lit "#ff0000"), some (lit "bold"), some (lit "\"E\"")]),
       (lit "B", [some (lit "#0000ff"), some (lit "bold"), some (lit "\"E\"")])] := by
  decide +kernel

/-- C101, violated: text with the character shape of its style is shown without color, weight and font if the English name of the style is empty:
the rules of the style are not valid, and the run has no class for its character shape. -/
theorem C101_style_lost :
    shownRuns (styledTree [""]) = [(lit "A", [none, none, none]), (lit "B", [some (lit "#0000ff"), none, some (lit "\"E\"")])] ∧
    (htmlRuns (styledTree [""])).map (fun r => r.path.take 1) = [[(lit "span", lit "lang-en")], [(lit "span", lit "lang-en charshape-1")]] := by
  decide +kernel

/-- The classes of paragraphs and tables: that of the paragraph shape only if it is not the one of the style. -/
example : (htmlRuns styledXml).map (fun r => (r.path.drop 1).take 1) = [[(lit "p", lit "Body-Text")], [(lit "p", lit "Body-Text")]] ∧
    paragraphClass styledXml [(lit "style-id", lit "0"), (lit "parashape-id", lit "9")] = lit "Body-Text parashape-9" ∧
    tableBorder (el "TableBody" [("borderfill-id", "3")] .nil (el "TableBody" [("borderfill-id", "4")] .nil .nil)) = lit "borderfill-3" := by decide +kernel

end Hwp.Props
