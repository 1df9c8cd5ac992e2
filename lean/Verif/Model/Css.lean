/-
Model of the formatting of text in the conversion to HTML: the class attributes of paragraphs and runs of text
(/repo/src/hwp5/xsl/hwp5html.xsl:64-354) and the rules of the style sheet (/repo/src/hwp5/xsl/hwp5css.xsl,
/repo/src/hwp5/xsl/hwp5css-common.xsl), written by /repo/src/hwp5/hwp5html.py:57-113.

A style sheet is the list of its rules: the text of the selector, and the declarations.  A selector with braces, quotes or
the begin of a comment in it would change where the rules after it begin; this is left out.  Of the declarations only `color`,
`font-style`, `font-weight`, `text-decoration` with its parts, `font-family`, `font-size`, `text-align`, `text-indent`, `line-height`, margins and paddings are modelled.  The rules in
the head of the page (hwp5html.xsl:26-32, hwp5css-common.xsl:641-846) and the `style` attributes are not part of the rules here: they are of none of these,
but for margins and paddings, and there none is of a paragraph, but if its style is named as a class of the parts of the page.
-/
import Verif.Model.Points
set_option autoImplicit false
namespace Hwp

/-- An element of the page: its name and its attribute `class`. -/
abbrev Box := PyStr × PyStr

/-- A rule of a style sheet: its selector, and the properties it declares with their values. -/
abbrev CssRule := PyStr × List (PyStr × PyStr)

abbrev XElem := List (PyStr × PyStr) × Forest XNode

/-! ### XPath -/

/-- `@name`, as a set of nodes. -/
def attrNode (as : List (PyStr × PyStr)) (name : String) : Option PyStr := (as.find? fun a => a.1 == lit name).map (·.2)

/-- The children of each element. -/
def kidLists : Forest XNode → List (Forest XNode)
  | .nil => []
  | .node (.text _) _ sibs => kidLists sibs
  | .node (.elem _ _) cs sibs => cs :: kidLists cs ++ kidLists sibs

/-- `//name[n + 1]`: of each element, the child of this name after `n` others of it.  If there are several, they are not in the
order of the document but by the elements they are in. -/
def nthOf (doc : Forest XNode) (name : String) (n : Option Nat) : List XElem :=
  match n with
  | none => []
  | some n => (doc :: kidLists doc).flatMap fun cs => ((childrenNamed (lit name) cs)[n]?).toList

/-- `//name`. -/
def allOf (doc : Forest XNode) (name : String) : List XElem := (doc :: kidLists doc).flatMap (childrenNamed (lit name))

/-- `$nodes/@name`. -/
def attrNodes (nodes : List XElem) (name : String) : List PyStr := nodes.filterMap fun e => attrNode e.1 name

/-- `$nodes/@name` as a string. -/
def firstAttr (nodes : List XElem) (name : String) : PyStr := (attrNodes nodes name).head?.getD []

/-- `translate(s, ' ', '-')`. -/
def dashes (s : PyStr) : PyStr := s.map fun c => if c = 0x20 then 0x2D else c

/-- `@name = 1`. -/
def isOne (as : List (PyStr × PyStr)) (name : String) : Bool := (attrNode as name).bind xpathNumber == some 1

/-! ### Classes -/

/-- hwp5css-common.xsl:201-210: the class for the bullet of a paragraph or a style. -/
def bulletClass (doc : Forest XNode) (as : List (PyStr × PyStr)) : PyStr :=
  let ids := attrNodes (nthOf doc "ParaShape" (xpathNumber (attrValue as "parashape-id"))) "numbering-bullet-id"
  if ids.any (fun v => match xpathNumber v with | some n => decide (0 < n) | none => false) then lit " Bullet-" ++ ids.head?.getD [] else []

/-- hwp5html.xsl:106-107, 140-141: the style of a paragraph. -/
def styleNodes (doc : Forest XNode) (para : List (PyStr × PyStr)) : List XElem :=
  nthOf doc "Style" (xpathNumber (attrValue para "style-id"))

/-- hwp5html.xsl:104-127: the class of a paragraph. -/
def paragraphClass (doc : Forest XNode) (para : List (PyStr × PyStr)) : PyStr :=
  let style := styleNodes doc para
  dashes (firstAttr style "name") ++
    if (attrNodes style "parashape-id").any (fun v => attrNode para "parashape-id" == some v) then style.flatMap fun e => bulletClass doc e.1
    else lit " parashape-" ++ attrValue para "parashape-id" ++ bulletClass doc para

/-- hwp5html.xsl:138-156: the class of a run of text. -/
def textClass (doc : Forest XNode) (para as : List (PyStr × PyStr)) : PyStr :=
  lit "lang-" ++ attrValue as "lang" ++
    if (attrNodes (styleNodes doc para) "charshape-id").any (fun v => attrNode as "charshape-id" == some v) then []
    else lit " charshape-" ++ attrValue as "charshape-id"

/-! ### Runs -/

/-- A run of text: its element and those around it, from the inside; the attributes of its paragraph and of its `Text`; its text. -/
structure HtmlRun where
  path : List Box
  para : List (PyStr × PyStr)
  attrs : List (PyStr × PyStr)
  text : PyStr
  deriving DecidableEq, Repr

/-- The borders of a table, hwp5html.xsl:185, 203. -/
def tableBorder (cs : Forest XNode) : PyStr := lit "borderfill-" ++ firstAttr (childrenNamed (lit "TableBody") cs) "borderfill-id"

/-- The elements made for an element around what its children give in the way `w`, from the inside: hwp5html.xsl:104-134,
175-211, 220-222, 281-291, 333-354. -/
def htmlBoxes (doc : Forest XNode) (n : PyStr) (as : List (PyStr × PyStr)) (cs : Forest XNode) (w : HtmlWay) : List Box :=
  if n = lit "Paragraph" then (if w = .lines then [(lit "p", paragraphClass doc as)] else [])
  else if n = lit "TableControl" then
    if attrValue as "inline" = lit "1" then [(lit "table", tableBorder cs), (lit "span", lit "TableControl")]
    else if attrValue as "inline" = lit "0" then [(lit "table", lit "TableControl " ++ tableBorder cs)]
    else []
  else if n = lit "GShapeObjectControl" then
    if attrValue as "inline" = lit "1" then [(lit "span", lit "GShapeObjectControl")]
    else if attrValue as "inline" = lit "0" then [(lit "div", lit "GShapeObjectControl")]
    else []
  else if n = lit "TableCaption" then [(lit "caption", lit "TableCaption")]
  else if n = lit "TableRow" then [(lit "tr", [])]
  else if n = lit "TableCell" then [(lit "td", lit "borderfill-" ++ attrValue as "borderfill-id")]
  else []

/-- The runs of text in the way `m`, given the elements around and the paragraph. -/
def walkRuns (doc : Forest XNode) : Forest XNode → HtmlWay → List Box → List (PyStr × PyStr) → List HtmlRun
  | .nil, _, _, _ => []
  | .node (.text _) _ sibs, m, path, para => walkRuns doc sibs m path para
  | .node (.elem n as) cs sibs, m, path, para =>
    (match htmlRule m n as with
      | .run => [⟨(lit "span", textClass doc para as) :: path, para, as, firstText cs⟩]
      | .into _ ways => ways.flatMap fun w =>
          walkRuns doc cs w (htmlBoxes doc n as cs w ++ path) (if n = lit "Paragraph" then as else para)) ++
    walkRuns doc sibs m path para

/-- hwp5html.xsl:64-102: the runs of text of a section, with those of the headers and footers of the document. -/
def htmlSectionRuns (doc : Forest XNode) (sec : XElem) : List HtmlRun :=
  let frame : List Box := [(lit "div", lit "HeaderPageFooter"),
    (lit "div", lit "Section Section-" ++ attrValue sec.1 "section-id" ++ lit " Paper"), (lit "body", []), (lit "html", [])]
  descend (lit "Header") (forEach (lit "HeaderParagraphList") fun cs =>
    walkRuns doc cs .paragraphs ((lit "div", lit "HeaderArea") :: frame) []) doc ++
  walkRuns doc sec.2 .all ((lit "div", lit "Page") :: frame) [] ++
  descend (lit "Footer") (forEach (lit "FooterParagraphList") fun cs =>
    walkRuns doc cs .paragraphs ((lit "div", lit "FooterArea") :: frame) []) doc

/-- hwp5html.xsl:12-34: the runs of text of the page. -/
def htmlRuns (doc : Forest XNode) : List HtmlRun :=
  forEach (lit "HwpDoc") (forEach (lit "BodyText") fun cs =>
    (childrenNamed (lit "SectionDef") cs).flatMap (htmlSectionRuns doc)) doc

/-! ### Rules -/

/-- hwp5css-common.xsl:965-980: the mode `text-decoration-style-value`. -/
def lineStyle (as : List (PyStr × PyStr)) : PyStr :=
  let s := attrValue as "underline-style"
  if s = lit "solid" then lit "solid"
  else if s = lit "dashed" then lit "dashed"
  else if s = lit "dotted" then lit "dotted"
  else if s = lit "dash_dot" then lit "dashed"
  else if s = lit "dash_dot_dot" then lit "dashed"
  else if s = lit "long_dashed" then lit "dashed"
  else if s = lit "large_dotted" then lit "dotted"
  else if s = lit "double" then lit "double"
  else if s = lit "lower_weighted" then lit "double"
  else if s = lit "upper_weighted" then lit "double"
  else if s = lit "middle_weighted" then lit "double"
  else []

/-- hwp5css-common.xsl:886-913: the line at the letters, if any. -/
def lineValue (as : List (PyStr × PyStr)) : Option PyStr :=
  let u := attrValue as "underline"
  if u = lit "underline" then some (lit "underline")
  else if u = lit "overline" then some (lit "overline")
  else if u = lit "line_through" then some (lit "line-through")
  else none

/-- hwp5css-common.xsl:886-963: the declarations for the line at the letters. -/
def lineDecls (as : List (PyStr × PyStr)) : List (PyStr × PyStr) :=
  match lineValue as with
  | none => []
  | some v =>
    [(lit "text-decoration", v), (lit "text-decoration-color", attrValue as "underline-color"),
     (lit "-moz-text-decoration-color", attrValue as "underline-color"), (lit "-webkit-text-decoration-color", attrValue as "underline-color"),
     (lit "text-decoration-style", lineStyle as), (lit "-moz-text-decoration-style", lineStyle as),
     (lit "-webkit-text-decoration-style", lineStyle as)]

/-- hwp5css-common.xsl:281-305: the declarations of a character shape. -/
def charDecls (as : List (PyStr × PyStr)) : List (PyStr × PyStr) :=
  ((lit "color", attrValue as "text-color") ::
    ((if isOne as "italic" then [(lit "font-style", lit "italic")] else []) ++
     (if isOne as "bold" then [(lit "font-weight", lit "bold")] else []))) ++ lineDecls as

/-- The languages of fonts, in the order of hwp5css-common.xsl:5-11, 239-280. -/
def fontLangs : List String := ["ko", "en", "cn", "jp", "other", "symbol", "user"]

/-- Sum of two XPath numbers. -/
def addNumbers (a b : Option Nat) : Option Nat := a.bind fun a => b.map (a + ·)

/-- hwp5css-common.xsl:5-11: how many fonts come before those of a language. -/
def fontBase (doc : Forest XNode) (lang : String) : Option Nat :=
  (fontLangs.takeWhile (· ≠ lang)).foldl
    (fun n l => addNumbers n (xpathNumber (firstAttr (allOf doc "IdMappings") (l ++ "-fonts")))) (some 0)

/-- XPath `contains`. -/
def xpathContains (t : PyStr) : PyStr → Bool
  | [] => t.isEmpty
  | c :: s => t.isPrefixOf (c :: s) || xpathContains t s

/-- `@name` as a number compared with `p`. -/
def numberIs (as : List (PyStr × PyStr)) (name : String) (p : Nat → Bool) : Bool :=
  match (attrNode as name).bind xpathNumber with
  | some n => p n
  | none => false

/-- hwp5css-common.xsl:356-370. -/
def panoseFamily (as : List (PyStr × PyStr)) : PyStr :=
  if numberIs as "family-type" (· = 2) ∧ numberIs as "proportion" (· = 9) then lit ", monospace"
  else if numberIs as "family-type" (· = 2) ∧ numberIs as "serif-style" (fun n => decide (10 < n)) then lit ", sans-serif"
  else if numberIs as "family-type" (· = 2) ∧ numberIs as "serif-style" (fun n => decide (n < 11)) then lit ", serif"
  else if numberIs as "family-type" (· = 3) then lit ", cursive"
  else if numberIs as "family-type" (· = 4) then lit ", fantasy"
  else []

/-- hwp5css-common.xsl:344-354. -/
def genericFamily (face : XElem) : PyStr :=
  let name := attrValue face.1 "name"
  if xpathContains (lit "바탕") name then lit ", serif"
  else if xpathContains (lit "돋움") name then lit ", sans-serif"
  else if xpathContains (lit "명조") name then lit ", serif"
  else if xpathContains (lit "고딕") name then lit ", sans-serif"
  else (childrenNamed (lit "Panose1") face.2).flatMap fun p => panoseFamily p.1

/-- hwp5css-common.xsl:321-324, 338-342: the value of `font-family`. -/
def fontFamily (doc : Forest XNode) (n : Option Nat) : PyStr :=
  let faces := nthOf doc "FaceName" n
  (faces.flatMap fun f => lit "\"" ++ attrValue f.1 "name" ++ lit "\"") ++ faces.flatMap genericFamily

/-- hwp5css-common.xsl:324-333, 983-987: the value of `font-size`. -/
def fontSize (shape : XElem) (lang : String) : PyStr :=
  sizeOf (xpathInt (attrValue shape.1 "basesize")) (xpathInt (firstAttr (childrenNamed (lit "RelativeSize") shape.2) lang))

/-- hwp5css-common.xsl:239-280, 307-336: the rules of the fonts of a character shape. -/
def langRules (doc : Forest XNode) (selector : PyStr) (shape : XElem) : List CssRule :=
  fontLangs.map fun l => (selector ++ lit ".lang-" ++ lit l,
    [(lit "font-family", fontFamily doc (addNumbers (fontBase doc l)
      (xpathNumber (firstAttr (childrenNamed (lit "FontFace") shape.2) l)))), (lit "font-size", fontSize shape l)])

/-- hwp5css-common.xsl:228-279: the rules of a character shape. -/
def charRules (doc : Forest XNode) (selector : PyStr) (shape : XElem) : List CssRule :=
  (selector, charDecls shape.1) :: langRules doc selector shape

/-- hwp5css-common.xsl:848-861: how a paragraph is aligned. -/
def textAlign (as : List (PyStr × PyStr)) : PyStr :=
  if attrValue as "align" = lit "center" then lit "center"
  else if attrValue as "align" = lit "left" then lit "left"
  else if attrValue as "align" = lit "right" then lit "right"
  else if attrValue as "align" = lit "both" then lit "justify"
  else lit "justify"

/-- hwp5css-common.xsl:863-884: the indent of the first line. -/
def indentDecls (as : List (PyStr × PyStr)) : List (PyStr × PyStr) :=
  (lit "text-indent", ptOf (xpathInt (attrValue as "indent"))) ::
  match xpathInt (attrValue as "indent") with
  | some n => if n < 0 then [(lit "padding-left", ptOf (some (-n)))] else []
  | none => []

/-- hwp5css-common.xsl:93-127: the declarations of a paragraph shape. -/
def paraDecls (shape : XElem) : List (PyStr × PyStr) :=
  let side (name : String) := ptOf (xpathInt (attrValue shape.1 name))
  [(lit "margin", side "doubled-margin-top" ++ lit " " ++ side "doubled-margin-right" ++ lit " " ++ side "doubled-margin-bottom" ++ lit " " ++
    side "doubled-margin-left"), (lit "text-align", textAlign shape.1)] ++
  indentDecls shape.1 ++
  if attrValue shape.1 "linespacing-type" = lit "ratio" then
    [(lit "min-height", numberStr 2 (xpathInt (attrValue shape.1 "linespacing")) ++ lit "em")] else []

/-- hwp5css-common.xsl:129-140: the declarations of a paragraph shape for the runs of text in a paragraph. -/
def spanDecls (shape : XElem) : List (PyStr × PyStr) :=
  if attrValue shape.1 "linespacing-type" = lit "ratio" then [(lit "line-height", numberStr 2 (xpathInt (attrValue shape.1 "linespacing")))] else []

/-- hwp5css-common.xsl:24-66: the rules of a style. -/
def styleRules (doc : Forest XNode) (style : XElem) : List CssRule :=
  let p := lit "." ++ dashes (attrValue style.1 "name")
  (if attrNode style.1 "kind" = some (lit "paragraph") then
    let shapes := nthOf doc "ParaShape" (xpathNumber (attrValue style.1 "parashape-id"))
    [(p, shapes.flatMap paraDecls), (p ++ lit " > span", shapes.flatMap spanDecls)] else []) ++
  (nthOf doc "CharShape" (xpathNumber (attrValue style.1 "charshape-id"))).flatMap (charRules doc (p ++ lit " > span"))

/-- hwp5css-common.xsl:68-91: the rules of a paragraph shape. -/
def paraRules (n : Nat) (shape : XElem) : List CssRule :=
  [(lit "p.parashape-" ++ natStr n, paraDecls shape), (lit "p.parashape-" ++ natStr n ++ lit " > span", spanDecls shape)]

/-- hwp5css-common.xsl:13-22, 142-199, 222-232, 371-411: the rules of a document, after its `IdMappings`. -/
def tableRules (doc T : Forest XNode) : List CssRule :=
  (childrenNamed (lit "Style") T).flatMap (styleRules doc) ++
  ((childrenNamed (lit "ParaShape") T).zipIdx.flatMap fun e => paraRules e.2 e.1) ++
  ((childrenNamed (lit "CharShape") T).zipIdx.flatMap fun e => charRules doc (lit "span.charshape-" ++ natStr e.2) e.1) ++
  ((childrenNamed (lit "BorderFill") T).zipIdx.map fun e => (lit ".borderfill-" ++ natStr (e.2 + 1), [])) ++
  ((childrenNamed (lit "Bullet") T).zipIdx.map fun e => (lit ".Bullet-" ++ natStr (e.2 + 1) ++ lit "::before", [(lit "text-align", attrValue e.1.1 "align")]))

/-- hwp5css.xsl:5-53: the rules that are always there. -/
def fixedRules : List CssRule :=
  [(lit "body", [(lit "padding", lit "4px"), (lit "margin", lit "0")]), (lit ".Paper", [(lit "margin", lit "1em auto")]),
   (lit ".Paper:first-child", [(lit "margin-top", lit "0")]), (lit ".Paper:last-child", [(lit "margin-bottom", lit "0")])]

/-- The rules the page is shown with: those of `styles.css` (hwp5css.xsl:5-55), or those in the page
(hwp5html.xsl:42-62). -/
def pageRules (embed : Bool) (doc : Forest XNode) : List CssRule :=
  (if embed then [] else fixedRules) ++
  forEach (lit "HwpDoc") (forEach (lit "DocInfo") (forEach (lit "IdMappings") (tableRules doc))) doc

end Hwp
