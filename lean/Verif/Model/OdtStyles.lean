/-
Model of the formatting of text in the conversion to ODT: the styles that paragraphs and runs of text refer to, and the
styles that are written (/repo/src/hwp5/xsl/odt/common.xsl, /repo/src/hwp5/xsl/odt/content.xsl, /repo/src/hwp5/xsl/odt/styles.xsl).

Of the properties of text the fonts, the sizes, the slant, the weight and the types of the lines under, over and through the text are
modelled: not the width, style and color of these lines.  `style:class`, `style:next-style-name` and `style:master-page-name` are
left out.  Numbers are natural numbers (as for `xpathNumber`), but for the margins of paragraphs.
-/
import Verif.Model.Css
set_option autoImplicit false
namespace Hwp

/-! ### XPath -/

/-- `/HwpDoc/DocInfo/IdMappings/name`. -/
def idEntries (doc : Forest XNode) (name : String) : List XElem :=
  forEach (lit "HwpDoc") (forEach (lit "DocInfo") (forEach (lit "IdMappings") (childrenNamed (lit name)))) doc

/-- `/HwpDoc/DocInfo/IdMappings/name[n + 1]`. -/
def nthInIds (doc : Forest XNode) (name : String) (n : Option Nat) : List XElem :=
  match n with
  | none => []
  | some n => forEach (lit "HwpDoc") (forEach (lit "DocInfo") (forEach (lit "IdMappings") fun cs => ((childrenNamed (lit name) cs)[n]?).toList)) doc

/-- `//name`, in the order of the document. -/
def elemsIn (name : PyStr) : Forest XNode → List XElem
  | .nil => []
  | .node (.text _) _ sibs => elemsIn name sibs
  | .node (.elem n as) cs sibs => (if n = name then [(as, cs)] else []) ++ elemsIn name cs ++ elemsIn name sibs

/-- `a != b` for numbers; NaN differs from every number. -/
def numbersDiffer (a b : Option Nat) : Bool :=
  match a, b with
  | some a, some b => a != b
  | _, _ => true

/-- `@name + 1` as a string. -/
def nextNumber (s : PyStr) : PyStr :=
  match xpathNumber s with
  | some n => natStr (n + 1)
  | none => lit "NaN"

/-! ### Names of styles -/

/-- odt/common.xsl:247: the characters that are replaced. -/
def prohibitedChars : PyStr := lit " !\"#$%&'()*+,/:;<=>?@[\\]^`{|}~"

/-- odt/common.xsl:241-250: the template `make-ncname`. -/
def ncName (s : PyStr) : PyStr := s.map fun c => if prohibitedChars.contains c then 0x5F else c

/-- odt/common.xsl:212-216: the mode `make-style-name`. -/
def odtStyleName (styles : List XElem) : PyStr := styles.flatMap fun e => ncName (attrValue e.1 "local-name")

/-- odt/common.xsl:765, 882: the paragraph needs a style of its own. -/
def ownParagraph (style : List XElem) (para : List (PyStr × PyStr)) : Bool :=
  numbersDiffer (xpathNumber (firstAttr style "parashape-id")) (xpathNumber (attrValue para "parashape-id")) ||
  attrValue para "new-page" == lit "1"

/-- odt/common.xsl:747, 916: the run of text needs a style of its own. -/
def ownText (style : List XElem) (as : List (PyStr × PyStr)) : Bool :=
  numbersDiffer (xpathNumber (firstAttr style "charshape-id")) (xpathNumber (attrValue as "charshape-id"))

/-- odt/common.xsl:769-772, 883. -/
def ownParagraphName (para : List (PyStr × PyStr)) : PyStr := lit "Paragraph-" ++ nextNumber (attrValue para "paragraph-id")

/-- odt/common.xsl:726-733, 917. -/
def ownTextName (para : List (PyStr × PyStr)) (line pos : Nat) : PyStr :=
  lit "p" ++ nextNumber (attrValue para "paragraph-id") ++ lit "-" ++ natStr line ++ lit "-" ++ natStr pos

/-! ### Runs of text -/

/-- A run of text: the attributes of its paragraph and of its `Text`, its text; the names of the elements before it in its line
that templates are applied to; `text:style-name` of `text:p` and of `text:span`. -/
structure OdtRun where
  para : List (PyStr × PyStr)
  attrs : List (PyStr × PyStr)
  text : PyStr
  before : List PyStr
  paraStyle : PyStr
  spanStyle : Option PyStr
  deriving DecidableEq, Repr

/-- Is an element selected in this way (odt/common.xsl:891, 900)?  Only asked for lines and what is in them. -/
def selectedIn (m : OdtWay) (n : PyStr) : Bool :=
  match m with
  | .lines => n == lit "LineSeg"
  | .line => [lit "Text", lit "GShapeObjectControl", lit "FootNote", lit "EndNote", lit "ControlChar"].contains n
  | _ => true

/-- odt/common.xsl:906-921: the template of `Text`, whose `position()` is that among what is selected in the line. -/
def odtRun (doc : Forest XNode) (para : List (PyStr × PyStr)) (line : Nat) (before : List PyStr) (as : List (PyStr × PyStr)) (text : PyStr) : OdtRun :=
  let style := nthInIds doc "Style" (xpathNumber (attrValue para "style-id"))
  { para := para, attrs := as, text := text, before := before,
    paraStyle := if ownParagraph style para then ownParagraphName para else odtStyleName style,
    spanStyle := if ownText style as then some (ownTextName para line (before.length + 1)) else none }

/-- The paragraph the templates for the children of an element get to know, in the way `w`: `Paragraph` gives itself to its lines,
these to what is in them (891-903).  (Without a paragraph, which does not happen in the files that are converted,
the transformation of a `Text` fails; here the paragraph is empty then.) -/
def paragraphFor (n : PyStr) (as : List (PyStr × PyStr)) (w : OdtWay) (para : List (PyStr × PyStr)) : List (PyStr × PyStr) :=
  if n = lit "Paragraph" ∧ w = .lines then as else if n = lit "LineSeg" ∧ w = .line then para else []

/-- The runs of text in the way `m`, given the paragraph, the number of its line and the names of the elements before. -/
def walkSpans (doc : Forest XNode) : Forest XNode → OdtWay → List (PyStr × PyStr) → Nat → List PyStr → List OdtRun
  | .nil, _, _, _, _ => []
  | .node (.text _) _ sibs, m, para, line, before => walkSpans doc sibs m para line before
  | .node (.elem n as) cs sibs, m, para, line, before =>
    (match odtRule m n as with
      | .run => [odtRun doc para line before as (firstText cs)]
      | .into _ ways => ways.flatMap fun w => walkSpans doc cs w (paragraphFor n as w para) (before.length + 1) []) ++
    walkSpans doc sibs m para line (if selectedIn m n then before ++ [n] else before)

/-- odt/content.xsl:40-53, odt/common.xsl:701-713, 869-871: the runs of text of `content.xml`. -/
def odtRuns (doc : Forest XNode) : List OdtRun :=
  forEach (lit "HwpDoc") (forEach (lit "BodyText") (forEach (lit "SectionDef") fun cs => walkSpans doc cs .all [] 0 [])) doc

/-! ### Styles -/

/-- A style: `style:family`, `style:name`, `style:parent-style-name`, and the attributes of `style:text-properties` and of
`style:paragraph-properties` in the order they are set. -/
structure OdtStyle where
  family : PyStr
  name : PyStr
  parent : Option PyStr
  props : List (PyStr × PyStr)
  paraProps : List (PyStr × PyStr)
  deriving DecidableEq, Repr

/-- odt/common.xsl:637-651: the mode `style:text-xxxline-type-value`. -/
def lineType (as : List (PyStr × PyStr)) : PyStr :=
  let s := attrValue as "underline-style"
  if ["solid", "dashed", "dotted", "dash_dot", "dash_dot_dot", "long_dashed", "large_dotted"].any (fun t => s == lit t) then lit "single"
  else if ["double", "lower_weighted", "upper_weighted", "middle_weighted"].any (fun t => s == lit t) then lit "double"
  else []

/-- odt/common.xsl:653-699: the line of this kind. -/
def lineProp (as : List (PyStr × PyStr)) (name kind : String) : PyStr × PyStr :=
  (lit name, if attrValue as "underline" == lit kind then lineType as else lit "none")

/-- odt/common.xsl:543-559: the names of the fonts. -/
def fontProps (doc : Forest XNode) (shape : XElem) (name lang : String) : List (PyStr × PyStr) :=
  (childrenNamed (lit "FontFace") shape.2).flatMap fun f =>
    (nthOf doc "FaceName" (xpathNumber (attrValue f.1 lang))).map fun face => (lit name, attrValue face.1 "name")

/-- odt/common.xsl:561-583: the sizes of the letters. -/
def sizeProps (shape : XElem) : List (PyStr × PyStr) :=
  [(lit "fo:font-size", fontSize shape "en"), (lit "style:font-size-asian", fontSize shape "ko"), (lit "style:font-size-complex", fontSize shape "other")]

/-- odt/common.xsl:516-541, 585-619: `style:text-properties` of a character shape. -/
def charProps (doc : Forest XNode) (shape : XElem) : List (PyStr × PyStr) :=
  fontProps doc shape "style:font-name" "en" ++ fontProps doc shape "style:font-name-asian" "ko" ++ sizeProps shape ++
  (if isOne shape.1 "italic" then
    [(lit "fo:font-style", lit "italic"), (lit "style:font-style-asian", lit "italic"), (lit "style:font-style-complex", lit "italic")] else []) ++
  [lineProp shape.1 "style:text-underline-type" "underline", lineProp shape.1 "style:text-overline-type" "overline",
   lineProp shape.1 "style:text-line-through-type" "line_through"] ++
  (if isOne shape.1 "bold" then
    [(lit "fo:font-weight", lit "bold"), (lit "style:font-weight-asian", lit "bold"), (lit "style:font-weight-complex", lit "bold")] else [])

/-- odt/common.xsl:425-435: how a paragraph is aligned. -/
def officeAlign (as : List (PyStr × PyStr)) : PyStr :=
  if attrValue as "align" = lit "both" then lit "justify"
  else if attrValue as "align" = lit "left" then lit "left"
  else if attrValue as "align" = lit "right" then lit "right"
  else if attrValue as "align" = lit "center" then lit "center"
  else if attrValue as "align" = lit "distribute" then lit "justify"
  else if attrValue as "align" = lit "distribute_space" then lit "justify"
  else lit "justify"

/-- odt/common.xsl:436-447: the indent of the first line, and the margins. -/
def marginProps (as : List (PyStr × PyStr)) : List (PyStr × PyStr) :=
  let num (name : String) := xpathInt (attrValue as name)
  [(lit "fo:text-indent", ptOf (num "indent")),
   (lit "fo:margin-left", ptOf (match num "indent" with
      | some n => if n < 0 then (num "doubled-margin-left").map (· - n) else num "doubled-margin-left"
      | none => num "doubled-margin-left")),
   (lit "fo:margin-right", ptOf (num "doubled-margin-right")), (lit "fo:margin-top", ptOf (num "doubled-margin-top")),
   (lit "fo:margin-bottom", ptOf (num "doubled-margin-bottom"))]

/-- odt/common.xsl:461-513: the distance of lines. -/
def spacingProps (as : List (PyStr × PyStr)) : List (PyStr × PyStr) :=
  let spacing := xpathInt (attrValue as "linespacing")
  if attrValue as "linespacing-type" = lit "ratio" then [(lit "fo:line-height", numberStr 0 spacing ++ lit "%")]
  else if attrValue as "linespacing-type" = lit "fixed" then [(lit "fo:line-height", ptOf spacing), (lit "style:vertical-align", lit "top")]
  else if attrValue as "linespacing-type" = lit "spaceonly" then [(lit "style:line-spacing", numberStr 4 (spacing.map (25 * ·)) ++ lit "pt")]
  else []

/-- odt/common.xsl:361-514: `style:paragraph-properties` of a paragraph shape. -/
def shapeProps (shape : XElem) : List (PyStr × PyStr) :=
  (lit "fo:text-align", officeAlign shape.1) :: marginProps shape.1 ++ spacingProps shape.1

/-- odt/common.xsl:782-854: `style:paragraph-properties` of a paragraph. -/
def ownParaProps (doc : Forest XNode) (para : List (PyStr × PyStr)) : List (PyStr × PyStr) :=
  (nthOf doc "ParaShape" (xpathNumber (attrValue para "parashape-id"))).flatMap shapeProps ++
  if attrValue para "new-page" == lit "1" then [(lit "fo:break-before", lit "page")] else []

/-- odt/common.xsl:715-780, 856-860: the styles for a paragraph and its runs of text, whose numbers are those among the texts of the line. -/
def paragraphStyles (doc : Forest XNode) (p : XElem) : List OdtStyle :=
  let style := nthOf doc "Style" (xpathNumber (attrValue p.1 "style-id"))
  (if ownParagraph style p.1 then
    [{ family := lit "paragraph", name := ownParagraphName p.1, parent := style.getLast?.map fun s => odtStyleName [s], props := [],
       paraProps := ownParaProps doc p.1 }] else []) ++
  (childrenNamed (lit "LineSeg") p.2).zipIdx.flatMap fun l => (childrenNamed (lit "Text") l.1.2).zipIdx.flatMap fun t =>
    if ownText style t.1.1 then
      [{ family := lit "text", name := ownTextName p.1 (l.2 + 1) (t.2 + 1), parent := none,
         props := (nthOf doc "CharShape" (xpathNumber (attrValue t.1.1 "charshape-id"))).flatMap (charProps doc), paraProps := [] }]
    else []

/-- odt/content.xsl:55-62: the styles in `content.xml` for paragraphs and text. -/
def automaticStyles (doc : Forest XNode) : List OdtStyle :=
  forEach (lit "HwpDoc") (forEach (lit "BodyText") fun _ => (elemsIn (lit "Paragraph") doc).flatMap (paragraphStyles doc)) doc

/-- odt/common.xsl:218-239, 352-359: a style of the document. -/
def commonStyle (doc : Forest XNode) (s : XElem) : OdtStyle :=
  { family := lit "paragraph", name := odtStyleName [s], parent := none,
    props := (match xpathNumber (attrValue s.1 "charshape-id") with
      | none => []
      | some n => ((idEntries doc "CharShape")[n]?).toList.flatMap (charProps doc)),
    paraProps := (match xpathNumber (attrValue s.1 "parashape-id") with
      | none => []
      | some n => ((idEntries doc "ParaShape")[n]?).toList.flatMap shapeProps) }

/-- odt/common.xsl:88-114: the styles that are always there.  Of the properties of paragraphs all but the margins are left out. -/
def fixedStyles : List OdtStyle :=
  let sizes (size : String) := [(lit "fo:font-size", lit size), (lit "style:font-size-asian", lit size), (lit "style:font-size-complex", lit size)]
  let heading := [(lit "style:font-name", lit "sans-serif"), (lit "style:font-name-asian", lit "고딕")] ++ sizes "14pt"
  let caption := sizes "12pt" ++ [(lit "fo:font-style", lit "italic"), (lit "style:font-style-asian", lit "italic"), (lit "style:font-style-complex", lit "italic")]
  let around (top bottom : String) := [(lit "fo:margin-top", lit top), (lit "fo:margin-bottom", lit bottom)]
  [⟨lit "paragraph", lit "Standard", none, [], []⟩, ⟨lit "paragraph", lit "Heading", some (lit "Standard"), heading, around "0.423cm" "0.212cm"⟩,
   ⟨lit "paragraph", lit "Text_20_body", some (lit "Standard"), [], around "0cm" "0.212cm"⟩, ⟨lit "paragraph", lit "List", some (lit "Text_20_body"), [], []⟩,
   ⟨lit "paragraph", lit "Caption", some (lit "Standard"), caption, around "0.212cm" "0.212cm"⟩, ⟨lit "paragraph", lit "Index", some (lit "Standard"), [], []⟩,
   ⟨lit "paragraph", lit "Table_20_Contents", some (lit "Standard"), [], []⟩, ⟨lit "graphic", lit "Graphics", none, [], []⟩]

/-- odt/common.xsl:69-172, odt/styles.xsl:37-50: the styles in `styles.xml`. -/
def commonStyles (doc : Forest XNode) : List OdtStyle :=
  forEach (lit "HwpDoc") (forEach (lit "DocInfo") fun cs =>
    fixedStyles ++ forEach (lit "IdMappings") (fun ids => (childrenNamed (lit "Style") ids).map (commonStyle doc)) cs) doc

end Hwp
