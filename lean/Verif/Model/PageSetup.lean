/-
Model of the pages in the conversions to HTML and ODT: the rules in the head of the HTML page for the paper of the sections
(/repo/src/hwp5/xsl/hwp5html.xsl:26-32, /repo/src/hwp5/xsl/hwp5css-common.xsl:645-846), and in ODT the page layouts and master
pages (/repo/src/hwp5/xsl/odt/common.xsl:175-192, 252-350, /repo/src/hwp5/xsl/odt/styles.xsl:45-48) with the paragraphs that refer
to them (/repo/src/hwp5/xsl/odt/common.xsl:757-780, 862-867).

The rules of `styles.css` are not looked at here: none declares a width or height, and their selectors are less specific where they declare
margins.  In ODT `../..` of a paragraph at the begin of a section is taken to be the definition of the section; if it is
another element, text in it would be written to the style.
-/
import Verif.Model.Lengths
import Verif.Model.OdtStyles
set_option autoImplicit false
namespace Hwp

/-! ### HTML -/

/-- hwp5css-common.xsl:743-774: the size of the paper. -/
def paperDecls (page : XElem) : List (PyStr × PyStr) :=
  if attrValue page.1 "orientation" = lit "portrait" then [(lit "width", mmOf (attrValue page.1 "width"))]
  else if attrValue page.1 "orientation" = lit "landscape" then [(lit "width", mmOf (attrValue page.1 "height"))]
  else []

/-- hwp5css-common.xsl:680-721: the margins of the paper. -/
def marginDecls (page : XElem) : List (PyStr × PyStr) :=
  [(lit "position", lit "relative"), (lit "margin-top", mmOf (attrValue page.1 "top-offset")),
   (lit "margin-right", mmOf (attrValue page.1 "right-offset")), (lit "margin-bottom", mmOf (attrValue page.1 "bottom-offset")),
   (lit "margin-left", mmOf (attrValue page.1 "left-offset"))]

/-- hwp5css-common.xsl:723-741: the room for header and footer. -/
def paddingDecls (page : XElem) : List (PyStr × PyStr) :=
  [(lit "padding-top", mmOf (attrValue page.1 "header-offset")), (lit "padding-bottom", mmOf (attrValue page.1 "footer-offset"))]

/-- hwp5css-common.xsl:645-678: the rules of a section. -/
def sectionRules (sec : XElem) : List CssRule :=
  let s := lit ".Section-" ++ attrValue sec.1 "section-id"
  let pages := childrenNamed (lit "PageDef") sec.2
  [(s, pages.flatMap paperDecls), (s ++ lit " .HeaderPageFooter", pages.flatMap marginDecls), (s ++ lit " .Page", pages.flatMap paddingDecls)]

/-- hwp5css-common.xsl:776-846: the rule of a header or footer. -/
def areaRules (selector list edge : String) (area : XElem) : List CssRule :=
  let kids := childrenNamed (lit list) area.2
  [(lit selector, [(lit "position", lit "absolute"), (lit "left", lit "0"), (lit edge, lit "0"),
    (lit "width", mmOf (firstAttr kids "width")), (lit "height", mmOf (firstAttr kids "height"))])]

/-- hwp5html.xsl:26-32: the rules in the head of the page. -/
def headRules (doc : Forest XNode) : List CssRule :=
  forEach (lit "HwpDoc") (forEach (lit "BodyText") fun cs => (childrenNamed (lit "SectionDef") cs).flatMap sectionRules) doc ++
  (elemsIn (lit "Header") doc).flatMap (areaRules ".HeaderArea" "HeaderParagraphList" "top") ++
  (elemsIn (lit "Footer") doc).flatMap (areaRules ".FooterArea" "FooterParagraphList" "bottom")

/-! ### ODT -/

/-- The sections, `BodyText/SectionDef`. -/
def sectionElems (doc : Forest XNode) : List XElem :=
  forEach (lit "HwpDoc") (forEach (lit "BodyText") fun cs => childrenNamed (lit "SectionDef") cs) doc

/-- odt/common.xsl:272-350: `style:page-layout-properties`. -/
def layoutProps (page : XElem) : List (PyStr × PyStr) :=
  [(lit "style:print-orientation", attrValue page.1 "orientation")] ++
  (if attrValue page.1 "orientation" = lit "portrait" then
    [(lit "fo:page-width", cmOf (attrValue page.1 "width")), (lit "fo:page-height", cmOf (attrValue page.1 "height"))]
  else if attrValue page.1 "orientation" = lit "landscape" then
    [(lit "fo:page-width", cmOf (attrValue page.1 "height")), (lit "fo:page-height", cmOf (attrValue page.1 "width"))]
  else []) ++
  [(lit "fo:margin-top", cmOf (attrValue page.1 "top-offset")), (lit "fo:margin-left", cmOf (attrValue page.1 "left-offset")),
   (lit "fo:margin-right", cmOf (attrValue page.1 "right-offset")), (lit "fo:margin-bottom", cmOf (attrValue page.1 "bottom-offset"))]

/-- odt/common.xsl:252-270, odt/styles.xsl:45-47: the page layouts, by their names; the properties of each. -/
def pageLayouts (doc : Forest XNode) : List (PyStr × List (List (PyStr × PyStr))) :=
  (sectionElems doc).map fun sec =>
    (lit "PageLayout-" ++ nextNumber (attrValue sec.1 "section-id"), (childrenNamed (lit "PageDef") sec.2).map layoutProps)

/-- odt/common.xsl:862-867. -/
def masterName (sec : List (PyStr × PyStr)) : PyStr := lit "MasterPage-" ++ nextNumber (attrValue sec "section-id")

/-- odt/common.xsl:175-192: the master pages, with the page layouts they have. -/
def masterPages (doc : Forest XNode) : List (PyStr × PyStr) :=
  (sectionElems doc).map fun sec => (masterName sec.1, lit "PageLayout-" ++ nextNumber (attrValue sec.1 "section-id"))

/-- `//Paragraph` with `..` and `../..`: the names and attributes of these. -/
def paragraphsUnder : Forest XNode → List (PyStr × List (PyStr × PyStr)) → List (XElem × List (PyStr × List (PyStr × PyStr)))
  | .nil, _ => []
  | .node (.text _) _ sibs, path => paragraphsUnder sibs path
  | .node (.elem n as) cs sibs, path =>
    (if n = lit "Paragraph" then [((as, cs), path)] else []) ++ paragraphsUnder cs ((n, as) :: path) ++ paragraphsUnder sibs path

/-- odt/common.xsl:757-780: `style:master-page-name` of the style of a paragraph, by the name of the style. -/
def masterOf (doc : Forest XNode) (p : XElem × List (PyStr × List (PyStr × PyStr))) : List (PyStr × PyStr) :=
  if ownParagraph (nthOf doc "Style" (xpathNumber (attrValue p.1.1 "style-id"))) p.1.1 ∧ attrValue p.1.1 "new-section" = lit "1" then
    match p.2[1]? with
    | some (n, as) => if n = lit "SectionDef" then [(ownParagraphName p.1.1, masterName as)] else []
    | none => []
  else []

/-- The automatic styles of paragraphs that have a master page, with its name. -/
def styleMasters (doc : Forest XNode) : List (PyStr × PyStr) := (paragraphsUnder doc []).flatMap (masterOf doc)

/-- odt/common.xsl:701-713, 869-889: the paragraphs of a section that are not in others, and the styles they refer to. -/
def flowParagraphs (doc : Forest XNode) : Forest XNode → List (List (PyStr × PyStr) × PyStr)
  | .nil => []
  | .node (.text _) _ sibs => flowParagraphs doc sibs
  | .node (.elem n as) cs sibs =>
    (if n = lit "Paragraph" then
      let style := nthInIds doc "Style" (xpathNumber (attrValue as "style-id"))
      [(as, if ownParagraph style as then ownParagraphName as else odtStyleName style)]
    else match odtRule .all n as with
      | .into _ ways => if ways = [.all] then flowParagraphs doc cs else []
      | .run => []) ++ flowParagraphs doc sibs

/-- The paragraphs of the sections in `content.xml`, not those in others. -/
def sectionParagraphs (doc : Forest XNode) : List (List (List (PyStr × PyStr) × PyStr)) :=
  (sectionElems doc).map fun sec => flowParagraphs doc sec.2

end Hwp
