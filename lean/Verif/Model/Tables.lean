/-
Model of the tables of the conversions to HTML and ODT: the templates of /repo/src/hwp5/xsl/hwp5html.xsl:175-211, 281-331 and
/repo/src/hwp5/xsl/odt/common.xsl:925-947, applied to the tree of the XML file of a document.

Of the output only the rows of the tables and the spans of their cells are modelled: not what is in the cells, which is the subject of Pages.lean, not
captions, sizes and styles.
-/
import Verif.Model.Pictures
set_option autoImplicit false
namespace Hwp

/-- hwp5html.xsl:287-331, odt/common.xsl:935-943: the attributes `rowspan` and `colspan` (HTML), `table:number-rows-spanned`
and `table:number-columns-spanned` (ODT) of the cells of a row, which are those of the elements `TableCell`. -/
def rowCells (row : Forest XNode) : List (PyStr × PyStr) :=
  (childrenNamed (lit "TableCell") row).map fun c => (attrValue c.1 "rowspan", attrValue c.1 "colspan")

/-- hwp5html.xsl:175-211, 281-285, odt/common.xsl:925-947: the rows of a table, `TableBody/TableRow`.  In HTML, `TableBody` has no template of its own: its
children are shown; rows and cells in other places, as right below `TableControl`, are not counted. -/
def tableRows (table : Forest XNode) : List (List (PyStr × PyStr)) :=
  ((childrenNamed (lit "TableBody") table).flatMap fun b => childrenNamed (lit "TableRow") b.2).map fun r => rowCells r.2

/-- The tables met in the way `m`: the children of each `TableControl` that is shown as a table in this way. -/
def walkTables {M : Type} (s : Sheet M) (shows : M → List (PyStr × PyStr) → Bool) : Forest XNode → M → List (Forest XNode)
  | .nil, _ => []
  | .node (.text _) _ sibs, m => walkTables s shows sibs m
  | .node (.elem n as) cs sibs, m =>
    (if n = lit "TableControl" ∧ shows m as then [cs] else []) ++
    (s.rule m n as).ways.flatMap (walkTables s shows cs) ++ walkTables s shows sibs m

/-- hwp5html.xsl:129, 132, 175, 194: a `TableControl` is a table if its attribute `inline` is 0 or 1; those of a line are met in the
paragraph if it is 1, and behind the paragraph if it is 0. -/
def htmlShowsTable : HtmlWay → List (PyStr × PyStr) → Bool
  | .all, as => attrValue as "inline" = lit "1" ∨ attrValue as "inline" = lit "0"
  | .line, as => attrValue as "inline" = lit "1"
  | .floatsIn name, as => name = lit "TableControl" ∧ attrValue as "inline" = lit "0"
  | _, _ => false

/-- odt/common.xsl:895, 925: the tables of a line are met behind the paragraph. -/
def odtShowsTable (m : OdtWay) (_ : List (PyStr × PyStr)) : Bool := m = .all ∨ m = .tablesIn

/-- hwp5html.xsl:70-102: the tables of a section, with those of the headers and footers of the document. -/
def htmlSectionTables (doc kids : Forest XNode) : List (Forest XNode) :=
  descend (lit "Header") (forEach (lit "HeaderParagraphList") fun cs => walkTables htmlSheet htmlShowsTable cs .paragraphs) doc ++
  walkTables htmlSheet htmlShowsTable kids .all ++
  descend (lit "Footer") (forEach (lit "FooterParagraphList") fun cs => walkTables htmlSheet htmlShowsTable cs .paragraphs) doc

/-- The rows of the tables of the page. -/
def htmlTables (doc : Forest XNode) : List (List (List (PyStr × PyStr))) :=
  (forEach (lit "HwpDoc") (forEach (lit "BodyText") (forEach (lit "SectionDef") (htmlSectionTables doc))) doc).map tableRows

/-- The rows of the tables of `content.xml`. -/
def odtTables (doc : Forest XNode) : List (List (List (PyStr × PyStr))) :=
  (forEach (lit "HwpDoc") (forEach (lit "BodyText") (forEach (lit "SectionDef") fun cs =>
    walkTables odtSheet odtShowsTable cs .all)) doc).map tableRows

/-- plat/_lxml.py:100-111 `XSLT._transform`, with the tables of the result. -/
def tablesOf {β : Type} (parse : Bytes → Option (List XEv)) (tables : Forest XNode → List β) (xml : Bytes) : Option (List β) :=
  (parse xml).map fun evs => tables (xmlTree evs)

end Hwp
