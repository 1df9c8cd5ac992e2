/-
Model of the text of the conversions to HTML and ODT: the templates of /repo/src/hwp5/xsl/hwp5html.xsl and
/repo/src/hwp5/xsl/odt/common.xsl that lead to text, applied to the tree of the XML file of a document
(/repo/src/hwp5/hwp5html.py:57-113, /repo/src/hwp5/hwp5odt.py:93-237).

Modelled of XSLT: `apply-templates` and `for-each` with the children of an element, the built-in templates and
`value-of`.  Of the output only what is text in it: the elements around it (`p`, `span`, `table` ...), their
attributes and the styles are left out.
-/
import Verif.Model.Plaintext
set_option autoImplicit false
namespace Hwp

/-- A piece of text in the output: text of the document; other text, such as the number of a note. -/
inductive Piece where
  | text (t : PyStr)
  | other (t : PyStr)
  deriving DecidableEq, Repr

/-- What is done with an element: `<xsl:value-of select="text()"/>`; or other text and then its children, once for
each of these ways. -/
inductive Act (M : Type) where
  | run
  | into (before : PyStr) (ways : List M)

/-- The output for an element with this first text, and these pieces of its children. -/
def Act.pieces {M : Type} (first : PyStr) (kids : M → List Piece) : Act M → List Piece
  | .run => [.text first]
  | .into before ways => .other before :: ways.flatMap kids

/-- The ways to go through the children of an element: what is done with the elements among them, and whether
text is copied. -/
structure Sheet (M : Type) where
  rule : M → PyStr → List (PyStr × PyStr) → Act M
  copies : M → Bool

/-- The nodes in the way `m`. -/
def walk {M : Type} (s : Sheet M) : Forest XNode → M → List Piece
  | .nil, _ => []
  | .node (.text t) _ sibs, m => (if s.copies m then [.text t] else []) ++ walk s sibs m
  | .node (.elem n as) cs sibs, m =>
    (s.rule m n as).pieces (firstText cs) (walk s cs) ++ walk s sibs m

/-- `@name` as a string. -/
def attrValue (as : List (PyStr × PyStr)) (name : String) : PyStr := ((as.find? fun a => a.1 == lit name).map (·.2)).getD []

/-! ### hwp5html.xsl -/

/-- Ways through the children: `apply-templates`; the paragraphs only (93, 100); the lines of a paragraph (128);
what is in a line (129); the tables or drawings of a paragraph that are not in its text (132-133), and in a line. -/
inductive HtmlWay where
  | all
  | paragraphs
  | lines
  | line
  | floats (name : PyStr)
  | floatsIn (name : PyStr)
  deriving DecidableEq

/-- hwp5html.xsl:104-134: the template of `Paragraph`. -/
def htmlParagraph : Act HtmlWay := .into [] [.lines, .floats (lit "TableControl"), .floats (lit "GShapeObjectControl")]

/-- hwp5html.xsl:136: the template of `ControlChar`. -/
def htmlControlChar (as : List (PyStr × PyStr)) : Act HtmlWay := .into (attrValue as "char") []

/-- hwp5html.xsl:161-173: the template of `AutoNumbering`. -/
def htmlNumbering (as : List (PyStr × PyStr)) : Act HtmlWay :=
  .into (attrValue as "prefix" ++ attrValue as "number" ++ attrValue as "suffix") []

/-- The templates: 104-134 `Paragraph`, 136 `ControlChar`, 138-159 `Paragraph/LineSeg/Text`, 161-173 `AutoNumbering`,
175-211 `TableControl`, 222-337 tables, 333-354 `GShapeObjectControl`, 356-367 `ShapePicture` without text; others are
the built-in ones. -/
def htmlRule : HtmlWay → PyStr → List (PyStr × PyStr) → Act HtmlWay
  | .all, n, as =>
    if n = lit "Paragraph" then htmlParagraph
    else if n = lit "ControlChar" then htmlControlChar as
    else if n = lit "AutoNumbering" then htmlNumbering as
    else if n = lit "ShapePicture" then .into [] []
    else .into [] [.all]
  | .paragraphs, n, _ => if n = lit "Paragraph" then htmlParagraph else .into [] []
  | .lines, n, _ => if n = lit "LineSeg" then .into [] [.line] else .into [] []
  | .line, n, as =>
    if n = lit "Text" then .run
    else if n = lit "ControlChar" then htmlControlChar as
    else if n = lit "AutoNumbering" then htmlNumbering as
    else if (n = lit "TableControl" ∨ n = lit "GShapeObjectControl") ∧ attrValue as "inline" = lit "1" then .into [] [.all]
    else .into [] []
  | .floats name, n, _ => if n = lit "LineSeg" then .into [] [.floatsIn name] else .into [] []
  | .floatsIn name, n, as => if n = name ∧ attrValue as "inline" = lit "0" then .into [] [.all] else .into [] []

def htmlSheet : Sheet HtmlWay := ⟨htmlRule, fun m => m = .all⟩

/-- `//name`: the children of each element of this name, in the order of the document. -/
def descend {β : Type} (name : PyStr) (f : Forest XNode → List β) : Forest XNode → List β
  | .nil => []
  | .node (.text _) _ sibs => descend name f sibs
  | .node (.elem n _) cs sibs => (if n = name then f cs else []) ++ descend name f cs ++ descend name f sibs

/-- hwp5html.xsl:70-102: a section, with the headers and footers of the document. -/
def htmlSection (doc : Forest XNode) (kids : Forest XNode) : List Piece :=
  descend (lit "Header") (forEach (lit "HeaderParagraphList") fun cs => walk htmlSheet cs .paragraphs) doc ++
  walk htmlSheet kids .all ++
  descend (lit "Footer") (forEach (lit "FooterParagraphList") fun cs => walk htmlSheet cs .paragraphs) doc

/-- hwp5html.xsl:12-34, 64-68: the text of the page. -/
def htmlBody (doc : Forest XNode) : List Piece :=
  forEach (lit "HwpDoc") (forEach (lit "BodyText") (forEach (lit "SectionDef") (htmlSection doc))) doc

/-- `Property[@name='PIDSI_TITLE']/@value`, hwp5html.xsl:38: the first of them. -/
def titleValue : Forest XNode → PyStr
  | .nil => []
  | .node (.text _) _ sibs => titleValue sibs
  | .node (.elem n as) _ sibs =>
    if n = lit "Property" ∧ attrValue as "name" = lit "PIDSI_TITLE" ∧ as.any (fun a => a.1 == lit "value") then attrValue as "value"
    else titleValue sibs

/-- hwp5html.xsl:36-40: the title of the page. -/
def htmlTitle (doc : Forest XNode) : PyStr := forEach (lit "HwpDoc") (forEach (lit "HwpSummaryInfo") titleValue) doc

/-! ### odt/common.xsl -/

/-- Ways through the children: `apply-templates`; the paragraphs only (1626); the lines of a paragraph (891), and what is
in them (900); the tables of a paragraph (895), and those in a line; the rows of a table (932) with its cells (935); the shapes
of a drawing (1434, 1446); the pictures of a shape (1470), which have no text; the text of a box (1565); the text of a note (1626). -/
inductive OdtWay where
  | all
  | paragraphs
  | lines
  | line
  | tables
  | tablesIn
  | bodies
  | rows
  | cells
  | shapes
  | pictures
  | boxes
  | notes
  deriving DecidableEq

/-- odt/common.xsl:873-896: the template of `Paragraph`. -/
def odtParagraph : Act OdtWay := .into [] [.lines, .tables]

/-- odt/common.xsl:1440-1451, 1453-1499, 1546-1569, 1571-1588: the templates of `ShapeComponent`. -/
def odtShape (as : List (PyStr × PyStr)) : Act OdtWay :=
  if attrValue as "chid" = lit "$con" then .into [] [.shapes]
  else if attrValue as "chid" = lit "$pic" then .into [] [.pictures]
  else if attrValue as "chid" = lit "$rec" then .into [] [.boxes]
  else if attrValue as "chid" = lit "$lin" then .into [] []
  else .into [] [.all]

/-- odt/common.xsl:1591-1628: a note with its number. -/
def odtNote (as : List (PyStr × PyStr)) : Act OdtWay := .into (attrValue as "number") [.notes]

/-- The templates: 869-871 `SectionDef`, 873-896 `Paragraph`, 898-904 `LineSeg`, 906-921 `Text`, 923 `ControlChar`,
925-947 `TableControl`, 1433-1438 `GShapeObjectControl`, 1440-1588 `ShapeComponent`, 1591-1628 notes; others are the built-in
ones. -/
def odtRule : OdtWay → PyStr → List (PyStr × PyStr) → Act OdtWay
  | .all, n, as =>
    if n = lit "Paragraph" then odtParagraph
    else if n = lit "LineSeg" then .into [] [.line]
    else if n = lit "Text" then .run
    else if n = lit "ControlChar" then .into [] []
    else if n = lit "TableControl" then .into [] [.bodies]
    else if n = lit "GShapeObjectControl" then .into [] [.shapes]
    else if n = lit "ShapeComponent" then odtShape as
    else if n = lit "FootNote" ∨ n = lit "EndNote" then odtNote as
    else .into [] [.all]
  | .paragraphs, n, _ => if n = lit "Paragraph" then odtParagraph else .into [] []
  | .lines, n, _ => if n = lit "LineSeg" then .into [] [.line] else .into [] []
  | .line, n, as =>
    if n = lit "Text" then .run
    else if n = lit "GShapeObjectControl" then .into [] [.shapes]
    else if n = lit "FootNote" ∨ n = lit "EndNote" then odtNote as
    else .into [] []
  | .tables, n, _ => if n = lit "LineSeg" then .into [] [.tablesIn] else .into [] []
  | .tablesIn, n, _ => if n = lit "TableControl" then .into [] [.bodies] else .into [] []
  | .bodies, n, _ => if n = lit "TableBody" then .into [] [.rows] else .into [] []
  | .rows, n, _ => if n = lit "TableRow" then .into [] [.cells] else .into [] []
  | .cells, n, _ => if n = lit "TableCell" then .into [] [.all] else .into [] []
  | .shapes, n, as => if n = lit "ShapeComponent" then odtShape as else .into [] []
  | .pictures, _, _ => .into [] []
  | .boxes, n, _ => if n = lit "TextboxParagraphList" then .into [] [.all] else .into [] []
  | .notes, n, _ => if n = lit "ListHeader" then .into [] [.paragraphs] else .into [] []

def odtSheet : Sheet OdtWay := ⟨odtRule, fun m => m = .all⟩

/-- odt/content.xsl:40-53, odt/common.xsl:701-713, 869-871: the text of `content.xml`. -/
def odtBody (doc : Forest XNode) : List Piece :=
  forEach (lit "HwpDoc") (forEach (lit "BodyText") (forEach (lit "SectionDef") fun cs => walk odtSheet cs .all)) doc

/-! ### The conversions -/

/-- plat/_lxml.py:100-111 `XSLT._transform`, with what of the result is text. -/
def pagesOf (parse : Bytes → Option (List XEv)) (body : Forest XNode → List Piece) (xml : Bytes) : Option (List Piece) :=
  (parse xml).map fun evs => body (xmlTree evs)

end Hwp
