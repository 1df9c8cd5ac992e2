/-
Specification of the text of the conversions to HTML and ODT.
-/
import Verif.Model.Pages
set_option autoImplicit false
namespace Hwp.Spec

/-- All text, in the order of the document. -/
def allTexts : Forest XNode → PyStr
  | .nil => []
  | .node (.text t) _ sibs => t ++ allTexts sibs
  | .node (.elem _ _) cs sibs => allTexts cs ++ allTexts sibs

/-- All text but the first. -/
def laterTexts : Forest XNode → PyStr
  | .nil => []
  | .node (.text _) _ sibs => allTexts sibs
  | .node (.elem _ _) cs sibs => allTexts cs ++ laterTexts sibs

/-- Where an element leads: out of view; to its first text; to its children, which are at this place. -/
inductive View (P : Type) where
  | hidden
  | words
  | place (p : P)

/-- A map of the places: where elements lead, and whether text is in view. -/
structure Places (P : Type) where
  view : P → PyStr → List (PyStr × PyStr) → View P
  text : P → Bool

/-- The text out of view. -/
def hiddenText {P : Type} (s : Places P) : Forest XNode → P → PyStr
  | .nil, _ => []
  | .node (.text t) _ sibs, p => (if s.text p then [] else t) ++ hiddenText s sibs p
  | .node (.elem n as) cs sibs, p =>
    (match s.view p n as with
      | .hidden => allTexts cs
      | .words => laterTexts cs
      | .place q => hiddenText s cs q) ++ hiddenText s sibs p

/-- The text of the sections out of view: what is not in a section definition, and what in it is at places out of view. -/
def hiddenSections {P : Type} (s : Places P) (p : P) : Forest XNode → PyStr
  | .nil => []
  | .node (.text t) _ sibs => t ++ hiddenSections s p sibs
  | .node (.elem n _) cs sibs =>
    (if n = lit "SectionDef" then hiddenText s cs p else allTexts cs) ++ hiddenSections s p sibs

/-- The text of the document in the output. -/
def printed : List Piece → PyStr
  | [] => []
  | .text t :: ps => t ++ printed ps
  | .other _ :: ps => printed ps

/-! ### HTML -/

/-- Places: anything in a section; the paragraphs of a list; in a paragraph; in a line. -/
inductive HtmlSpot where
  | anything
  | list
  | paragraph
  | line
  deriving DecidableEq

/-- Of a paragraph the text in its lines and the tables and drawings in them; everything in tables and drawings but
pictures. -/
def htmlView : HtmlSpot → PyStr → List (PyStr × PyStr) → View HtmlSpot
  | .anything, n, _ =>
    if n = lit "Paragraph" then .place .paragraph
    else if n ∈ [lit "ControlChar", lit "AutoNumbering", lit "ShapePicture"] then .hidden
    else .place .anything
  | .list, n, _ => if n = lit "Paragraph" then .place .paragraph else .hidden
  | .paragraph, n, _ => if n = lit "LineSeg" then .place .line else .hidden
  | .line, n, as =>
    if n = lit "Text" then .words
    else if n ∈ [lit "TableControl", lit "GShapeObjectControl"] ∧ attrValue as "inline" ∈ [lit "0", lit "1"] then .place .anything
    else .hidden

def htmlPlaces : Places HtmlSpot := ⟨htmlView, fun p => p = .anything⟩

/-! ### ODT -/

/-- Places: anything in a section; in a paragraph; in a line of a paragraph, or of anything else; in a
table, its body and its rows; in a drawing; in a picture; in a shape with text; in a note and its list. -/
inductive OdtSpot where
  | anything
  | paragraph
  | line
  | looseLine
  | table
  | body
  | row
  | drawing
  | picture
  | shape
  | note
  | list
  deriving DecidableEq

/-- Of a shape: groups have shapes in them; pictures and lines have no text; rectangles have boxes with text. -/
def odtShapeView (as : List (PyStr × PyStr)) : View OdtSpot :=
  if attrValue as "chid" = lit "$con" then .place .drawing
  else if attrValue as "chid" = lit "$rec" then .place .shape
  else if attrValue as "chid" = lit "$pic" then .place .picture
  else if attrValue as "chid" = lit "$lin" then .hidden
  else .place .anything

/-- Of a paragraph the text in its lines and the tables, drawings and notes in them; of a table the cells of its rows; of a
drawing the boxes in its rectangles, and anything in shapes of other kinds; of a note its paragraphs. -/
def odtView : OdtSpot → PyStr → List (PyStr × PyStr) → View OdtSpot
  | .anything, n, as =>
    if n = lit "Text" then .words
    else if n = lit "Paragraph" then .place .paragraph
    else if n = lit "LineSeg" then .place .looseLine
    else if n = lit "TableControl" then .place .table
    else if n = lit "GShapeObjectControl" then .place .drawing
    else if n = lit "ShapeComponent" then odtShapeView as
    else if n ∈ [lit "FootNote", lit "EndNote"] then .place .note
    else if n = lit "ControlChar" then .hidden
    else .place .anything
  | .paragraph, n, _ => if n = lit "LineSeg" then .place .line else .hidden
  | .line, n, _ =>
    if n = lit "Text" then .words
    else if n = lit "TableControl" then .place .table
    else if n = lit "GShapeObjectControl" then .place .drawing
    else if n ∈ [lit "FootNote", lit "EndNote"] then .place .note
    else .hidden
  | .looseLine, n, _ =>
    if n = lit "Text" then .words
    else if n = lit "GShapeObjectControl" then .place .drawing
    else if n ∈ [lit "FootNote", lit "EndNote"] then .place .note
    else .hidden
  | .table, n, _ => if n = lit "TableBody" then .place .body else .hidden
  | .body, n, _ => if n = lit "TableRow" then .place .row else .hidden
  | .row, n, _ => if n = lit "TableCell" then .place .anything else .hidden
  | .drawing, n, as => if n = lit "ShapeComponent" then odtShapeView as else .hidden
  | .picture, _, _ => .hidden
  | .shape, n, _ => if n = lit "TextboxParagraphList" then .place .anything else .hidden
  | .note, n, _ => if n = lit "ListHeader" then .place .list else .hidden
  | .list, n, _ => if n = lit "Paragraph" then .place .paragraph else .hidden

def odtPlaces : Places OdtSpot := ⟨odtView, fun p => p = .anything⟩

/-! ### The order of the text -/

/-- All elements are so. -/
def everyElem (ok : PyStr → List (PyStr × PyStr) → Bool) : Forest XNode → Bool
  | .nil => true
  | .node (.text _) _ sibs => everyElem ok sibs
  | .node (.elem n as) cs sibs => ok n as && everyElem ok cs && everyElem ok sibs

/-- In HTML tables and drawings that are not in the flow of the text are after their paragraph. -/
def htmlFlows (n : PyStr) (as : List (PyStr × PyStr)) : Bool :=
  !((n = lit "TableControl" || n = lit "GShapeObjectControl") && attrValue as "inline" = lit "0")

/-- In ODT tables are after their paragraph. -/
def odtFlows (n : PyStr) (_ : List (PyStr × PyStr)) : Bool := !(n = lit "TableControl")

/-! ### The document -/

/-- The text of the sections, as it is in the file. -/
def bodyTree : Forest XNode → Forest XNode
  | .node (.elem _ _) (.node _ _ (.node _ _ (.node _ body _))) _ => body
  | _ => .nil

/-- The text of all elements of this name. -/
def textIn (name : String) : Forest XNode → PyStr
  | .nil => []
  | .node (.text _) _ sibs => textIn name sibs
  | .node (.elem n _) cs sibs => (if n = lit name then allTexts cs else []) ++ textIn name cs ++ textIn name sibs

end Hwp.Spec
