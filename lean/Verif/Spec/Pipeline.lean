/-
Specification of the input and the result of all passes over a section.
-/
import Verif.Spec.Texts
import Verif.Spec.Inline
import Verif.Spec.FieldTree
namespace Hwp.Spec

/-- Elements only the passes make. -/
def madeByPasses : Item → Bool
  | .lineSeg _ | .text _ _ _ | .controlChar _ _ _ | .columnSet | .tableRow => true
  | _ => false

/-- What is found in a paragraph: text records, controls and other records. -/
def inParagraph : Item → Bool
  | .other _ _ => true
  | b => isTextRecord b || b.isControl

/-- Siblings in which every table body is followed by its cells: as many as its row
widths say, all widths positive, each cell followed by paragraphs only, and there
are no other cells.  `n` cells are still to come; `cell` tells whether one has come
already. -/
def SiblingsOk : Nat → Bool → List Item → Prop
  | n, _, [] => n = 0
  | n, _, .tableCell _ :: r => 0 < n ∧ SiblingsOk (n - 1) true r
  | n, _, .tableBody (some ws) _ :: r => n = 0 ∧ (∀ w ∈ ws, 0 < w) ∧ SiblingsOk ws.sum false r
  | _, _, .tableBody none _ :: _ => False
  | n, cell, .paragraph _ _ :: r => (n = 0 ∨ cell = true) ∧ SiblingsOk n cell r
  | n, _, _ :: r => n = 0 ∧ SiblingsOk 0 false r

/-- Number of extended control characters in the text of a paragraph. -/
def anchorsIn (kids : List Item) : Nat :=
  ((ctrlsOf (paraRanges kids)).filter fun d => kindOf d.code == some .extended).length

/-- An element of a proper section with these children: no element is one that
only the passes make; text records and table bodies have no children; a paragraph
consists of text records that fit together, as many controls as there are extended
control characters in its text, and other records; text records and controls are
found in paragraphs only; and elsewhere tables are complete. -/
def NodeOk (a : Item) (kids : List Item) : Prop :=
  madeByPasses a = false ∧
  (isTextRecord a ∨ a.isTableBody → kids = []) ∧
  if a.isParagraph then
    (∀ b ∈ kids, inParagraph b) ∧ ParaOk kids ∧ anchorsIn kids = (kids.filter Item.isControl).length
  else (∀ b ∈ kids, isTextRecord b = false ∧ b.isControl = false) ∧ SiblingsOk 0 false kids

/-- The control characters of a paragraph as elements. -/
def ctrlLeaves (kids : List Item) : List Item :=
  (ctrlsOf (paraRanges kids)).map fun d => .controlChar d.code ((kindOf d.code).getD .char) 0

/-- The document with every paragraph reduced to its children and one line with
its control characters: all that matters for matching fields. -/
def fieldSkeleton : Forest Item → Forest Item
  | .nil => .nil
  | .node a cs sibs =>
    if isTextRecord a then fieldSkeleton sibs
    else if a.isParagraph then
      .node a ((fieldSkeleton cs).append (.node (.lineSeg (none, 0)) (leaves (ctrlLeaves cs.roots)) .nil))
        (fieldSkeleton sibs)
    else .node a (fieldSkeleton cs) (fieldSkeleton sibs)

/-- All elements in document order. -/
def allItems : Forest Item → List Item
  | .nil => []
  | .node a cs sibs => a :: (allItems cs ++ allItems sibs)

/-- A proper section: paragraphs whose elements are proper, with properly placed
fields, and a section definition somewhere. -/
def ProperSection (f : Forest Item) : Prop :=
  (∀ a ∈ f.roots, a.isParagraph) ∧ Everywhere NodeOk f ∧
  FieldsPaired (inlined (fieldSkeleton f)) ∧ ∃ a ∈ allItems f, a.isSectionDef

/-- Elements that are neither made nor removed nor copied by the passes, without
the attributes the passes change. -/
def keptItem : Item → List Item
  | .paragraph n t => [.paragraph n t]
  | .sectionDef _ t => [.sectionDef none t]
  | .tableBody _ t => [.tableBody none t]
  | .tableCell t => [.tableCell t]
  | .listHeader c t => [.listHeader c t]
  | .tableControl t => [.tableControl t]
  | .gshapeControl t => [.gshapeControl t]
  | .control c t => [.control c t]
  | .shapeComponent t => [.shapeComponent t]
  | .other c t => [.other c t]
  | _ => []

/-- The text of an element. -/
def textItem : Item → PyStr
  | .text s _ _ => s
  | _ => []

/-- The text of all paragraphs. -/
def documentText : Forest Item → PyStr
  | .nil => []
  | .node a cs sibs =>
    (if a.isParagraph then textOf (paraRanges cs.roots) else []) ++ documentText cs ++ documentText sibs

/-- The text of all paragraphs, each with the number of its paragraph. -/
def recordTexts : Forest Item → List (Nat × PyStr)
  | .nil => []
  | .node a cs sibs =>
    (match a with
      | .paragraph _ t => [(t, textOf (paraRanges cs.roots))]
      | _ => []) ++ recordTexts cs ++ recordTexts sibs

/-- The text elements in the given trees, except those in paragraphs. -/
def ownText : Forest Item → PyStr
  | .nil => []
  | .node a cs sibs => textItem a ++ (if a.isParagraph then [] else ownText cs) ++ ownText sibs

/-- The text elements of all paragraphs, each with the number of its paragraph;
what is in a paragraph inside a paragraph belongs to the inner one only. -/
def paragraphTexts : Forest Item → List (Nat × PyStr)
  | .nil => []
  | .node a cs sibs =>
    (match a with
      | .paragraph _ t => [(t, ownText cs)]
      | _ => []) ++ paragraphTexts cs ++ paragraphTexts sibs

instance decSiblingsOk : ∀ n c l, Decidable (SiblingsOk n c l)
  | n, _, [] => inferInstanceAs (Decidable (n = 0))
  | n, c, a :: r => by
    have h1 := fun n c => decSiblingsOk n c r
    cases a
    case tableBody rc t =>
      cases rc
      · exact isFalse (by simp [SiblingsOk])
      · unfold SiblingsOk; infer_instance
    all_goals (unfold SiblingsOk; infer_instance)

instance (a : Item) (kids : List Item) : Decidable (NodeOk a kids) :=
  inferInstanceAs (Decidable (_ ∧ _ ∧ ite _ _ _))

instance (f : Forest Item) : Decidable (ProperSection f) :=
  inferInstanceAs (Decidable (_ ∧ _ ∧ _ ∧ _))

end Hwp.Spec
