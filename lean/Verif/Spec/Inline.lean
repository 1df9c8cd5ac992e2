/-
Specification of inlining extended controls at their anchor characters.
-/
import Verif.Spec.Passes
namespace Hwp.Spec

/-- An extended control character: the place of a control in the text. -/
def isAnchor : Item → Bool
  | .controlChar _ .extended _ => true
  | _ => false

/-- The controls among the trees of a forest. -/
def topControls : Forest Item → List (Item × Forest Item)
  | .nil => []
  | .node a cs sibs => if a.isControl then (a, cs) :: topControls sibs else topControls sibs

/-- The trees that are not controls. -/
def withoutControls : Forest Item → Forest Item
  | .nil => .nil
  | .node a cs sibs => if a.isControl then withoutControls sibs else .node a cs (withoutControls sibs)

/-- A line with its anchors replaced by the given controls in order; and the
controls that are left. -/
def placeIn (q : List (Item × Forest Item)) : Forest Item → Forest Item × List (Item × Forest Item)
  | .nil => (.nil, q)
  | .node a cs sibs =>
    match isAnchor a, q with
    | true, (c, k) :: q' => let r := placeIn q' sibs; (.node c k r.1, r.2)
    | _, _ => let r := placeIn q sibs; (.node a cs r.1, r.2)

/-- The same for the lines among the trees of a forest. -/
def placeLines (q : List (Item × Forest Item)) : Forest Item → Forest Item × List (Item × Forest Item)
  | .nil => (.nil, q)
  | .node a cs sibs =>
    if a.isLineSeg then
      let l := placeIn q cs
      let r := placeLines l.2 sibs
      (.node a l.1 r.1, r.2)
    else
      let r := placeLines q sibs
      (.node a cs r.1, r.2)

/-- In every paragraph the `n`-th anchor in its lines is replaced by the `n`-th
control that is a child of the paragraph, at every depth. -/
def inlined : Forest Item → Forest Item
  | .nil => .nil
  | .node a cs sibs =>
    if a.isParagraph then
      .node a (placeLines (topControls (inlined cs)) (withoutControls (inlined cs))).1 (inlined sibs)
    else .node a (inlined cs) (inlined sibs)

/-- Number of anchors in a line. -/
def lineAnchors : Forest Item → Nat
  | .nil => 0
  | .node a _ sibs => (if isAnchor a then 1 else 0) + lineAnchors sibs

/-- Number of anchors in the lines among the trees of a forest. -/
def anchorCount : Forest Item → Nat
  | .nil => 0
  | .node a cs sibs => (if a.isLineSeg then lineAnchors cs else 0) + anchorCount sibs

/-- A line consisting of text and control characters. -/
def PlainLine : Forest Item → Prop
  | .nil => True
  | .node a cs sibs => (a.isText ∨ a.isControlChar) ∧ cs = .nil ∧ PlainLine sibs

/-- Controls are children of paragraphs, lines are the last children of
paragraphs and contain text and control characters only, control characters occur
nowhere else, and every paragraph has as many anchors as controls. -/
def InlineOk (inPara : Bool) : Forest Item → Prop
  | .nil => True
  | .node a cs sibs =>
    if a.isParagraph then
      InlineOk true cs ∧ anchorCount cs = (topControls cs).length ∧ InlineOk inPara sibs
    else if a.isControl then
      inPara = true ∧ InlineOk false cs ∧ InlineOk inPara sibs
    else if a.isLineSeg then
      inPara = true ∧ PlainLine cs ∧ (∀ b ∈ sibs.roots, b.isLineSeg) ∧ InlineOk inPara sibs
    else a.isControlChar = false ∧ InlineOk false cs ∧ InlineOk inPara sibs

end Hwp.Spec
