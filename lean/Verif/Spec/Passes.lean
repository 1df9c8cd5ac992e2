/-
Specification of the restructuring passes on document trees.
-/
import Verif.Model.Passes
import Verif.Spec.Events
namespace Hwp.Spec
variable {α : Type}

/-! Sibling lists -/

def _root_.Hwp.Forest.takeWhile (p : α → Bool) : Forest α → Forest α
  | .nil => .nil
  | .node a cs sibs => if p a then .node a cs (sibs.takeWhile p) else .nil

def _root_.Hwp.Forest.dropWhile (p : α → Bool) : Forest α → Forest α
  | .nil => .nil
  | .node a cs sibs => if p a then sibs.dropWhile p else .node a cs sibs

def _root_.Hwp.Forest.take : Nat → Forest α → Forest α
  | 0, _ => .nil
  | _ + 1, .nil => .nil
  | n + 1, .node a cs sibs => .node a cs (sibs.take n)

def _root_.Hwp.Forest.drop : Nat → Forest α → Forest α
  | 0, f => f
  | _ + 1, .nil => .nil
  | n + 1, .node _ _ sibs => sibs.drop n

/-- The root items of the trees of a forest. -/
def _root_.Hwp.Forest.roots : Forest α → List α
  | .nil => []
  | .node a _ sibs => a :: sibs.roots

theorem _root_.Hwp.Forest.size_dropWhile (p : α → Bool) (f : Forest α) :
    (f.dropWhile p).size ≤ f.size := by
  induction f with
  | nil => simp [Forest.dropWhile]
  | node a cs sibs _ ih =>
    simp only [Forest.dropWhile]
    split <;> simp only [Forest.size] <;> omega

theorem _root_.Hwp.Forest.size_takeWhile (p : α → Bool) (f : Forest α) :
    (f.takeWhile p).size ≤ f.size := by
  induction f with
  | nil => simp [Forest.takeWhile]
  | node a cs sibs _ ih =>
    simp only [Forest.takeWhile]
    split <;> simp only [Forest.size] <;> omega

/-! List headers -/

/-- Every parent takes the child siblings that directly follow it as its last
children, at every depth. -/
def adopt (isParent isChild : α → Bool) : Forest α → Forest α
  | .nil => .nil
  | .node a cs sibs =>
    if isParent a then
      .node a ((adopt isParent isChild cs).append (adopt isParent isChild (sibs.takeWhile isChild)))
        (adopt isParent isChild (sibs.dropWhile isChild))
    else .node a (adopt isParent isChild cs) (adopt isParent isChild sibs)
termination_by f => f.size
decreasing_by
  all_goals simp only [Forest.size]
  · omega
  · have := sibs.size_takeWhile isChild; omega
  · have := sibs.size_dropWhile isChild; omega
  · omega
  · omega

/-! Tables -/

/-- Consecutive cells put into rows of the given widths. -/
def groupRows : List Nat → Forest Item → Forest Item
  | [], _ => .nil
  | w :: ws, cells => .node .tableRow (cells.take w) (groupRows ws (cells.drop w))

/-- The document with the cells of every table body put into rows, provided each
body consists of cells, as many as its row widths say, all widths are positive
and no cell is outside a body. -/
def rowed (inBody : Bool) : Forest Item → Option (Forest Item)
  | .nil => some .nil
  | .node a cs sibs =>
    match a, inBody with
    | .tableCell t, true => do
      let cs' ← rowed false cs
      let sibs' ← rowed true sibs
      return .node (.tableCell t) cs' sibs'
    | _, true => none
    | .tableCell _, false => none
    | .tableBody none _, false => none
    | .tableBody (some ws) t, false => do
      let cs' ← rowed true cs
      let sibs' ← rowed false sibs
      if cs.roots.length = ws.sum ∧ ∀ w ∈ ws, 0 < w then
        return .node (.tableBody none t) (groupRows ws cs') sibs'
      else none
    | a, false => do
      let cs' ← rowed false cs
      let sibs' ← rowed false sibs
      return .node a cs' sibs'

/-! Sections -/

/-- The first section definition in document order: its item and children, and
the forest without it. -/
def extractSection : Forest Item → Option ((Item × Forest Item) × Forest Item)
  | .nil => none
  | .node a cs sibs =>
    if a.isSectionDef then some ((a, cs), sibs)
    else match extractSection cs with
      | some (sd, cs') => some (sd, .node a cs' sibs)
      | none => match extractSection sibs with
        | some (sd, sibs') => some (sd, .node a cs sibs')
        | none => none

/-! Columns -/

/-- A paragraph that starts a new column set. -/
def startsColumns : Item → Bool
  | .paragraph n _ => n
  | _ => false

/-- No paragraph starting a column set is a direct child of a paragraph, and there
are no column sets yet. -/
def ColumnsOk : Forest Item → Prop
  | .nil => True
  | .node a cs sibs =>
    a ≠ .columnSet ∧ (a.isParagraph → ∀ b ∈ cs.roots, ¬ startsColumns b) ∧
      ColumnsOk cs ∧ ColumnsOk sibs

/-- Every paragraph starting a column set is put, together with the siblings up
to the next such paragraph, into a column set. -/
def columned : Forest Item → Forest Item
  | .nil => .nil
  | .node a cs sibs =>
    if startsColumns a then
      .node .columnSet (.node a (columned cs) (columned (sibs.takeWhile (!startsColumns ·))))
        (columned (sibs.dropWhile (!startsColumns ·)))
    else .node a (columned cs) (columned sibs)
termination_by f => f.size
decreasing_by
  all_goals simp only [Forest.size]
  · omega
  · have := sibs.size_takeWhile (!startsColumns ·); omega
  · have := sibs.size_dropWhile (!startsColumns ·); omega
  · omega
  · omega

/-! Text -/

/-- Text elements replaced by one text element per language token. -/
def tokenized : Forest Item → Forest Item
  | .nil => .nil
  | .node (.text s shape _) _ sibs =>
    (tokenizeByLang s).foldr (fun t f => .node (.text t.2 shape (some t.1)) .nil f) (tokenized sibs)
  | .node a cs sibs => .node a (tokenized cs) (tokenized sibs)

/-- Text elements have no children. -/
def TextLeaves : Forest Item → Prop
  | .nil => True
  | .node a cs sibs => (a.isText → cs = .nil) ∧ TextLeaves cs ∧ TextLeaves sibs

end Hwp.Spec
