/-
Specification of well nested event streams.
-/
import Verif.Model.TreeOp
import Verif.Spec.Grouping
namespace Hwp.Spec
variable {α : Type}

/-- `Nested open es`: reading `es` with the elements of `open` currently open
(innermost first), every end event closes the innermost open element and in the
end nothing is open. -/
def Nested : List α → List (Ev α) → Prop
  | st, [] => st = []
  | st, .start a :: es => Nested (a :: st) es
  | [], .stop _ :: _ => False
  | a :: st, .stop b :: es => b = a ∧ Nested st es

/-- A well nested event stream. -/
def WellNested (es : List (Ev α)) : Prop := Nested [] es

instance decNested [DecidableEq α] : (st : List α) → (es : List (Ev α)) → Decidable (Nested st es)
  | st, [] => inferInstanceAs (Decidable (st = []))
  | st, .start a :: es => decNested (a :: st) es
  | [], .stop _ :: _ => inferInstanceAs (Decidable False)
  | a :: st, .stop b :: es =>
    have := decNested st es
    inferInstanceAs (Decidable (b = a ∧ Nested st es))

instance [DecidableEq α] (es : List (Ev α)) : Decidable (WellNested es) := decNested [] es

/-- The start events with the number of elements open before each of them. -/
def startDepths : Nat → List (Ev α) → List (Nat × α)
  | _, [] => []
  | d, .start a :: es => (d, a) :: startDepths (d + 1) es
  | d, .stop _ :: es => startDepths (d - 1) es

/-- The items of the start events in order. -/
def starts : List (Ev α) → List α
  | [] => []
  | .start a :: es => a :: starts es
  | .stop _ :: es => starts es

/-- Events of a forest in document order. -/
def eventsOf : Forest α → List (Ev α)
  | .nil => []
  | .node a cs sibs => .start a :: (eventsOf cs ++ .stop a :: eventsOf sibs)

/-- The trees of two forests one after the other. -/
def _root_.Hwp.Forest.append {α} : Forest α → Forest α → Forest α
  | .nil, g => g
  | .node a cs sibs, g => .node a cs (sibs.append g)

/-- Each level is at most one deeper than its predecessor. -/
def StepsOk : Nat → List (Nat × α) → Prop
  | _, [] => True
  | prev, (l, _) :: ls => l ≤ prev + 1 ∧ StepsOk l ls


/-- `IsAncestors root items i anc`: `anc` is the chain of enclosing items of the
`i`-th item, outermost first, starting with `root`. -/
inductive IsAncestors (root : α) (items : List (Nat × α)) : Nat → List α → Prop where
  | atTop (i : Nat) : enclosing (items.map (·.1)) i = none → IsAncestors root items i [root]
  | inside (i j l : Nat) (a : α) (anc : List α) : enclosing (items.map (·.1)) i = some j →
      items[j]? = some (l, a) → IsAncestors root items j anc →
      IsAncestors root items i (anc ++ [a])

end Hwp.Spec
