/-
Specification of properly placed fields.
-/
import Verif.Model.Passes
import Verif.Spec.Events
namespace Hwp.Spec

/-- The fields open behind a forest when those of `S` (innermost first) are open
before it, or `none` if a field starts or ends outside a line or an element inside
a line does not leave the open fields as it found them.  `inLine` tells whether
the forest is the content of a line segment.  An end character without an open
field is ignored. -/
def fieldRun (inLine : Bool) (S : List Item) : Forest Item → Option (List Item)
  | .nil => some S
  | .node a cs sibs =>
    if a.isField then
      if inLine ∧ fieldRun false (a :: S) cs = some (a :: S) then fieldRun inLine (a :: S) sibs
      else none
    else if a.isFieldEnd then
      if inLine ∧ cs = .nil then fieldRun inLine S.tail sibs else none
    else
      match fieldRun a.isLineSeg S cs with
      | none => none
      | some S' => if inLine ∧ S' ≠ S then none else fieldRun inLine S' sibs

/-- Fields are started and ended inside lines only and every element inside a
line ends the fields it starts. -/
def FieldsPaired (f : Forest Item) : Prop := (fieldRun false [] f).isSome

instance (f : Forest Item) : Decidable (FieldsPaired f) :=
  inferInstanceAs (Decidable ((fieldRun false [] f).isSome = true))

/-- Events that do not belong to a field. -/
def notField (e : IEv) : Bool := !(e.item.isField || e.item.isFieldEnd)

end Hwp.Spec
