/-
Specification of lines under, over and through the text in the conversion to HTML: how a browser draws them.
-/
import Verif.Spec.Css
set_option autoImplicit false
namespace Hwp.Spec

/-- The value declared for an element itself. -/
def declaredValue (rules : List (PyStr × List (PyStr × PyStr))) (prop : String) (path : List (PyStr × PyStr)) : Option PyStr :=
  (winning (cssDeclared rules (lit prop) path)).map (·.2)

/-- The lines at the text of an element with those around it: `text-decoration` is not inherited, but the lines of an element are drawn at all the
text in it, whatever is declared for the elements in it. -/
def drawnLines (rules : List (PyStr × List (PyStr × PyStr))) : List (PyStr × PyStr) → List PyStr
  | [] => []
  | b :: bs => (declaredValue rules "text-decoration" (b :: bs)).toList.filter (· ≠ lit "none") ++ drawnLines rules bs

/-- The lines of character shapes as they are called in CSS. -/
def cssLines : List (String × String) := [("underline", "underline"), ("line_through", "line-through"), ("overline", "overline")]

/-- The styles of the lines of character shapes, in the order of their numbers, and those of CSS. -/
def cssLineStyles : List (String × String) :=
  [("solid", "solid"), ("dashed", "dashed"), ("dotted", "dotted"), ("dash_dot", "dashed"), ("dash_dot_dot", "dashed"), ("long_dashed", "dashed"),
   ("large_dotted", "dotted"), ("double", "double"), ("lower_weighted", "double"), ("upper_weighted", "double"), ("middle_weighted", "double")]

/-- A character shape without a line. -/
def LineLess (shape : List (PyStr × PyStr) × Forest XNode) : Prop :=
  ∀ kind ∈ cssLines, attrOf shape.1 "underline" ≠ some (lit kind.1)

end Hwp.Spec
