/-
Specification of the distance of the lines of paragraphs.
-/
import Verif.Spec.Margins
set_option autoImplicit false
namespace Hwp.Spec

/-- What the attributes of a paragraph shape say of the distance of lines: the kind, and how much. -/
structure ShapeSpacing (shape : List (PyStr × PyStr)) (kind : String) (amount : Int) : Prop where
  kind : attrOf shape "linespacing-type" = some (lit kind)
  amount : attrOf shape "linespacing" = some (decimal amount)

/-- The height of lines declared for a run of text in a browser, in sizes of its letters. -/
def browserLines (rules : List (PyStr × List (PyStr × PyStr))) (path : List (PyStr × PyStr)) : Option ℚ :=
  (ownValue rules (lit "line-height") path).bind (signedLength "")

/-- The height of lines set for a paragraph in an office program, with this unit. -/
def officeLines (automatic common : List OdtStyle) (unit : String) (name : PyStr) : Option ℚ :=
  (paraValue automatic common "fo:line-height" name).bind (signedLength unit)

/-- The kind of the distance of lines by the flags of a paragraph shape: bits 0 and 1. -/
def flagsSpacing (flags : Nat) : String :=
  match flags % 4 with
  | 0 => "ratio"
  | 1 => "fixed"
  | 2 => "spaceonly"
  | _ => "minimum"

/-- The distance of lines by the record of a paragraph shape. -/
def recordSpacing (shape : PModel Fields) : Option (String × Int) := do
  return (flagsSpacing (← flagsField "parashapeflags" shape.content), ← intField "linespacing" shape.content)

end Hwp.Spec
