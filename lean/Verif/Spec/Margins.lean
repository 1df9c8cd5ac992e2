/-
Specification of the margins and indents of paragraphs.
-/
import Verif.Spec.Align
import Verif.Spec.Lengths
set_option autoImplicit false
namespace Hwp.Spec

/-- A length that may be negative: a minus sign, and a length. -/
def signedLength (unit : String) (s : PyStr) : Option ℚ :=
  match s with
  | 0x2D :: t => (lengthIn unit t).map fun q => -q
  | _ => lengthIn unit s

/-- What a paragraph shape says of the margins around a paragraph and of the indent of its first line, all in 200ths of a point.  With a negative
indent all lines but the first are indented. -/
structure Margins where
  left : Int
  right : Int
  top : Int
  bottom : Int
  indent : Int
deriving DecidableEq

/-- Where lines begin: the first, and the others; and the room to the right, above, and below. -/
structure Room where
  first : ℚ
  others : ℚ
  right : ℚ
  above : ℚ
  below : ℚ
deriving DecidableEq

/-- The room around a paragraph, in points. -/
def Margins.room (m : Margins) : Room :=
  ⟨((m.left + max m.indent 0 : Int) : ℚ) / 200, ((m.left + max (-m.indent) 0 : Int) : ℚ) / 200, m.right / 200, m.top / 200, m.bottom / 200⟩

/-- The margins that the attributes of a paragraph shape are about. -/
structure ShapeMargins (shape : List (PyStr × PyStr)) (m : Margins) : Prop where
  left : attrOf shape "doubled-margin-left" = some (decimal m.left)
  right : attrOf shape "doubled-margin-right" = some (decimal m.right)
  top : attrOf shape "doubled-margin-top" = some (decimal m.top)
  bottom : attrOf shape "doubled-margin-bottom" = some (decimal m.bottom)
  indent : attrOf shape "indent" = some (decimal m.indent)

/-- The value of a property of an element itself, not of those around it. -/
def ownValue (rules : List (PyStr × List (PyStr × PyStr))) (prop : PyStr) (path : List (PyStr × PyStr)) : Option PyStr :=
  (winning (cssDeclared rules prop path)).map (·.2)

/-- One of the four lengths of the margins: above, to the right, below, to the left. -/
def marginSide (side : Nat) (v : PyStr) : Option ℚ :=
  match partsAt 0x20 v with
  | [a, b, c, d] => ([a, b, c, d][side]?).bind (signedLength "pt")
  | _ => none

/-- A padding, which is nothing if not declared. -/
def paddingOf : Option PyStr → Option ℚ
  | none => some 0
  | some v => signedLength "pt" v

/-- The room around a paragraph in a browser: margin and padding to the left, and the indent of the first line. -/
def browserRoom (rules : List (PyStr × List (PyStr × PyStr))) (path : List (PyStr × PyStr)) : Option Room := do
  let margin ← ownValue rules (lit "margin") path
  let indent ← (ownValue rules (lit "text-indent") path).bind (signedLength "pt")
  let padding ← paddingOf (ownValue rules (lit "padding-left") path)
  let left ← marginSide 3 margin
  return ⟨left + padding + indent, left + padding, ← marginSide 1 margin, ← marginSide 0 margin, ← marginSide 2 margin⟩

/-- The room around a paragraph with a style in an office program: the margins, and the indent of the first line. -/
def officeRoom (automatic common : List OdtStyle) (name : PyStr) : Option Room := do
  let side (prop : String) := (paraValue automatic common prop name).bind (signedLength "pt")
  let left ← side "fo:margin-left"
  let indent ← side "fo:text-indent"
  return ⟨left + indent, left, ← side "fo:margin-right", ← side "fo:margin-top", ← side "fo:margin-bottom"⟩

/-- The margins by the record of a paragraph shape. -/
def recordMargins (shape : PModel Fields) : Option Margins := do
  return ⟨← intField "doubled_margin_left" shape.content, ← intField "doubled_margin_right" shape.content, ← intField "doubled_margin_top" shape.content,
    ← intField "doubled_margin_bottom" shape.content, ← intField "indent" shape.content⟩

end Hwp.Spec
