/-
Specification of the alignment of paragraphs and of page breaks in the conversions to HTML and ODT.
-/
import Verif.Spec.InfoRecords
set_option autoImplicit false
namespace Hwp.Spec

/-- How a paragraph is shown whose shape says this of its alignment: text that is set to both sides, or distributed, is justified. -/
def shownAlign (align : PyStr) : PyStr := if align ∈ ["left", "right", "center"].map lit then align else lit "justify"

/-- The alignment by the flags of a paragraph shape: bits 2 to 4. -/
def flagsAlign (flags : Nat) : PyStr :=
  match flags / 4 % 8 with
  | 1 => lit "left"
  | 2 => lit "right"
  | 3 => lit "center"
  | _ => lit "justify"

/-- A paragraph with the style `s` and the paragraph shape `j`. -/
structure ShapedPara (para : List (PyStr × PyStr)) (s j : Nat) : Prop where
  style : attrOf para "style-id" = some (decimal s)
  shape : attrOf para "parashape-id" = some (decimal j)

/-- The value of a property of paragraphs of a style, up to so many styles above. -/
def paraStyleValue (styles : List OdtStyle) (prop : String) : Nat → PyStr → Option PyStr
  | 0, _ => none
  | depth + 1, name =>
    (styleFor styles "paragraph" name).bind fun s =>
      (lastSet s.paraProps prop).orElse fun _ => s.parent.bind (paraStyleValue styles prop depth)

/-- The value of a property of a paragraph, given the name of its style. -/
def paraValue (automatic common : List OdtStyle) (prop : String) (name : PyStr) : Option PyStr :=
  paraStyleValue (automatic ++ common) prop ((automatic ++ common).length + 1) name

/-- The alignment of a paragraph shape by its record, the number of the paragraph shape of a style, and whether the style is one of paragraphs (or of characters). -/
def shapeAlign (shape : PModel Fields) : PyStr := flagsAlign ((flagsField "parashapeflags" shape.content).getD 0)
def styleParaShape (style : PModel Fields) : Option Int := intField "parashape_id" style.content
def ofParagraphs (style : PModel Fields) : Bool := (flagsField "flags" style.content).any fun n => n % 4 = 0

end Hwp.Spec
