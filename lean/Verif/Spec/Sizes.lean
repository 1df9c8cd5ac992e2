/-
Specification of the size of letters.
-/
import Verif.Spec.Margins
set_option autoImplicit false
namespace Hwp.Spec

/-- What a character shape says of the size of letters of a language: the size, in hundredths of points, and how many percent of it. -/
structure ShapeSize (shape : List (PyStr × PyStr) × Forest XNode) (lang : String) (size percent : Int) : Prop where
  size : attrOf shape.1 "basesize" = some (decimal size)
  percent : ∃ as kids, entries "RelativeSize" shape.2 = [(as, kids)] ∧ attrOf as lang = some (decimal percent)

/-- The size declared for the letters of a run of text in a browser, in points. -/
def browserSize (rules : List (PyStr × List (PyStr × PyStr))) (path : List (PyStr × PyStr)) : Option ℚ :=
  (styledValue rules (lit "font-size") path).bind (signedLength "pt")

/-- The size set for the letters of a run of text in an office program, by this property, in points. -/
def officeSize (automatic common : List OdtStyle) (prop : String) (para : PyStr) (span : Option PyStr) : Option ℚ :=
  (officeValue automatic common prop para span).bind (signedLength "pt")

/-- The properties for the size of letters, of the three kinds of scripts, and the languages whose sizes are taken for them. -/
def sizeScripts : List (String × String) := [("en", "fo:font-size"), ("ko", "style:font-size-asian"), ("other", "style:font-size-complex")]

/-- The size of letters by the record of a character shape, in hundredths of points. -/
def shapeSize (shape : PModel Fields) : Option Int := intField "basesize" shape.content

/-- How many percent of it the letters of a language have: a byte for each language, 28 bytes after the beginning. -/
def shapePercent (shape : PModel Fields) (lang : String) : Option Nat := (shape.record.payload[28 + languages.idxOf lang]?).map UInt8.toNat

end Hwp.Spec
