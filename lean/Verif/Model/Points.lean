/-
Model of lengths in points: the arithmetic of XPath with which the margins of paragraphs become lengths in points
(/repo/src/hwp5/xsl/hwp5css-common.xsl:983-987, /repo/src/hwp5/xsl/odt/common.xsl:436-447).

Numbers of XPath are double precision numbers.  A whole number of up to 33 bits divided by 200, or by 2 and then by 100, is the double precision
number closest to a number with three decimals; it is written with up to 15 digits, and so as that number.
-/
import Verif.Model.Pictures
set_option autoImplicit false
namespace Hwp

/-- The XPath function `number`, of whole numbers with a sign.  Spaces and fractions are left out. -/
def xpathInt (s : PyStr) : Option Int :=
  match s with
  | 0x2D :: t => (xpathNumber t).map fun n => -(n : Int)
  | _ => (xpathNumber s).map fun n => (n : Int)

/-- The decimals of a number of so many places after the point, without zeros at the end. -/
def decimalsStr : Nat → Nat → PyStr
  | 0, _ => []
  | d + 1, r => if r = 0 then [] else (0x30 + r / 10 ^ d) :: decimalsStr d (r % 10 ^ d)

/-- A number with so many places after the point as a string. -/
def placesStr (places : Nat) (k : Int) : PyStr :=
  (if k < 0 then lit "-" else []) ++ natStr (k.natAbs / 10 ^ places) ++
    if k.natAbs % 10 ^ places = 0 then [] else lit "." ++ decimalsStr places (k.natAbs % 10 ^ places)

/-- A number with so many places after the point, or `NaN`, as a string. -/
def numberStr (places : Nat) (k : Option Int) : PyStr :=
  match k with
  | some n => placesStr places n
  | none => lit "NaN"

/-- `n div 200` or `n div 2 div 100` as a length in points (odt/common.xsl:438-447, hwp5css-common.xsl:983-987). -/
def ptOf (n : Option Int) : PyStr := numberStr 3 (n.map (5 * ·)) ++ lit "pt"

/-- `size * relative div 100 div 100` as a length in points (hwp5css-common.xsl:330, 983-987, odt/common.xsl:561-583): up to 40 bits and four decimals,
so that again what is written is that number. -/
def sizeOf (size relative : Option Int) : PyStr := numberStr 4 (size.bind fun n => relative.map (n * ·)) ++ lit "pt"

end Hwp
