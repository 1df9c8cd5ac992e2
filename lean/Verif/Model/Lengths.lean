/-
Model of the lengths in the conversions to HTML and ODT: the arithmetic of XPath with which lengths in HWP units become lengths
in millimetres (/repo/src/hwp5/xsl/hwp5css-common.xsl:977-981) and centimetres (/repo/src/hwp5/xsl/odt/common.xsl:334-349).

Numbers of XPath are double precision numbers.  They are modelled as the rational numbers they stand for; infinities, zeros with a sign
and numbers too small for a full mantissa are left out, as they do not come about here.  A number of hundredths is written with as many digits
as are needed to tell it apart from other numbers; up to 10^13 these are the decimal digits.
-/
import Verif.Model.Css
import Mathlib.Data.Int.Log
import Mathlib.Data.Rat.Floor
set_option autoImplicit false
namespace Hwp

/-- The integer closest to a number; of two the even one. -/
def nearestEven (x : ℚ) : ℤ :=
  if x - ⌊x⌋ < 1 / 2 then ⌊x⌋ else if 1 / 2 < x - ⌊x⌋ then ⌊x⌋ + 1 else if ⌊x⌋ % 2 = 0 then ⌊x⌋ else ⌊x⌋ + 1

/-- The double precision number closest to a number that is not negative: one with 53 bits. -/
def double (x : ℚ) : ℚ :=
  if x ≤ 0 then 0 else nearestEven (x / 2 ^ (Int.log 2 x - 52)) * 2 ^ (Int.log 2 x - 52)

/-- `floor($hwpunit div 100 * 0.352777778 * 100 + 0.5)` (hwp5css-common.xsl:979). -/
def htmlHundredths (n : Nat) : ℤ :=
  ⌊double (double (double (double ((n : ℚ) / 100) * double (352777778 / 1000000000)) * 100) + 1 / 2)⌋

/-- `round(number(@width) div 7200 * 2.54 * 100)` (odt/common.xsl:336). -/
def odtHundredths (n : Nat) : ℤ :=
  ⌊double (double (double ((n : ℚ) / 7200) * double (254 / 100)) * 100) + 1 / 2⌋

/-- A number of hundredths as a string. -/
def hundredthsStr (k : Nat) : PyStr :=
  natStr (k / 100) ++
    if k % 100 = 0 then [] else if k % 10 = 0 then lit "." ++ natStr (k % 100 / 10) else lit "." ++ natStr (k % 100 / 10) ++ natStr (k % 10)

/-- hwp5css-common.xsl:977-981: the template `hwpunit-to-mm`. -/
def mmOf (s : PyStr) : PyStr :=
  (match xpathNumber s with
    | some n => hundredthsStr (htmlHundredths n).toNat
    | none => lit "NaN") ++ lit "mm"

/-- odt/common.xsl:336, 337, 340, 341, 344-347. -/
def cmOf (s : PyStr) : PyStr :=
  (match xpathNumber s with
    | some n => hundredthsStr (odtHundredths n).toNat
    | none => lit "NaN") ++ lit "cm"

end Hwp
