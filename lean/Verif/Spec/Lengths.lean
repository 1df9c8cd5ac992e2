/-
Specification of lengths: how a length in a style is read, and what a length in HWP units is.
-/
import Verif.Spec.Css
import Mathlib.Algebra.Order.Field.Rat
import Mathlib.Algebra.Order.Group.Unbundled.Abs
set_option autoImplicit false
namespace Hwp.Spec

/-- The number some decimal digits stand for. -/
def wholeValue (s : PyStr) : Option Nat :=
  if s = [] then none
  else s.foldl (fun n c => n.bind fun n => if 0x30 ≤ c ∧ c ≤ 0x39 then some (10 * n + (c - 0x30)) else none) (some 0)

/-- The number a text stands for: digits, and maybe a point and digits. -/
def decimalValue (s : PyStr) : Option ℚ :=
  match partsAt 0x2E s with
  | [w] => (wholeValue w).map fun n : Nat => (n : ℚ)
  | [w, f] => (wholeValue w).bind fun n : Nat => (wholeValue f).map fun m : Nat => (n : ℚ) + (m : ℚ) / 10 ^ f.length
  | _ => none

/-- The number before a unit. -/
def lengthIn (unit : String) (s : PyStr) : Option ℚ :=
  if lit unit <:+ s then decimalValue (s.take (s.length - (lit unit).length)) else none

/-- An HWP unit is the 7200th part of an inch; an inch is 25.4 mm. -/
def hwpMm (n : Nat) : ℚ := n / 7200 * (254 / 10)

/-- The text is a length in millimetres: as close to so many HWP units as a number of hundredths can be. -/
def ClosestMm (n : Nat) (s : PyStr) : Prop := ∃ q, lengthIn "mm" s = some q ∧ |q - hwpMm n| ≤ 1 / 200

/-- The text is a length in centimetres: as close to so many HWP units as a number of hundredths can be. -/
def ClosestCm (n : Nat) (s : PyStr) : Prop := ∃ q, lengthIn "cm" s = some q ∧ |q - hwpMm n / 10| ≤ 1 / 200

end Hwp.Spec
