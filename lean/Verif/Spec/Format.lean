import Verif.Model.Format
import Verif.Spec.XmlFormat
import Verif.Spec.Utf8
/-!
Specification of formats: the parts of which a format is made and what is shown for them.
-/
set_option autoImplicit false
namespace Hwp.Spec

/-- A part of a format: text, a member as text in a column, a member as a number with zeros in front. -/
inductive FmtPart where
  | text (s : PyStr)
  | field (key : PyStr) (left : Bool) (width : Nat)
  | number (key : PyStr) (width : Nat)

/-- How a part is written: '%' is doubled in text; a member is `%(key)s`, `%(key)10s`, `%(key)-10s` or `%(key)04d`. -/
def partText : FmtPart → PyStr
  | .text s => s.flatMap fun c => if c = 0x25 then [0x25, 0x25] else [c]
  | .field key left width =>
    lit "%(" ++ key ++ lit ")" ++ (if left then lit "-" else []) ++ (if width = 0 then [] else decimal width) ++ lit "s"
  | .number key width => lit "%(" ++ key ++ lit ")0" ++ (if width = 0 then [] else decimal width) ++ lit "d"

/-- The text of a value. -/
def valueText : FmtVal → PyStr
  | .str s => s
  | .int n => decimal n
  | .other t => t

/-- What is shown for a part; nothing if there is no such member, or if it is no number. -/
def partShown (dict : PyStr → Option FmtVal) : FmtPart → Option PyStr
  | .text s => some s
  | .field key left width =>
    match dict key with
    | some v =>
      let fill := List.replicate (width - (valueText v).length) 0x20
      some (if left then valueText v ++ fill else fill ++ valueText v)
    | none => none
  | .number key width =>
    match dict key with
    | some (.int n) =>
      let zeros := List.replicate (width - (decimal n).length) 0x30
      some (if 0 ≤ n then zeros ++ decimal n else lit "-" ++ zeros ++ decimal n.natAbs)
    | _ => none

/-- The key of a part contains no parentheses. -/
def PlainKey : FmtPart → Prop
  | .text _ => True
  | .field key _ _ => 0x28 ∉ key ∧ 0x29 ∉ key
  | .number key _ => 0x28 ∉ key ∧ 0x29 ∉ key

/-- The whole format. -/
def formatText (parts : List FmtPart) : PyStr := parts.flatMap partText

/-- What is shown for a whole format. -/
def formatShown (dict : PyStr → Option FmtVal) : List FmtPart → Option PyStr
  | [] => some []
  | p :: ps =>
    match partShown dict p, formatShown dict ps with
    | some a, some b => some (a ++ b)
    | _, _ => none

end Hwp.Spec
