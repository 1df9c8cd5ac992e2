/- Specification vocabulary for C63–C66. -/
import Verif.Spec.Grouping
import Verif.Model.ModelParse
namespace Hwp.Spec

/-- Levels of records. -/
def levelsOf (rs : List Record) : List Nat := rs.map (·.level)

/-- Levels as in a tree written top down: each is at most one deeper than the one before it,
and none is above the first. -/
def TreeLevels : List Nat → Prop
  | [] => True
  | b :: ls => (∀ l ∈ ls, b ≤ l) ∧ ∀ i l l', (b :: ls)[i]? = some l → (b :: ls)[i + 1]? = some l' → l' ≤ l + 1

/-- Before the `i`-th record there is a table body record (tag 77) directly inside the
`p`-th. -/
def BodyBefore (rs : List Record) (p i : Nat) : Prop :=
  ∃ k r, k < i ∧ rs[k]? = some r ∧ r.tagid = 77 ∧ enclosing (levelsOf rs) k = some p

/-- Type and content of the model of the record enclosing the `i`-th one, if any. -/
def parentOf {κ} (rs : List Record) (out : List (PModel κ)) (i : Nat) : Option (String × κ) :=
  match enclosing (levelsOf rs) i with
  | none => none
  | some p => (out[p]?).map fun m => (m.type, m.content)

/-- The type of a paragraph list inside a model of another type; `afterBody`: a table body
came before it in the same parent. -/
def listType (parent : String) (afterBody : Bool) : String :=
  if parent = "TableControl" then (if afterBody then "TableCell" else "TableCaption")
  else if parent = "GShapeObjectControl" then "GShapeObjectCaption"
  else if parent = "ShapeComponent" then "TextboxParagraphList"
  else if parent = "Header" then "HeaderParagraphList"
  else if parent = "Footer" then "FooterParagraphList"
  else "ListHeader"

/-- The classes whose members make up the content of a model, in reading order. -/
def memberClasses (type : String) : List String :=
  if type = "TableControl" ∨ type = "GShapeObjectControl" then ["Control", "CommonControl"]
  else if type = "Header" ∨ type = "Footer" then ["Control", "HeaderFooter"]
  else if type = "FootNote" ∨ type = "EndNote" then ["Control", "Note"]
  else if type = "NewNumbering" then ["Control", "NumberingControl"]
  else if type = "AutoNumbering" then ["Control", "NumberingControl", "AutoNumbering"]
  else if type ∈ ["SectionDef", "ColumnsDef", "PageHide", "PageOddEven", "PageNumberPosition",
      "IndexMarker", "BookmarkControl", "TCPSControl", "Dutmal", "HiddenComment"] then
    ["Control", type]
  else if type ∈ ["FieldUnknown", "FieldDate", "FieldDocDate", "FieldPath", "FieldBookmark",
      "FieldMailMerge", "FieldCrossRef", "FieldFormula", "FieldClickHere", "FieldSummary",
      "FieldUserInfo", "FieldHyperLink", "FieldRevisionSign", "FieldRevisionDelete",
      "FieldRevisionAttach", "FieldRevisionClipping", "FieldRevisionSawtooth",
      "FieldRevisionThinking", "FieldRevisionPraise", "FieldRevisionLine",
      "FieldRevisionSimpleChange", "FieldRevisionHyperlink", "FieldRevisionLineAttach",
      "FieldRevisionLineLink", "FieldRevisionLineTransfer", "FieldRevisionRightMove",
      "FieldRevisionLeftMove", "FieldRevisionTransfer", "FieldRevisionSimpleInsert",
      "FieldRevisionSplit", "FieldRevisionChange", "FieldMemo", "FieldPrivateInfoSecurity"] then
    ["Control", "Field"]
  else if type = "TableCaption" ∨ type = "GShapeObjectCaption" then ["ListHeader", "TableCaption"]
  else if type = "HeaderParagraphList" ∨ type = "FooterParagraphList" then
    ["ListHeader", "HeaderFooterParagraphList"]
  else if type = "TableCell" ∨ type = "TextboxParagraphList" then ["ListHeader", type]
  else if type = "FieldClickHereData" then ["ControlData"]
  else if type = "BookmarkControlData" ∨ type = "SectionDefData" then ["ControlData", type]
  else [type]

/-- `Reads read update cs s v r`: reading the classes `cs` one after the other from `s`
gives the contents joined to `v` and leaves `r`. -/
inductive Reads {κ : Type} (read : String → Bytes → Except PyErr (κ × Bytes)) (update : κ → κ → κ) :
    List String → Bytes → κ → Bytes → Prop
  | one {c s v r} : read c s = .ok (v, r) → Reads read update [c] s v r
  | snoc {cs c s v w r r'} : Reads read update cs s v r → read c r = .ok (w, r') →
      Reads read update (cs ++ [c]) s (update v w) r'

end Hwp.Spec
