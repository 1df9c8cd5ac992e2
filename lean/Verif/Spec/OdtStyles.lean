/-
Specification of the formatting of text in the conversion to ODT: how an office program finds the value of a property of a run of text
(OpenDocument 1.2 part 1, 16.2: styles are found by family and name; a property that is not set is that of the parent style; text has the properties of
its own style, and otherwise those of its paragraph).  The default styles, at the end of the search, are left out.
-/
import Verif.Model.OdtStyles
import Verif.Spec.Css
set_option autoImplicit false
namespace Hwp.Spec

/-- The style of this family and name: one of the file itself, or a common one. -/
def styleFor (styles : List OdtStyle) (family : String) (name : PyStr) : Option OdtStyle :=
  match styles with
  | [] => none
  | s :: rest => if s.family = lit family ∧ s.name = name then some s else styleFor rest family name

/-- The value of an attribute that is set one after the other: the last one. -/
def lastSet (props : List (PyStr × PyStr)) (prop : String) : Option PyStr :=
  match props with
  | [] => none
  | p :: rest => (lastSet rest prop).orElse fun _ => if p.1 = lit prop then some p.2 else none

/-- The value of a property of a style, up to so many styles above. -/
def styleValue (styles : List OdtStyle) (family prop : String) : Nat → PyStr → Option PyStr
  | 0, _ => none
  | depth + 1, name =>
    (styleFor styles family name).bind fun s =>
      (lastSet s.props prop).orElse fun _ => s.parent.bind (styleValue styles family prop depth)

/-- The value of a property of text, given the style names of its paragraph and its span. -/
def officeValue (automatic common : List OdtStyle) (prop : String) (para : PyStr) (span : Option PyStr) : Option PyStr :=
  let styles := automatic ++ common
  (span.bind (styleValue styles "text" prop (styles.length + 1))).orElse fun _ => styleValue styles "paragraph" prop (styles.length + 1) para

/-- The characters that cannot be in a name. -/
def notInNames : List Char := [' ', '!', '"', '#', '$', '%', '&', '\'', '(', ')', '*', '+', ',', '/', ':', ';', '<', '=', '>', '?', '@', '[', '\\', ']', '^',
  '`', '{', '|', '}', '~']

/-- The name of a style in the text document: the local name, with underscores for these characters. -/
def officeName (style : List (PyStr × PyStr) × Forest XNode) : PyStr :=
  ((attrOf style.1 "local-name").getD []).map fun c => if c ∈ notInNames.map Char.toNat then '_'.toNat else c

/-- The names of styles every text document has. -/
def takenNames : List String := ["Standard", "Heading", "Text_20_body", "List", "Caption", "Index", "Table_20_Contents"]

/-- The names of the styles tell them apart, from each other, from those that are always there and those of single paragraphs. -/
structure OfficeNames (T : Forest XNode) : Prop where
  distinct : ((entries "Style" T).map officeName).Nodup
  free : ∀ s ∈ entries "Style" T, officeName s ∉ takenNames.map lit ∧ ¬ lit "Paragraph-" <+: officeName s

/-- The paragraphs of the document have distinct numbers. -/
structure ParagraphsNumbered (doc : Forest XNode) : Prop where
  number : ∀ p ∈ elementsNamed "Paragraph" doc, ∃ n : Nat, attrOf p.1 "paragraph-id" = some (decimal n)
  distinct : ((elementsNamed "Paragraph" doc).map fun p => attrOf p.1 "paragraph-id").Nodup

/-- A run of text with the character shape `k`, in a paragraph with the style `s`. -/
structure SpanOf (para attrs : List (PyStr × PyStr)) (s k : Nat) : Prop where
  style : attrOf para "style-id" = some (decimal s)
  shape : attrOf attrs "charshape-id" = some (decimal k)

/-- The kinds of lines at text, and the properties for them. -/
def lineKinds : List (String × String) :=
  [("underline", "style:text-underline-type"), ("overline", "style:text-overline-type"), ("line_through", "style:text-line-through-type")]

/-- The styles of one line, and of two. -/
def singleLines : List String := ["solid", "dashed", "dotted", "dash_dot", "dash_dot_dot", "long_dashed", "large_dotted"]
def doubleLines : List String := ["double", "lower_weighted", "upper_weighted", "middle_weighted"]

/-- The character shape has this line, with one of these styles. -/
def HasLine (shape : List (PyStr × PyStr) × Forest XNode) (kind : String) (styles : List String) : Prop :=
  attrOf shape.1 "underline" = some (lit kind) ∧ ∃ style ∈ styles, attrOf shape.1 "underline-style" = some (lit style)

/-- The character shape does not have this line. -/
def NoLine (shape : List (PyStr × PyStr) × Forest XNode) (kind : String) : Prop :=
  ∃ other : PyStr, other ≠ lit kind ∧ attrOf shape.1 "underline" = some other

/-- The properties for bold and for italic text, of the three kinds of scripts. -/
def weightProps : List String := ["fo:font-weight", "style:font-weight-asian", "style:font-weight-complex"]
def slantProps : List String := ["fo:font-style", "style:font-style-asian", "style:font-style-complex"]

end Hwp.Spec
