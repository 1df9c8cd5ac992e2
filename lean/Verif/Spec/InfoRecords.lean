/-
Specification of the tables of a document in terms of the records of `DocInfo`: which records they are, and what their fields say about the
formatting of text.
-/
import Verif.Spec.Pictures
import Verif.Spec.OdtStyles
import Verif.Spec.Document
set_option autoImplicit false
namespace Hwp.Spec

/-- All records of this type, in their order. -/
def recordsOf (type : String) : Forest (Nat × PModel Fields) → List (PModel Fields)
  | .nil => []
  | .node a cs sibs => (if a.2.type = type then [a.2] else []) ++ recordsOf type cs ++ recordsOf type sibs

/-- The records of this type that are not below others, with the records below them. -/
def recordsAt (type : String) : Forest (Nat × PModel Fields) → List (PModel Fields × Forest (Nat × PModel Fields))
  | .nil => []
  | .node a cs sibs => (if a.2.type = type then [(a.2, cs)] else []) ++ recordsAt type sibs

/-- The types of the records in the tables. -/
def tableTypes : List String := ["Style", "ParaShape", "CharShape", "FaceName"]

/-- `DocInfo` has one record `IdMappings`, at the top, and the records of styles, shapes and faces are directly below it. -/
structure InfoTable (docinfo : Forest (Nat × PModel Fields)) (table : PModel Fields) (rows : Forest (Nat × PModel Fields)) : Prop where
  top : recordsAt "IdMappings" docinfo = [(table, rows)]
  one : recordsOf "IdMappings" docinfo = [table]
  only : ∀ type ∈ tableTypes, recordsOf type docinfo = (recordsAt type rows).map (·.1)

/-- A number, a text and flags among fields. -/
def intField (name : String) (fs : Fields) : Option Int :=
  match fieldOf name fs with
  | some (.leaf (.int n)) => some n
  | _ => none
def strField (name : String) (fs : Fields) : Option PyStr :=
  match fieldOf name fs with
  | some (.leaf (.str s)) => some s
  | _ => none
def flagsField (name : String) (fs : Fields) : Option Nat :=
  match fieldOf name fs with
  | some (.leaf (.flags _ n)) => some n
  | _ => none

/-- A color: its red, green and blue are the first three bytes. -/
def colorText (n : Int) : PyStr :=
  let u := (n % 2 ^ 32).toNat
  lit "#" ++ byteHex u ++ byteHex (u / 256) ++ byteHex (u / 65536)

/-- Flags of a character shape: italic is the first bit, bold the second. -/
def shapeItalic (shape : PModel Fields) : Bool := (flagsField "charshapeflags" shape.content).any fun n => n % 2 = 1
def shapeBold (shape : PModel Fields) : Bool := (flagsField "charshapeflags" shape.content).any fun n => n / 2 % 2 = 1

/-- The number of the face of a character shape for a language. -/
def shapeFace (shape : PModel Fields) (lang : String) : Option Int :=
  match fieldOf "font_face" shape.content with
  | some (.struct fs) => intField lang fs
  | _ => none

/-- The faces of a language: the faces of the languages come one after the other, as many as the table says. -/
def facesFor (table : PModel Fields) (lang : String) : List String → List (PModel Fields) → List (PModel Fields)
  | [], _ => []
  | l :: ls, faces =>
    let count := ((intField (l ++ "_fonts") table.content).getD 0).toNat
    if l = lang then faces.take count else facesFor table lang ls (faces.drop count)

/-- The class of a style: its name without null characters, with dashes for spaces. -/
def styleRecordClass (style : PModel Fields) : PyStr :=
  (((strField "name" style.content).getD []).filter (· ≠ 0)).map fun c => if c = 0x20 then 0x2D else c

/-- The styles have names that can be written in a style sheet and tell them apart. -/
structure ProperStyles (styles : List (PModel Fields)) : Prop where
  ident : ∀ s ∈ styles, isIdent (styleRecordClass s) = true
  distinct : (styles.map styleRecordClass).Nodup
  shapes : ∀ s ∈ styles, ¬ lit "parashape-" <+: styleRecordClass s ∧ ¬ lit "Bullet-" <+: styleRecordClass s

/-- A document whose `DocInfo` has these records in its tables.  The sections have no such records, and the data of pictures are not embedded. -/
structure InfoDocument (rd : ModelReader Fields) (d : DocSource) (table : PModel Fields) (rows : Forest (Nat × PModel Fields)) : Prop where
  tree : ∃ docinfo, StreamTree rd d.docinfo docinfo ∧ InfoTable docinfo table rows
  sections : ∀ s ∈ d.sections, ∀ m ∈ (streamModels rd s.2).out, m.type ∉ "IdMappings" :: tableTypes
  separate : d.bindata = none

/-- The records of a type in the tables. -/
def tableRecords (rows : Forest (Nat × PModel Fields)) (type : String) : List (PModel Fields) := (recordsAt type rows).map (·.1)

/-- The number of the character shape of a style. -/
def styleShape (style : PModel Fields) : Option Int := intField "charshape_id" style.content

/-- The name of a style in a text document. -/
def officeRecordName (style : PModel Fields) : PyStr :=
  (((strField "local_name" style.content).getD []).filter (· ≠ 0)).map fun c => if c ∈ notInNames.map Char.toNat then '_'.toNat else c

/-- These names tell the styles apart, from each other, from those that are always there and those of single paragraphs. -/
structure OfficeStyles (styles : List (PModel Fields)) : Prop where
  distinct : (styles.map officeRecordName).Nodup
  free : ∀ s ∈ styles, officeRecordName s ∉ takenNames.map lit ∧ ¬ lit "Paragraph-" <+: officeRecordName s

/-- The line of a character shape (none, under, through or over the text) and its style. -/
def shapeLine (shape : PModel Fields) : Option Nat := (flagsField "charshapeflags" shape.content).map fun n => n / 4 % 4
def shapeLineStyle (shape : PModel Fields) : Option Nat := (flagsField "charshapeflags" shape.content).map fun n => n / 16 % 16

/-- The lines, and the properties for them. -/
def lineProps : List (Nat × String) := [(1, "style:text-underline-type"), (2, "style:text-line-through-type"), (3, "style:text-overline-type")]

end Hwp.Spec
