/- Specification of reading the declared classes. -/
import Verif.Model.DeclReader
import Verif.Spec.Decls
import Verif.Spec.ModelParse
namespace Hwp.Spec

/-- The declared members of a class. -/
def membersOf (c : String) : DMembers := (classMembers.lookup c).getD .nil

/-- Read the members of a class one after the other. -/
def directRead (ver : Version) (parent : Option (String × Fields)) (c : String) (s : Bytes) :
    Except PyErr (Fields × Bytes) :=
  readMembers .keyError (some ver) ⟨some ver, some parent⟩ (membersOf c).toMembers [] s

/-- The reader that does so. -/
def directReader (ver : Version) : ModelReader Fields where
  read := directRead ver
  chid := contentChid
  update := contentUpdate

/-- The models whose content counts what the paragraph record says; they are used up when the
text of a paragraph is put together. -/
def paragraphParts : List String := ["ParaCharShape", "ParaLineSeg", "ParaRangeTag"]

/-- The attributes given to elements after parsing (`give_elements_unique_id` and
`wrap_section`). -/
def idNames : List String := ["paragraph_id", "table_id", "gshape_id", "shape_id", "section_id"]

/-- Such attributes of a model of type `t`.  `DocumentProperties` has none (it has a member
`paragraph_id`). -/
structure IdsFor (t : String) (ids : Fields) : Prop where
  names : ∀ p ∈ ids, p.1 ∈ idNames
  nodup : (ids.map (·.1)).Nodup
  plain : ∀ p ∈ ids, (plainText p.2).isSome = true
  none : t = "DocumentProperties" → ids = []

end Hwp.Spec
