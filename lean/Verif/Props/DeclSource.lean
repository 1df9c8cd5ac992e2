/-
C80: the declarations the documents are read by are those written in the Python source.
-/
import Verif.Spec.PyDecl
import Verif.Spec.ModelParse
set_option autoImplicit false
namespace Hwp.Props
open Hwp Spec

set_option maxRecDepth 4000 in
/-- C80: the members of each class (names, order, types down to each bit group and each named
value, versions, conditions) are those its `attributes` in the source declare. -/
theorem C80_members : ∀ p ∈ classMembers, declared p.1 = some p.2 := by
  simp only [classMembers, List.forall_mem_cons, List.not_mem_nil, false_imp_iff, implies_true,
    and_true]
  refine ⟨?_, ?_, ?_, ?_, ?_, ?_, ?_, ?_, ?_, ?_, ?_, ?_, ?_, ?_, ?_, ?_, ?_, ?_, ?_, ?_, ?_, ?_,
    ?_, ?_, ?_, ?_, ?_, ?_, ?_, ?_, ?_, ?_, ?_, ?_, ?_, ?_, ?_, ?_, ?_, ?_, ?_, ?_, ?_, ?_, ?_, ?_,
    ?_, ?_, ?_, ?_, ?_, ?_, ?_, ?_, ?_, ?_, ?_, ?_⟩ <;> rfl

/-- C80: no class of records in the source with `attributes` of its own is left out. -/
theorem C80_no_class_missing : ∀ c ∈ pyClasses, "RecordModel" ∈ baseChain 5 c.name →
    c.members.isSome → (classMembers.lookup c.name).isSome := by
  decide +kernel

/-- C80: the tags are those the classes in the source have. -/
theorem C80_tags : taggedClasses.Perm tagModels ∧ (tagModels.map (·.1)).Nodup := by
  decide +kernel

/-- C80: a record is of the class with its tag. -/
theorem C80_tag_class (t : Nat) (c : String) :
    tagModels.lookup t = some c ↔ (t, c) ∈ taggedClasses := by
  rw [C80_tags.1.mem_iff]
  constructor
  · intro h
    obtain ⟨l₁, l₂, h, -⟩ := List.lookup_eq_some_iff.1 h
    rw [h]; simp
  · intro h
    have : ∀ p ∈ tagModels, tagModels.lookup p.1 = some p.2 := by decide +kernel
    exact this _ h

/-- C80: the control ids are those the classes in the source have. -/
theorem C80_controls : (controlClasses.map fun p => (asciiBytes p.1, p.2)).Perm controlModels ∧
    (controlModels.map (·.1)).Nodup := by
  decide +kernel

/-- C80: the kinds of paragraph lists and of control data are those of the source. -/
theorem C80_extensions : listHeaderClasses.Perm listHeaderModels ∧
    (listHeaderModels.map (·.1)).Nodup ∧
    controlDataClasses.Perm controlDataModels ∧ (controlDataModels.map (·.1)).Nodup := by
  decide +kernel

/-- C80: what is read for a model are the members of the class and of its base classes in the
source, those of the base classes first. -/
theorem C80_base_classes : ∀ m ∈ modelNames,
    ((memberClasses m).filter fun c => (classMembers.lookup c).isSome) = chainWithMembers m ∧
    classChain m = (chainWithMembers m).filterMap (classMembers.lookup ·) := by
  have h : ∀ m ∈ modelNames,
      ((memberClasses m).filter fun c => (classMembers.lookup c).isSome) = chainWithMembers m ∧
      ((mro 4 m).reverse.filter fun c => (classMembers.lookup c).isSome) = chainWithMembers m := by
    decide +kernel
  intro m hm
  refine ⟨(h m hm).1, ?_⟩
  rw [← (h m hm).2, classChain]
  generalize (mro 4 m).reverse = l
  induction l with
  | nil => rfl
  | cons a l ih =>
    cases ha : classMembers.lookup a with
    | none => simp [ha, ih]
    | some v => simp [ha, ih]

/-! ### Concrete cases -/

/-- There are 58 such classes, among them the one of tables and the one of paragraphs. -/
example : classMembers.length = 58 ∧ (classMembers.lookup "Paragraph").isSome = true ∧
    (classMembers.lookup "TableBody").isSome = true := by decide +kernel

/-- `tagid19_face_name.py`: the members of `FaceName`. -/
example : (match pyClass "FaceName" with
    | some c => c.members.map (·.map (·.name))
    | none => none) = some ["flags", "name", "alternate_font", "panose1", "default_font"] := by
  decide +kernel

example : (66, "Paragraph") ∈ taggedClasses ∧ ("tbl ", "TableControl") ∈ controlClasses ∧
    chainWithMembers "TableControl" = ["Control", "CommonControl"] := by decide +kernel

/-- A class that declares something else would not do: `Style` does not have the members of
`FaceName`. -/
example : declared "Style" ≠ declared "FaceName" := by
  intro h
  have h1 : declared "Style" = some Decl.Style := by rfl
  have h2 : declared "FaceName" = some Decl.FaceName := by rfl
  rw [h1, h2] at h
  have : Decl.Style = Decl.FaceName := by injection h
  unfold Decl.Style Decl.FaceName at this
  injection this with hn _ _ _ _
  exact absurd hn (by decide)

end Hwp.Props
