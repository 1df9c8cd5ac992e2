/- C72: the fields of records are at the places of the table, and the records have its sizes. -/
import Verif.Proofs.Layout
import Verif.Props.DeclReader
set_option linter.unusedVariables false
namespace Hwp.Props
open Hwp Spec
set_option autoImplicit false

/-- C72: a field of a parsed record is what the bytes at its place in the payload say. -/
theorem C72_field_at (ver : Version) (rd : ModelReader Fields) (hrd : ReadsDecls ver rd) (rs : Gen Record)
    (m : PModel Fields) (hm : m ∈ (parseModels rd rs).out)
    (fields : List (Version × Slot)) (ht : (m.type, fields) ∈ layoutTable)
    (since : Version) (slot : Slot) (hs : (since, slot) ∈ fields) (hv : ver.lt since = false) :
    valueAt (.struct m.content) slot.path = some (datumAt m.record.payload slot) := by
  obtain rfl := (reader_unique ver rd).1 hrd
  obtain ⟨i, hi⟩ := List.mem_iff_getElem?.mp hm
  obtain ⟨rest, h1, -⟩ := C64_members (directReader ver) rs i m hi
  have htm := (model_parts hi).1
  obtain ⟨h2, h3⟩ := table_slots _ ht
  dsimp only at h2 h3
  rw [← h2] at hs
  obtain ⟨p, hp, he⟩ := List.mem_map.1 hs
  simp only [Prod.mk.injEq] at he
  obtain ⟨rfl, rfl⟩ := he
  refine (reads_slots h1 (classes_disjoint m.type htm)).1 p hp ?_
  intro v hv'
  simp only [versionOk, version_trans _ _ _ hv (h3 p hp v hv'), Bool.not_false]

/-- C72: a record of a type of fixed size has at least that many bytes, and what follows is
kept as `unparsed`. -/
theorem C72_size (ver : Version) (rd : ModelReader Fields) (hrd : ReadsDecls ver rd) (rs : Gen Record)
    (m : PModel Fields) (hm : m ∈ (parseModels rd rs).out)
    (size : Nat) (added : List (Version × Nat)) (ht : (m.type, size, added) ∈ sizeTable) :
    sizeFor ver size added ≤ m.record.payload.length ∧
    m.unparsed = if m.record.payload.length = sizeFor ver size added then none
      else some (m.record.payload.drop (sizeFor ver size added)) := by
  obtain rfl := (reader_unique ver rd).1 hrd
  obtain ⟨i, hi⟩ := List.mem_iff_getElem?.mp hm
  obtain ⟨rest, h1, h2⟩ := C64_members (directReader ver) rs i m hi
  obtain ⟨h3, rfl⟩ := reads_size h1 _ (sizesClasses_at ver _ _ _ (table_sizes _ ht))
  refine ⟨h3, ?_⟩
  rw [h2]
  by_cases hl : m.record.payload.length = sizeFor ver size added
  · rw [if_pos hl, if_pos (List.drop_eq_nil_of_le (by omega))]
  · rw [if_neg hl, if_neg (by rw [List.drop_eq_nil_iff]; omega)]

/-- C72: a payload of at least that size can be read as a record of the type, whatever its
bytes are. -/
theorem C72_enough (ver : Version) (rd : ModelReader Fields) (hrd : ReadsDecls ver rd) (parent : Option (String × Fields))
    (type : String) (size : Nat) (added : List (Version × Nat)) (ht : (type, size, added) ∈ sizeTable)
    (payload : Bytes) (hp : sizeFor ver size added ≤ payload.length) :
    ∃ content, Reads (rd.read parent) rd.update (memberClasses type) payload content
      (payload.drop (sizeFor ver size added)) := by
  obtain rfl := (reader_unique ver rd).1 hrd
  have hne : ∀ t ∈ sizeTable, memberClasses t.1 ≠ [] := by decide +kernel
  have h1 := hne _ ht
  refine reads_enough ver parent ((memberClasses type).length - 1) (memberClasses type) ?_ _ payload
    (sizesClasses_at ver _ _ _ (table_sizes _ ht)) hp
  cases h : memberClasses type with
  | nil => exact absurd h h1
  | cons a as => simp

/-- C72: the table has an entry for each type of record that is known, except those that begin
with a field of variable size and those without any field. -/
theorem C72_table_complete : ∀ t ∈ modelNames, t ∉ layoutTable.map (·.1) →
    (t, 0, []) ∈ sizeTable ∨ t ∈ ["Numbering", "Style", "ParaText", "ParaCharShape", "ParaLineSeg", "ParaRangeTag",
      "ShapeComponent", "ShapePolygon", "ShapeCurve", "SectionDefData", "HwpDoc"] := by
  decide +kernel

/-- C72: the fields of a record of fixed size fill it: each byte belongs to exactly one field. -/
theorem C72_filled : ∀ t ∈ sizeTable, ∀ fields ∈ layoutTable.lookup t.1,
    ((fields.filter fun f => match f.2.kind with | .bits _ _ _ => false | _ => true).flatMap fun f =>
      (List.range f.2.size).map (f.2.off + ·)) = List.range (sizeFor [9] t.2.1 t.2.2) := by
  decide +kernel

/-- A cell of a table. -/
def cellPayload : Bytes :=
  [2, 0, 0, 0, 0x41, 0, 0x20, 0] ++ [1, 0, 3, 0, 1, 0, 2, 0] ++ [0, 1, 0, 0] ++ [255, 255, 255, 255] ++ List.replicate 14 7 ++ [9]

/-- A paragraph with a table of one cell. -/
def cellRecords : Gen Record := .ofList [⟨0x42, 0, 22, List.replicate 22 0, 0⟩,
  ⟨0x47, 1, 60, asciiBytes " lbt" ++ List.replicate 56 0, 1⟩,
  ⟨0x4d, 2, 30, List.replicate 30 0, 2⟩, ⟨0x48, 2, 39, cellPayload, 3⟩]

/-- The fields of the cell, and the byte that is left. -/
example : ((parseModels (directReader [5, 0, 3, 0]) cellRecords).out[3]?.map fun m =>
      (m.type, [["col"], ["row"], ["colspan"], ["rowspan"], ["width"], ["height"], ["padding", "top"],
        ["listflags", "valign"], ["listflags", "textdirection"], ["x"]].map (valueAt (.struct m.content)), m.unparsed)) =
    some ("TableCell", [some (.num 1), some (.num 3), some (.num 1), some (.num 2), some (.num 256), some (.num (-1)),
      some (.num 0x0707), some (.name "BOTTOM"), some (.num 1), none], some [9]) := by decide +kernel

/-- The same from the payload alone. -/
example : ([8, 10, 12, 14].map fun off => datumAt cellPayload ⟨[], off, 2, .unsigned⟩) =
    [.num 1, .num 3, .num 1, .num 2] := by decide +kernel

end Hwp.Props
