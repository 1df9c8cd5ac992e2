/- Property C109: the names of the items that are reported about the reading of a record. -/
import Verif.Proofs.EventNames
import Verif.Props.BinEvents
set_option autoImplicit false
set_option linter.unusedSimpArgs false
set_option linter.unusedVariables false
set_option Elab.async false
namespace Hwp.Props
open Hwp Spec

/-- C109: every event names an item of a class that the record is read as, and has the type
declared for it; a member that is newer than the document is never named.  Only the number of
items of a counted array, and the items of an array, have no name. -/
theorem C109_names (fuel : Nat) (ver : Version) (rd : ModelReader Fields) (parent : PFrame Fields)
    (r : Record) (evs : List (BinEv PVal DCtx)) (res : Except PyErr (String × Fields × Bytes))
    (h : modelBinEvents fuel ver rd parent r = some (evs, res)) (ev : BinEv PVal DCtx) (hev : ev ∈ evs) :
    ∃ c, ReadAs rd parent r c ∧ EventNamed (Declares ver none (classTy c)) ev :=
  modelBinEvents_named h ev hev

/-- C109: if parsing a record fails with `ParseError`, the last event names the item that could
not be read: an item of that name and type is declared, and nothing of the type is at the
offset, where the items before end.  (Not for flags, see `C109_flags_without_offset`.) -/
theorem C109_error_item_partial (fuel : Nat) (ver : Version) (rd : ModelReader Fields)
    (hrd : ReadsDecls ver rd) (parent : PFrame Fields) (r : Record) (evs : List (BinEv PVal DCtx))
    (h : modelBinEvents fuel ver rd parent r = some (evs, .error .parseError)) :
    ∃ before name type offset c, evs = before ++ [.error name type offset] ∧
      ItemTiles r.payload 0 before offset ∧ Unreadable type (r.payload.drop offset) ∧
      ReadAs rd parent r c ∧
      ((∃ read, type = .leaf read ∧ Declares ver none (classTy c) name type) ∨
        (∃ count, type = .var count ∧ name = none ∧ ∃ array, Declares ver none (classTy c) array type)) := by
  obtain ⟨before, name, type, offset, h1, h2, -, h4⟩ := C109_error_offset_partial fuel ver rd hrd parent r evs h
  obtain ⟨c, hc, hn⟩ := C109_names fuel ver rd parent r evs _ h (.error name type offset) (by rw [h1]; simp)
  refine ⟨before, name, type, offset, c, h1, h2, h4, hc, ?_⟩
  cases type with
  | leaf read => exact Or.inl ⟨read, rfl, hn⟩
  | var count => exact Or.inr ⟨count, rfl, hn⟩
  | _ => exact absurd h4 (by simp [Unreadable])

/-- C109: for a polygon (tag 82) the claim says: an item that is read or could not be read is a
coordinate `x` or `y`, or, without name, the number of points. -/
theorem C109_names_example (ver : Version) (name : Option String)
    (read : Bytes → Except PyErr (PVal × Bytes))
    (h : Declares ver none (classTy "ShapePolygon") name (.leaf read)) :
    name = some "x" ∨ name = some "y" := by
  have hc : classTy "ShapePolygon" = .struct (.cons "points" none none
      (DTy.nArray .UINT16 Decl.Coord).toTy .nil) := rfl
  rw [hc] at h
  simp [Declares, MembersDeclare, DTy.toTy, Decl.Coord, DMembers.toMembers, Decl.m] at h
  rcases h with h | h
  · exact Or.inl h.1
  · exact Or.inr h.1

/- The polygon of `Props/BinEvents` that ends too early: the last event names `y`. -/
example (ver : Version) : Declares ver none (classTy "ShapePolygon") (some "y")
    (.leaf (PTy.read (.int .INT32))) := by
  have hc : classTy "ShapePolygon" = .struct (.cons "points" none none
      (DTy.nArray .UINT16 Decl.Coord).toTy .nil) := rfl
  rw [hc]
  simp [Declares, MembersDeclare, DTy.toTy, Decl.Coord, DMembers.toMembers, Decl.m]
  exact Or.inr ⟨rfl, rfl⟩

/- A control of eight bytes is read as `Control` and as the class that its `chid` says. -/
example : extensionMro "PageHide" "Control" = ["PageHide"] := rfl

end Hwp.Props
