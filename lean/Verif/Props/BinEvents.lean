/- Property C109: what is reported about the reading of a record. -/
import Verif.Proofs.RecordEvents
import Verif.Props.DeclReader
set_option autoImplicit false
set_option linter.unusedSimpArgs false
set_option linter.unusedVariables false
set_option Elab.async false
namespace Hwp.Props
open Hwp Spec

/-! Events in a form that can be compared, for the examples. -/

/-- An integer value. -/
def evInt : ItemVal PVal → Option Int
  | .val (.int n) => some n
  | .val (.flags _ n) => some n
  | .count n => some n
  | _ => none

/-- Kind, name, offset and value of an event. -/
def evShown : BinEv PVal DCtx → String × Option String × Option Nat × Option Int
  | .start n _ => ("START", n, none, none)
  | .stop n _ => ("END", n, none, none)
  | .item n _ o v => ("", n, some o, evInt v)
  | .error n _ o => ("ERROR", n, some o, none)

/-- C109: every record has its events, and their outcome is that of parsing the record. -/
theorem C109_events (ver : Version) (rd : ModelReader Fields) (hrd : ReadsDecls ver rd)
    (parent : PFrame Fields) (r : Record) :
    ∃ fuel evs, ∀ more, modelBinEvents (fuel + more) ver rd parent r =
      some (evs, resolveModel rd parent r) := by
  obtain ⟨fuel, ⟨evs, res⟩, h⟩ := modelBinEvents_exists hrd parent r
  refine ⟨fuel, evs, fun more => ?_⟩
  rw [modelBinEvents_mono h more, (model_good hrd h).2]

/-- C109: if a record is parsed, the reported items lie one after another in its payload,
without gap or overlap, up to where the unparsed rest begins; each has the value that its type
has at its offset; structs and arrays are nested properly. -/
theorem C109_items_tile (fuel : Nat) (ver : Version) (rd : ModelReader Fields) (hrd : ReadsDecls ver rd)
    (parent : PFrame Fields) (r : Record) (evs : List (BinEv PVal DCtx)) (type : String)
    (content : Fields) (rest : Bytes)
    (h : modelBinEvents fuel ver rd parent r = some (evs, .ok (type, content, rest))) :
    ItemTiles r.payload 0 evs (r.payload.length - rest.length) ∧ Opens [] evs [] ∧
      ∃ parsed, r.payload = parsed ++ rest := by
  obtain ⟨h1, h2, h3, -⟩ := (model_good hrd h).1.1 content rest rfl
  exact ⟨h2, h3, h1⟩

/-- C109: every value in the content of a record is one of the reported ones, under its name. -/
theorem C109_content_reported (fuel : Nat) (ver : Version) (rd : ModelReader Fields) (hrd : ReadsDecls ver rd)
    (parent : PFrame Fields) (r : Record) (evs : List (BinEv PVal DCtx)) (type : String)
    (content : Fields) (rest : Bytes)
    (h : modelBinEvents fuel ver rd parent r = some (evs, .ok (type, content, rest)))
    (name : Option String) (v : PVal) (hv : HasLeaf (.struct content) name v) : Reports evs name v :=
  ((model_good hrd h).1.1 content rest rfl).2.2.2 name v hv

/-- C109: if parsing a record fails with `ParseError`, the last event is the item that could
not be read: nothing of its type is at its offset, and the items before it lie one after
another from the beginning of the payload up to that offset.  (Not for flags that cannot be
read, see `C109_flags_without_offset`.) -/
theorem C109_error_offset_partial (fuel : Nat) (ver : Version) (rd : ModelReader Fields) (hrd : ReadsDecls ver rd)
    (parent : PFrame Fields) (r : Record) (evs : List (BinEv PVal DCtx))
    (h : modelBinEvents fuel ver rd parent r = some (evs, .error .parseError)) :
    ∃ before name type offset, evs = before ++ [.error name type offset] ∧
      ItemTiles r.payload 0 before offset ∧ offset ≤ r.payload.length ∧
      Unreadable type (r.payload.drop offset) :=
  (model_good hrd h).1.2.2 rfl

/-- C109: with any other exception what is reported is what was read until then; no event says
where reading failed. -/
theorem C109_other_errors (fuel : Nat) (ver : Version) (rd : ModelReader Fields) (hrd : ReadsDecls ver rd)
    (parent : PFrame Fields) (r : Record) (evs : List (BinEv PVal DCtx)) (err : PyErr) (hne : err ≠ .parseError)
    (h : modelBinEvents fuel ver rd parent r = some (evs, .error err)) :
    ∃ last, ItemTiles r.payload 0 evs last :=
  (model_good hrd h).1.2.1 err rfl hne

/-- C109 fails for flags: a record of tag 30 (`CompatibleDocument`, four bytes of flags) with a
shorter payload is reported as the start of its struct only, and the exception is a `KeyError`
without an offset. -/
theorem C109_flags_without_offset (ver : Version) (rd : ModelReader Fields) (parent : PFrame Fields)
    (r : Record) (ht : r.tagid = 30) (hp : r.payload.length < 4) :
    (modelBinEvents 5 ver rd parent r).map (fun q => (q.1.map evShown, q.2.map fun _ => ())) =
      some ([("START", none, none, none)], .error .keyError) := by
  have hb : classTy (baseType 30) = .struct (.cons "flags" none none
      (.flags (PTy.read (.int .UINT32)) (toFlags Decl.CompatibleDocumentFlags)) .nil) := rfl
  obtain ⟨e, hread⟩ : ∃ e, PTy.read (.int .UINT32) r.payload = .error e := by
    match hpl : r.payload, hp with
    | [], _ => exact ⟨_, rfl⟩
    | [a], _ => exact ⟨_, rfl⟩
    | [a, b], _ => exact ⟨_, rfl⟩
    | [a, b, c], _ => exact ⟨_, rfl⟩
    | a :: b :: c :: d :: l, h => simp at h; omega
  have hf : filterTy ver (classTy (baseType 30)) = classTy (baseType 30) := by
    rw [hb]; simp [filterTy, filterMembers, versionOk]
  simp only [modelBinEvents, classEvents, readTypeEvents, ht, typeEvents_eq, hf]
  rw [hb]
  simp only [compileType, mapTy, mapMembers, ptrace, pstep, pyield, TEv.item, initValue, TKind.isArray,
    List.cons_append, List.nil_append, List.append_nil, Bool.false_eq_true, false_and, if_false,
    readLeaf, leafEvents, hread, Option.map_some]
  rfl

/- A polygon of two points and a byte more: the count of the array, then the coordinates. -/
example : (modelBinEvents 60 [5, 0, 1, 7] (directReader [5, 0, 1, 7]) ⟨none, false⟩
    ⟨82, 0, 19, [2, 0, 1, 0, 0, 0, 2, 0, 0, 0, 3, 0, 0, 0, 4, 0, 0, 0, 9], 0⟩).map
      (fun q => (q.1.map evShown, q.2.map fun p => p.2.2)) =
    some ([("START", none, none, none), ("", none, some 0, some 2), ("START", some "points", none, none),
      ("START", none, none, none), ("", some "x", some 2, some 1), ("", some "y", some 6, some 2),
      ("END", none, none, none),
      ("START", none, none, none), ("", some "x", some 10, some 3), ("", some "y", some 14, some 4),
      ("END", none, none, none),
      ("END", some "points", none, none), ("END", none, none, none)], .ok [9]) := by
  simp only [modelBinEvents, classEvents, readTypeEvents, typeEvents_eq]
  rfl

/- The same polygon with a payload that ends after eight bytes: the second coordinate of the
first point, at offset 6, cannot be read. -/
example : (modelBinEvents 60 [5, 0, 1, 7] (directReader [5, 0, 1, 7]) ⟨none, false⟩
    ⟨82, 0, 8, [2, 0, 1, 0, 0, 0, 2, 0], 0⟩).map
      (fun q => (q.1.map evShown, q.2.map fun p => p.2.2)) =
    some ([("START", none, none, none), ("", none, some 0, some 2), ("START", some "points", none, none),
      ("START", none, none, none), ("", some "x", some 2, some 1), ("ERROR", some "y", some 6, none)],
      .error .parseError) := by
  simp only [modelBinEvents, classEvents, readTypeEvents, typeEvents_eq]
  rfl

/- A control of eight bytes: the members of the further class follow the four bytes of
`Control`. -/
example : (extensionEvents 60 8 [5, 0, 1, 7] none [] [5, 0, 0, 0]
      (extensionMro "PageHide" "Control")).map (fun q => (q.1.map evShown, q.2.map fun p => p.2)) =
    some ([("START", none, none, none), ("", some "flags", some 4, some 5), ("END", none, none, none)],
      .ok []) := by
  have : extensionMro "PageHide" "Control" = ["PageHide"] := rfl
  rw [this]
  simp only [extensionEvents, classEvents, readTypeEvents, typeEvents_eq]
  rfl

end Hwp.Props
