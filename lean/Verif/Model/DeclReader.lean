/-
Parsing the records of a stream into models with the declared classes: the functions a
`ModelReader` (Model/ModelParse.lean) consists of, for the contents of the declared classes
(Model/Decls.lean).

Simplification: `context` is reduced to `context['version']` and `context['parent']`, which
is all the declarations look at.
-/
import Verif.Model.Decls
namespace Hwp

/-- The type a class is read as, bintype.py:44-51: the members of the class; classes that are
not listed in `classMembers` have no `members`. -/
def classTy (c : String) : Ty PVal DCtx := .struct (((classMembers.lookup c).getD .nil).toMembers)

/-- `model['content']['chid']`, controls/_shared.py:58. -/
def contentChid (content : Fields) : Except PyErr Bytes :=
  match content.lookup "chid" with
  | none => .error .keyError
  | some (.leaf (.chid b)) => .ok b
  | some _ => .error .typeError

/-- `model['content'].update(content)`, binmodel/__init__.py:386. -/
def contentUpdate (content more : Fields) : Fields :=
  more.foldl (fun acc p => setField p.1 p.2 acc) content

/-- A reader that reads classes as `resolve_type_events` does (binmodel/__init__.py:362-368,
380-386) in a document of version `ver`.  The pipeline has a bound on the number of rounds, so
this says that it comes to the result for some bound. -/
structure ReadsDecls (ver : Version) (rd : ModelReader Fields) : Prop where
  read : ∀ parent c s, ∃ fuel,
    readType fuel (some ver) ⟨some ver, some parent⟩ (classTy c) s =
      some ((rd.read parent c s).map fun r => (.struct r.1, r.2))
  chid : rd.chid = contentChid
  update : rd.update = contentUpdate

end Hwp
