/-
Specification of the names of record streams.
-/
import Verif.Spec.Filestructure
import Verif.Spec.Storage
namespace Hwp.Spec

/-- Going from an item to an item inside, name by name. -/
inductive Leads : Obj → List PyStr → Obj → Prop
  | here (o : Obj) : Leads o [] o
  | step (o a b : Obj) (n : PyStr) (p : List PyStr) : o.getitem n = .ok a → Leads a p b → Leads o (n :: p) b

/-- The path that a name of a record stream stands for. -/
inductive NamesPath : PyStr → List PyStr → Prop
  /-- `docinfo` is the stream DocInfo. -/
  | docinfo : NamesPath (ustr "docinfo") [ustr "DocInfo"]
  /-- `bodytext/` and a number is the section with the number. -/
  | section_ (t : PyStr) (i : Int) : 0x2f ∉ t → pyInt t = some i →
      NamesPath (ustr "bodytext/" ++ t) [ustr "BodyText", ustr "Section" ++ decimal i]
  /-- Anything else is a path. -/
  | path (segs : List PyStr) : segs ≠ [] → (∀ s ∈ segs, 0x2f ∉ s) → segs ≠ [ustr "docinfo"] →
      (∀ t, segs = [ustr "bodytext", t] → pyInt t = none) → NamesPath (pathText segs) segs

end Hwp.Spec
