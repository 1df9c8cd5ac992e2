/-
Specification of the pictures of the conversions to HTML and ODT.
-/
import Verif.Model.Pictures
import Verif.Spec.Pages
import Verif.Spec.Document
set_option autoImplicit false
namespace Hwp.Spec

/-! ### Pictures in view -/

/-- All pictures: what is in the elements `ShapePicture`, in the order of the document. -/
def allPictures : Forest XNode → List (Forest XNode)
  | .nil => []
  | .node (.text _) _ sibs => allPictures sibs
  | .node (.elem n _) cs sibs => (if n = lit "ShapePicture" then [cs] else []) ++ allPictures cs ++ allPictures sibs

/-- The pictures out of view: pictures are `seen` in some places. -/
def hiddenPictures {P : Type} (s : Places P) (seen : P → Bool) : Forest XNode → P → List (Forest XNode)
  | .nil, _ => []
  | .node (.text _) _ sibs, p => hiddenPictures s seen sibs p
  | .node (.elem n as) cs sibs, p =>
    (if n = lit "ShapePicture" ∧ ¬ seen p then [cs] else []) ++
    (match s.view p n as with
      | .hidden => allPictures cs
      | .words => allPictures cs
      | .place q => hiddenPictures s seen cs q) ++ hiddenPictures s seen sibs p

/-- The pictures of the sections out of view. -/
def hiddenInSections {P : Type} (s : Places P) (seen : P → Bool) (p : P) : Forest XNode → List (Forest XNode)
  | .nil => []
  | .node (.text _) _ sibs => hiddenInSections s seen p sibs
  | .node (.elem n _) cs sibs =>
    (if n = lit "SectionDef" then hiddenPictures s seen cs p else []) ++ hiddenInSections s seen p sibs

/-- The pictures in all elements of this name. -/
def picturesIn (name : String) : Forest XNode → List (Forest XNode)
  | .nil => []
  | .node (.text _) _ sibs => picturesIn name sibs
  | .node (.elem n _) cs sibs => (if n = lit name then allPictures cs else []) ++ picturesIn name cs ++ picturesIn name sibs

/-- What a picture refers to: the number in the first `PictureInfo` with a number among its children. -/
def refText : Forest XNode → PyStr
  | .nil => []
  | .node (.text _) _ sibs => refText sibs
  | .node (.elem n as) _ sibs =>
    if n = lit "PictureInfo" then
      match as.find? fun a => a.1 = lit "bindata-id" with
      | some a => a.2
      | none => refText sibs
    else refText sibs

/-! ### Records -/

/-- A field of a record. -/
def fieldOf (name : String) (fs : Fields) : Option (Value PVal) := (fs.find? fun p => p.1 = name).map (·.2)

/-- The number of the data a picture refers to. -/
def pictureRef (content : Fields) : Option Int :=
  match fieldOf "picture" content with
  | some (.struct fs) =>
    match fieldOf "bindata_id" fs with
    | some (.leaf (.int n)) => some n
    | _ => none
  | _ => none

/-- The numbers of the data all picture records refer to. -/
def pictureRefs : Forest (Nat × PModel Fields) → List (Option Int)
  | .nil => []
  | .node a cs sibs => (if a.2.type = "ShapePicture" then [pictureRef a.2.content] else []) ++ pictureRefs cs ++ pictureRefs sibs

/-- The name of the stream with the data of a `BinData` record, if they are embedded in the file (storage kind 1). -/
def dataName (m : PModel Fields) : Option PyStr :=
  match m.content with
  | [("flags", .leaf (.flags _ n)), ("bindata", .struct [("storage_id", .leaf (.int id)), ("ext", .leaf (.str ext))])] =>
    if n % 16 = 1 then some (binaryName id (noNul ext)) else none
  | _ => none

/-- The records right below `IdMappings` records that are `BinData` records: one list for each. -/
def dataLists : Forest (Nat × PModel Fields) → List (List (PModel Fields))
  | .nil => []
  | .node a cs sibs =>
    (if a.2.type = "IdMappings" then [(cs.roots.map (·.2)).filter fun m => m.type = "BinData"] else []) ++ dataLists sibs

/-- The stream of the data with the number `k`, counted from 1. -/
def dataStream (f : Forest (Nat × PModel Fields)) (k : Int) : Option PyStr :=
  if 1 ≤ k then ((dataLists f).filterMap fun ms => (ms[(k - 1).toNat]?).bind dataName).getLast? else none

/-- `BinData` records have no records below them. -/
def DataLeaves : Forest (Nat × PModel Fields) → Prop
  | .nil => True
  | .node a cs sibs => (a.2.type = "BinData" → cs = .nil) ∧ DataLeaves cs ∧ DataLeaves sibs

end Hwp.Spec
