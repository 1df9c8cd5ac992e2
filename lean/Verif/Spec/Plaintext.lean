/-
Specification of the text of a document.
-/
import Verif.Spec.Pipeline
import Verif.Model.Xml
set_option autoImplicit false
namespace Hwp.Spec

/-! ### Of the tree that is shown -/

/-- The text of a tree: the texts in their order, a line end behind every paragraph, and a mark in place of every
table and drawing. -/
def shownText : Forest Item → PyStr
  | .nil => []
  | .node a cs sibs =>
    (match a with
      | .text s _ _ => s
      | .controlChar _ _ _ => []
      | .tableControl _ => lit "\n<표>\n"
      | .gshapeControl _ => lit "\n<그림>\n"
      | .paragraph _ _ => shownText cs ++ [10]
      | _ => shownText cs) ++ shownText sibs

/-! ### Of the records -/

/-- What is there in place of an element and all in it: a mark for tables and drawings, and what `defs` says
for the section definition of this number. -/
def standIn (defs : Nat → Option PyStr) : Item → Option PyStr
  | .tableControl _ => some (lit "\n<표>\n")
  | .gshapeControl _ => some (lit "\n<그림>\n")
  | .sectionDef _ t => defs t
  | _ => none

/-- The text of a paragraph with the given texts of its controls, in the place of the extended control characters.
Other control characters have no text. -/
def placed : List PyStr → List Chunk → PyStr
  | _, [] => []
  | q, ⟨_, _, .text s⟩ :: cs => s ++ placed q cs
  | q, ⟨_, _, .ctrl d⟩ :: cs =>
    if kindOf d.code = some .extended then (q.head?).getD [] ++ placed q.tail cs else placed q cs

/-- The text of an element with these children and their texts. -/
def nodeText (defs : Nat → Option PyStr) (a : Item) (kids : List (Item × PyStr)) : PyStr :=
  match standIn defs a with
  | some s => s
  | none =>
    if a.isParagraph then
      ((kids.filter fun k => !k.1.isControl).map (·.2)).flatten ++
        placed ((kids.filter fun k => k.1.isControl).map (·.2)) (paraChunks (kids.map (·.1))) ++ [10]
    else (kids.map (·.2)).flatten

/-- The trees of a forest with their texts. -/
def rootTexts (defs : Nat → Option PyStr) : Forest Item → List (Item × PyStr)
  | .nil => []
  | .node a cs sibs => (a, nodeText defs a (rootTexts defs cs)) :: rootTexts defs sibs

/-- The text of the records of a section. -/
def recordText (defs : Nat → Option PyStr) (f : Forest Item) : PyStr := ((rootTexts defs f).map (·.2)).flatten

/-- The text of all, and the text with `s` in place of the section definition with this number. -/
def allDefs : Nat → Option PyStr := fun _ => none
def insteadOf (t : Nat) (s : PyStr) : Nat → Option PyStr := fun i => if i = t then some s else none

/-- `T` is the text of the section with these records: the text `X` of a section definition comes first, then the
text of all else. -/
def SectionText (f : Forest Item) (T : PyStr) : Prop :=
  ∃ i t X, .sectionDef i t ∈ allItems f ∧ recordText (insteadOf t X) f = recordText allDefs f ∧
    T = X ++ recordText (insteadOf t []) f

/-- The text of a paragraph without its control characters. -/
def plainChunks : List Chunk → PyStr
  | [] => []
  | ⟨_, _, .text s⟩ :: cs => s ++ plainChunks cs
  | ⟨_, _, .ctrl _⟩ :: cs => plainChunks cs

end Hwp.Spec
