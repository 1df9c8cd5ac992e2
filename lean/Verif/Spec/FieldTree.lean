/-
The document tree after field matching.
-/
import Verif.Spec.Fields
namespace Hwp.Spec

/-- A line read from left to right: an element, the start of a field (with the
children of the field record) or the end of the innermost field. -/
inductive FieldTok where
  | node (a : Item) (cs : Forest Item)
  | opn (a : Item) (cs : Forest Item)
  | cls (a : Item)

/-- The trees of a line up to the first end of a field that started before, then
those up to the next one, and so on.  A field contains its own children and then
what comes up to its end. -/
def nest : List FieldTok → List (Forest Item)
  | [] => [.nil]
  | .node a cs :: ts =>
    match nest ts with
    | t :: st => .node a cs t :: st
    | [] => []
  | .opn a cs :: ts =>
    match nest ts with
    | t :: u :: st => .node a (cs.append t) u :: st
    | st => st
  | .cls _ :: ts => .nil :: nest ts

/-- The trees of a line in which every field ends. -/
def nested (ts : List FieldTok) : Forest Item := (nest ts).headD .nil

/-- The contents of a forest as tokens, and the fields open behind it, when those
of `S` (innermost first) are open before it.  In every line the fields open at its
start are started again and those open at its end are ended. -/
def fieldToks (S : List Item) : Forest Item → List FieldTok × List Item
  | .nil => ([], S)
  | .node a cs sibs =>
    if a.isField then
      let k := fieldToks (a :: S) cs
      let r := fieldToks (a :: S) sibs
      (.opn a (nested k.1) :: r.1, r.2)
    else if a.isFieldEnd then
      match S with
      | [] => fieldToks [] sibs
      | f :: S' =>
        let r := fieldToks S' sibs
        (.cls f :: r.1, r.2)
    else
      let k := fieldToks S cs
      let r := fieldToks k.2 sibs
      if a.isLineSeg then
        (.node a (nested (S.reverse.map (.opn · .nil) ++ k.1 ++ k.2.map .cls)) :: r.1, r.2)
      else (.node a (nested k.1) :: r.1, r.2)

/-- Every field contains what comes between its start and its end character in its
line; a field that ends in a later line is split: each line in between has its own
copy. -/
def fielded (f : Forest Item) : Forest Item := nested (fieldToks [] f).1

end Hwp.Spec
