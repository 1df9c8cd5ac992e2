/-
Specification for the names of the reported items: which name and type an item of a
declaration has.
-/
import Verif.Model.BinEvents
namespace Hwp.Spec
open Hwp

mutual
/-- A value of the declaration, itself called `own`, contains an item of this name and type:
members of structs have their name, the items of an array have none, and what a selective
type selects has the name of the whole.  Members newer than the document do not count. -/
def Declares {V C} (ver : Version) (own : Option String) (t : Ty V C) (name : Option String)
    (kind : TKind V C) : Prop :=
  match t with
  | .prim r => name = own ∧ kind = .leaf r
  | .flags r conv => name = own ∧ kind = .flags r conv
  | .struct ms => (name = own ∧ kind = .struct) ∨ MembersDeclare ver ms name kind
  | .fixedArray t n => (name = own ∧ kind = .fixed n) ∨ Declares ver none t name kind
  | .varArray r t => (name = own ∧ kind = .var r) ∨ Declares ver none t name kind
  | .xArray t ref => (name = own ∧ kind = .xarr ref) ∨ Declares ver none t name kind
  | .selective ref ss => (name = own ∧ kind = .sel ref) ∨ SelectionsDeclare ver own ss name kind
/-- Members. -/
def MembersDeclare {V C} (ver : Version) (ms : Members V C) (name : Option String)
    (kind : TKind V C) : Prop :=
  match ms with
  | .nil => False
  | .cons n since _ t rest =>
    ((∀ v, since = some v → Version.lt ver v = false) ∧ Declares ver (some n) t name kind) ∨
      MembersDeclare ver rest name kind
/-- Selections. -/
def SelectionsDeclare {V C} (ver : Version) (own : Option String) (ss : Selections V C)
    (name : Option String) (kind : TKind V C) : Prop :=
  match ss with
  | .nil => False
  | .cons _ t rest => Declares ver own t name kind ∨ SelectionsDeclare ver own rest name kind
end

/-- The name and type in the event are those of an item; the item that is the number of items
of a counted array has the array's type and no name. -/
def EventNamed {V C} (P : Option String → TKind V C → Prop) : BinEv V C → Prop
  | .start n k => P n k
  | .stop n k => P n k
  | .item n k _ (.val _) => P n k
  | .item n k _ (.count _) => n = none ∧ ∃ own, P own k
  | .error n (.var r) _ => n = none ∧ ∃ own, P own (.var r)
  | .error n k _ => P n k

/-- The classes that a record is read as: that of its tag, and the further ones of the class
that it turns out to be. -/
def ReadAs (rd : ModelReader Fields) (parent : PFrame Fields) (r : Record) (c : String) : Prop :=
  c = baseType r.tagid ∨ ∃ content ext, extensionOf rd (baseType r.tagid) parent content = .ok (some ext) ∧
    c ∈ extensionMro ext (baseType r.tagid)

end Hwp.Spec
