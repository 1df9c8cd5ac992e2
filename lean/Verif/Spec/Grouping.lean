/- Specification vocabulary for C05–C07. -/
import Verif.Model.Records
namespace Hwp.Spec

/-- What a consumer of lazily produced groups sees: it calls `next` up to
`ks[i]` times on the i-th group it obtains.  A group that is exhausted (more
calls than records) is followed by the next group; a group from which nothing
was taken is offered again; a group left half-read ends the iteration. -/
def lazyConsumer : List (List Record) → List Nat → List (List Record)
  | _, [] => []
  | [], _ :: _ => []
  | g :: gs, k :: ks =>
    if g.length < k then g :: lazyConsumer gs ks
    else if k = 0 then [] :: lazyConsumer (g :: gs) ks
    else [g.take k]

/-- The index of the nearest preceding item with a smaller level, for the item
at position `i`. -/
def enclosing (levels : List Nat) (i : Nat) : Option Nat :=
  match levels[i]? with
  | none => none
  | some l => ((List.range i).filter (fun j => levels[j]?.any (· < l))).getLast?

end Hwp.Spec
