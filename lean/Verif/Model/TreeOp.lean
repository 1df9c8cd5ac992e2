/-
Model of /repo/src/hwp5/treeop.py.
-/
import Verif.Model.Py
namespace Hwp

/-- An event-prefixed item: `(STARTEVENT, a)` or `(ENDEVENT, a)`, treeop.py:24-29. -/
inductive Ev (α : Type) where
  | start (a : α)
  | stop (a : α)
  deriving DecidableEq, Repr

namespace Ev
def item {α} : Ev α → α
  | start a => a
  | stop a => a
end Ev

/-- Ordered forests; `node a cs sibs` is a tree with root `a` and children `cs`
followed by the trees `sibs`.  Python's `[(root, childs), ...]` lists. -/
inductive Forest (α : Type) where
  | nil
  | node (a : α) (children : Forest α) (siblings : Forest α)
  deriving DecidableEq, Repr

namespace Forest
/-- `childs.append((a, cs))`. -/
def snoc {α} : Forest α → α → Forest α → Forest α
  | nil, a, cs => node a cs nil
  | node b ds sibs, a, cs => node b ds (snoc sibs a cs)
end Forest

/-- The loop `while level + 1 < len(stack): yield ENDEVENT, stack.pop()`
(treeop.py:44-45, also 85-86) for `target = level + 1`; the stack is kept top
first.  Popping an empty list raises `IndexError`. -/
def popTo {α} (target : Int) : List α → List (Ev α) × Except PyErr (List α)
  | [] => if target < 0 then ([], .error .indexError) else ([], .ok [])
  | a :: st =>
    if target < (a :: st).length then
      let (evs, r) := popTo target st
      (.stop a :: evs, r)
    else ([], .ok (a :: st))

/-- The relative level computed at treeop.py:38-42 / 79-83 and the new `baselevel`. -/
def relLevel (base : Option Int) (level : Int) : Int × Int :=
  match base with
  | none => (0, level)
  | some b => (level - b, b)

/-- treeop.py:32-55 `prefix_event`, from a state (`baselevel`, `stack`). The
final loop (54-55) pops everything but the bottom of the stack. -/
def prefixEventGo {α} (base : Option Int) (stack : List α) : List (Int × α) → Gen (Ev α)
  | [] => .ofList ((stack.take (stack.length - 1)).map .stop)
  | (level, item) :: rest =>
    let (lv, b) := relLevel base level
    match popTo (lv + 1) stack with
    | (evs, .error e) => ⟨evs, some e⟩
    | (evs, .ok st) =>
      if (st.length : Int) < lv + 1 then ⟨evs, some .exception⟩
      else if (st.length : Int) = lv + 1 then
        .prepend evs (.cons (.start item) (prefixEventGo (some b) (item :: st) rest))
      else ⟨evs, some .assertionError⟩

/-- treeop.py:32-55 `prefix_event(items, root_item)`. -/
def prefixEvent {α} (root : α) (items : List (Int × α)) : Gen (Ev α) :=
  prefixEventGo none [root] items

/-- treeop.py:58-67 `prefix_ancestors`: the list yielded is the live stack; the
model records its contents (bottom first) at the time of the yield. -/
def prefixAncestorsGo {α} (stack : List α) (err : Option PyErr) : List (Ev α) → Gen (List α × α)
  | [] => ⟨[], err⟩
  | .start a :: es => .cons (stack.reverse, a) (prefixAncestorsGo (a :: stack) err es)
  | .stop _ :: es =>
    match stack with
    | [] => .raise .indexError
    | _ :: st => prefixAncestorsGo st err es

def prefixAncestors {α} (root : α) (events : Gen (Ev α)) : Gen (List α × α) :=
  prefixAncestorsGo [root] events.err events.out

/-- treeop.py:70-93 `prefix_ancestors_from_level`. -/
def ancestorsFromLevelGo {α} (base : Option Int) (stack : List α) : List (Int × α) → Gen (List α × α)
  | [] => .done
  | (level, item) :: rest =>
    let (lv, b) := relLevel base level
    match popTo (lv + 1) stack with
    | (_, .error e) => .raise e
    | (_, .ok st) =>
      if (st.length : Int) < lv + 1 then .raise .exception
      else if (st.length : Int) = lv + 1 then
        .cons (st.reverse, item) (ancestorsFromLevelGo (some b) (item :: st) rest)
      else .raise .assertionError

def ancestorsFromLevel {α} (root : α) (items : List (Int × α)) : Gen (List α × α) :=
  ancestorsFromLevelGo none [root] items

/-- treeop.py:96-124 `build_subtree`, entered with the children collected so far.
The result is the tree (`none` is Python's `None`, when the events run out) and
the unconsumed events.  A `None` child can only be appended when the events have
run out, in which case the whole result is `None`; it is dropped here. -/
def buildSubtreeGo {α} (es : List (Ev α)) (childs : Forest α) :
    { r : Option (α × Forest α) × List (Ev α) // r.2.length ≤ es.length } :=
  match es with
  | [] => ⟨(none, []), by simp⟩
  | .stop a :: es => ⟨(some (a, childs), es), by simp⟩
  | .start _ :: es =>
    match buildSubtreeGo es .nil with
    | ⟨(none, es'), h⟩ => ⟨(none, es'), by simp at *; omega⟩
    | ⟨(some (a, cs), es'), h⟩ =>
      have : es'.length < es.length + 1 := by simp at h; omega
      match buildSubtreeGo es' (childs.snoc a cs) with
      | ⟨r, h'⟩ => ⟨r, by simp at *; omega⟩
termination_by es.length

/-- treeop.py:96-124 `build_subtree(events)`. -/
def buildSubtree {α} (es : List (Ev α)) : Option (α × Forest α) × List (Ev α) :=
  (buildSubtreeGo es .nil).1

/-- treeop.py:127-137 `iter_subevents`: yielded events and unconsumed rest,
with the current `level`. -/
def iterSubevents {α} (level : Nat) : List (Ev α) → List (Ev α) × List (Ev α)
  | [] => ([], [])
  | .start a :: es =>
    let (out, rest) := iterSubevents (level + 1) es
    (.start a :: out, rest)
  | .stop a :: es =>
    if level > 0 then
      let (out, rest) := iterSubevents (level - 1) es
      (.stop a :: out, rest)
    else ([.stop a], es)

/-- treeop.py:149-154 `tree_events_multi` together with 140-146 `tree_events`. -/
def treeEventsMulti {α} : Forest α → List (Ev α)
  | .nil => []
  | .node a cs sibs => (.start a :: (treeEventsMulti cs ++ [.stop a])) ++ treeEventsMulti sibs

/-- treeop.py:140-146 `tree_events(rootitem, childs)`. -/
def treeEvents {α} (root : α) (childs : Forest α) : List (Ev α) :=
  .start root :: (treeEventsMulti childs ++ [.stop root])

end Hwp
