/-
Specification for the events of reading a record: what it means that the reported items lie
one after another in the payload and hold what is there.
-/
import Verif.Model.BinEvents
namespace Hwp.Spec
open Hwp

/-- Reading an item of the type from the bytes gives the value and leaves a rest. -/
def ItemReads {V C} (type : TKind V C) (s : Bytes) (value : ItemVal V) (rest : Bytes) : Prop :=
  match type, value with
  | .leaf r, .val v => r s = .ok (v, rest)
  | .flags r conv, .val v => ∃ n, r s = .ok (n, rest) ∧ v = conv n
  | .var r, .count n => r s = .ok (n, rest)
  | _, _ => False

/-- Nothing of the type can be read from the bytes. -/
def Unreadable {V C} (type : TKind V C) (s : Bytes) : Prop :=
  match type with
  | .leaf r => ∃ e, r s = .error e
  | .var r => ∃ e, r s = .error e
  | _ => False

/-- The items among the events lie one after another in the payload, without gap or overlap,
from `first` to `last`: each is read at its offset, and the next one begins where it ends. -/
inductive ItemTiles {V C} (payload : Bytes) : Nat → List (BinEv V C) → Nat → Prop
  | nil (o) : ItemTiles payload o [] o
  | start {o evs last} (name type) : ItemTiles payload o evs last →
      ItemTiles payload o (.start name type :: evs) last
  | stop {o evs last} (name type) : ItemTiles payload o evs last →
      ItemTiles payload o (.stop name type :: evs) last
  | item {o next evs last} (name type value) : o ≤ next → next ≤ payload.length →
      ItemReads type (payload.drop o) value (payload.drop next) →
      ItemTiles payload next evs last → ItemTiles payload o (.item name type o value :: evs) last

/-- Starts and ends are nested properly: `Opens a evs b` if the structs and arrays `a` are open
before the events (innermost first) and `b` after. -/
inductive Opens {V C} : List (Option String × TKind V C) → List (BinEv V C) →
    List (Option String × TKind V C) → Prop
  | nil (a) : Opens a [] a
  | start {a evs b} (name type) : Opens ((name, type) :: a) evs b → Opens a (.start name type :: evs) b
  | stop {a evs b} (name type) : Opens a evs b → Opens ((name, type) :: a) (.stop name type :: evs) b
  | item {a evs b} (name type offset value) : Opens a evs b →
      Opens a (.item name type offset value :: evs) b
  | error {a evs b} (name type offset) : Opens a evs b → Opens a (.error name type offset :: evs) b

/-- Somewhere in the value there is the primitive value `v`: as the member `n` of a struct
(`some n`), or as an item of an array (`none`). -/
inductive HasLeaf {V} : Value V → Option String → V → Prop
  | member {fs n v} : (n, Value.leaf v) ∈ fs → HasLeaf (.struct fs) (some n) v
  | element {xs v} : Value.leaf v ∈ xs → HasLeaf (.list xs) none v
  | component {xs v} : Value.leaf v ∈ xs → HasLeaf (.tuple xs) none v
  | inMember {fs n w m v} : (n, w) ∈ fs → HasLeaf w m v → HasLeaf (.struct fs) m v
  | inElement {xs w m v} : w ∈ xs → HasLeaf w m v → HasLeaf (.list xs) m v
  | inComponent {xs w m v} : w ∈ xs → HasLeaf w m v → HasLeaf (.tuple xs) m v

/-- The events report a value, under the name if it has one. -/
def Reports {V C} (evs : List (BinEv V C)) (m : Option String) (v : V) : Prop :=
  ∃ name type offset, BinEv.item name type offset (.val v) ∈ evs ∧ ∀ n, m = some n → name = some n

end Hwp.Spec
