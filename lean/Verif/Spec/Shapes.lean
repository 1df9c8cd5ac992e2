/-
Specification vocabulary for text shaping (C16–C18).
-/
import Verif.Model.Shapes
import Verif.Spec.Utf16
namespace Hwp.Spec

/-- The shape in force at position `x`: the last one that begins at or before
`x`. -/
def shapeAt {σ : Type} (shapes : List (Nat × σ)) (x : Nat) : Option σ :=
  ((shapes.filter fun p => p.1 ≤ x).getLast?).map (·.2)

/-- Positions do not decrease. -/
def Ascending {σ : Type} : List (Nat × σ) → Prop
  | a :: b :: t => a.1 ≤ b.1 ∧ Ascending (b :: t)
  | _ => True

instance decAscending {σ : Type} : ∀ l : List (Nat × σ), Decidable (Ascending l)
  | [] => isTrue trivial
  | [_] => isTrue trivial
  | a :: b :: t =>
    have := decAscending (b :: t)
    inferInstanceAs (Decidable (a.1 ≤ b.1 ∧ Ascending (b :: t)))

/-- Chunk ranges are consecutive from `lo` to `hi` (empty ranges allowed). -/
def RTiles {α : Type} : Nat → Nat → List (RChunk α) → Prop
  | lo, hi, [] => lo = hi
  | lo, hi, c :: cs => c.start = lo ∧ lo ≤ c.stop ∧ RTiles c.stop hi cs

instance decRTiles {α : Type} : ∀ lo hi (cs : List (RChunk α)), Decidable (RTiles lo hi cs)
  | lo, hi, [] => inferInstanceAs (Decidable (lo = hi))
  | _, hi, c :: cs =>
    have := decRTiles c.stop hi cs
    inferInstanceAs (Decidable (_ ∧ _ ∧ _))

/-- Text of a chunk list in order (controls contribute nothing). -/
def textOf {α : Type} (cs : List (RChunk α)) : List Nat :=
  (cs.map fun c => match c.val with | .text s => s | .ctrl _ => []).flatten

/-- Controls of a chunk list in order. -/
def ctrlsOf {α : Type} (cs : List (RChunk α)) : List CtrlChar :=
  (cs.map fun c => match c.val with | .text _ => [] | .ctrl d => [d]).flatten

/-- `Cut ps cs`: the pieces `ps` arise from the chunks `cs` by cutting text
chunks at positions inside their range; nothing is dropped, added or reordered. -/
inductive Cut {α : Type} : List (RChunk α) → List (RChunk α) → Prop
  | nil : Cut [] []
  | keep {c ps cs} : Cut ps cs → Cut (c :: ps) (c :: cs)
  | cut {a b m attr s ps cs} : a < m → m < b →
      Cut ps (⟨m, b, attr, .text (s.drop (m - a))⟩ :: cs) →
      Cut (⟨a, m, attr, .text (s.take (m - a))⟩ :: ps) (⟨a, b, attr, .text s⟩ :: cs)

/-- The piece without its shape label. -/
def unlabel {α σ : Type} (c : RChunk (σ × α)) : RChunk α := ⟨c.start, c.stop, c.attr.2, c.val⟩

/-- Position of every character of a text that begins at unit `pos`: characters
outside the BMP take two units. -/
def charPositions (pos : Nat) : List Nat → List (Nat × Nat)
  | [] => []
  | c :: s => (pos, c) :: charPositions (pos + (units c).length) s

/-- The characters of a chunk list with their positions in code units. -/
def positionedChars {α : Type} (cs : List (RChunk α)) : List (Nat × Nat) :=
  (cs.map fun c => match c.val with | .text s => charPositions c.start s | .ctrl _ => []).flatten

/-- The characters of a shaped chunk list with their shapes. -/
def shapedChars {α σ : Type} (cs : List (RChunk (σ × α))) : List (Nat × σ) :=
  (cs.map fun c => match c.val with
    | .text s => s.map fun x => (x, c.attr.1)
    | .ctrl _ => []).flatten

/-- No shape begins strictly inside the range of a control. -/
def CtrlsUncut {α σ : Type} (shapes : List (Nat × σ)) (cs : List (RChunk α)) : Prop :=
  ∀ c ∈ cs, (∃ d, c.val = .ctrl d) → ∀ p ∈ shapes, ¬ (c.start < p.1 ∧ p.1 < c.stop)

end Hwp.Spec
