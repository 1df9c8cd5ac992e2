/-
Model of the text shaping part of /repo/src/hwp5/xmlmodel.py:
make_ranged_shapes, split_and_shape, line_segmented.
-/
import Verif.Model.ParaText
namespace Hwp

/-- xmlmodel.py:94-100 `make_ranged_shapes`, after the first item: `last` is the
item seen last. -/
def makeRangedShapesGo {σ : Type} (last : Nat × σ) : List (Nat × σ) → List ((Nat × Nat) × σ)
  | [] => [((last.1, 0x7fffffff), last.2)]
  | item :: rest => ((last.1, item.1), last.2) :: makeRangedShapesGo item rest

/-- xmlmodel.py:94-100 `make_ranged_shapes`.  Without items the `yield` behind
the loop reads the unassigned name `item`. -/
def makeRangedShapes {σ : Type} : List (Nat × σ) → Gen ((Nat × Nat) × σ)
  | [] => .raise .unboundLocalError
  | item :: rest => .ofList (makeRangedShapesGo item rest)

/-- A chunk `((start, end), attr, chunk)`. -/
structure RChunk (α : Type) where
  start : Nat
  stop : Nat
  attr : α
  val : ChunkVal
  deriving DecidableEq, Repr

/-- `chunk[:n]`, `chunk[n:]` (xmlmodel.py:129-132).  Text is sliced by code
points; slicing a control (a dict) raises `TypeError` (CPython below 3.12). -/
def ChunkVal.cut (n : Nat) : ChunkVal → Except PyErr (ChunkVal × ChunkVal)
  | .text s => .ok (.text (s.take n), .text (s.drop n))
  | .ctrl _ => .error .typeError

/-- How the inner loop of `split_and_shape` ends: exhausted chunks (`return`),
`break` to the next shape with the current chunk and the unread ones, or an
exception. -/
inductive ShapeEnd (α : Type) where
  | ret
  | brk (cur : RChunk α) (rest : List (RChunk α))
  | raised (e : PyErr)
  deriving DecidableEq, Repr

/-- xmlmodel.py:109-146, the inner `while True` loop for one shape.  `rest` and
`err` are the unread part of the chunk iterator. -/
def shapeLoop {α σ : Type} (ss se : Nat) (shape : σ) (err : Option PyErr)
    (cur : RChunk α) (rest : List (RChunk α)) : List (RChunk (σ × α)) × ShapeEnd α :=
  if cur.start < ss then ([], .raised .assertionError)
  else if se ≤ cur.start then ([], .brk cur rest)
  else if se < cur.stop then
    match cur.val.cut (se - cur.start) with
    | .error e => ([], .raised e)
    | .ok (a, b) =>
      let r := shapeLoop ss se shape err ⟨se, cur.stop, cur.attr, b⟩ rest
      (⟨cur.start, se, (shape, cur.attr), a⟩ :: r.1, r.2)
  else
    let piece : RChunk (σ × α) := ⟨cur.start, cur.stop, (shape, cur.attr), cur.val⟩
    match rest with
    | c :: rest' =>
      let r := shapeLoop ss se shape err c rest'
      (piece :: r.1, r.2)
    | [] =>
      match err with
      | none => ([piece], .ret)
      | some e => ([piece], .raised e)
termination_by 2 * rest.length + (if cur.start < se then 1 else 0)
decreasing_by
  · split <;> split <;> omega
  · simp only [List.length_cons]; split <;> split <;> omega

/-- xmlmodel.py:108-146, the loop over the ranged shapes.  When the shapes are
exhausted the function ends, whatever chunks are left. -/
def shapesLoop {α σ : Type} (err : Option PyErr) (cur : RChunk α) (rest : List (RChunk α))
    (serr : Option PyErr) : List ((Nat × Nat) × σ) → Gen (RChunk (σ × α))
  | [] => ⟨[], serr⟩
  | ((ss, se), shape) :: shapes =>
    match shapeLoop ss se shape err cur rest with
    | (out, .ret) => ⟨out, none⟩
    | (out, .raised e) => ⟨out, some e⟩
    | (out, .brk cur' rest') => .prepend out (shapesLoop err cur' rest' serr shapes)

/-- xmlmodel.py:103-146 `split_and_shape`. -/
def splitAndShape {α σ : Type} (chunks : Gen (RChunk α)) (shapes : Gen ((Nat × Nat) × σ)) :
    Gen (RChunk (σ × α)) :=
  match chunks.out with
  | [] => ⟨[], chunks.err⟩
  | c :: rest => shapesLoop chunks.err c rest shapes.err shapes.out

/-- xmlmodel.py:149-162, the loop of `line_segmented` over the shaped chunks;
`prev`/`line` are `prev_lineseg`/`line` once a chunk was seen.  Line segments are
compared by identity (`is not`): `σ` stands for object identities. -/
def lineSegmentedGo {α σ : Type} [DecidableEq σ] (err : Option PyErr) (prev : σ)
    (line : List (RChunk α)) : List (RChunk (σ × α)) → Gen (σ × List (RChunk α))
  | [] =>
    match err with
    | none => .ofList [(prev, line)]
    | some e => .raise e
  | c :: rest =>
    let plain : RChunk α := ⟨c.start, c.stop, c.attr.2, c.val⟩
    if c.attr.1 ≠ prev then
      .cons (prev, line) (lineSegmentedGo err c.attr.1 [plain] rest)
    else
      lineSegmentedGo err prev (line ++ [plain]) rest

/-- The grouping of xmlmodel.py:149-162 on the shaped chunks. -/
def groupLines {α σ : Type} [DecidableEq σ] (shaped : Gen (RChunk (σ × α))) :
    Gen (σ × List (RChunk α)) :=
  match shaped.out with
  | [] => ⟨[], shaped.err⟩
  | c :: rest => lineSegmentedGo shaped.err c.attr.1 [⟨c.start, c.stop, c.attr.2, c.val⟩] rest

/-- xmlmodel.py:149-162 `line_segmented`. -/
def lineSegmented {α σ : Type} [DecidableEq σ] (chunks : Gen (RChunk α))
    (linesegs : Gen ((Nat × Nat) × σ)) : Gen (σ × List (RChunk α)) :=
  groupLines (splitAndShape chunks linesegs)

end Hwp
