/-
Specification of the text pass: the text records of a paragraph become lines of
text and control characters.
-/
import Verif.Spec.Shapes
import Verif.Spec.Passes
namespace Hwp.Spec

/-- The kinds of the control characters: extended ones stand for a control,
inline ones carry their data, plain ones are single characters.  There is no kind
for 0x19–0x1d. -/
def kindOf (code : Nat) : Option CtrlKind :=
  if code ∈ [1, 2, 3, 0x0b, 0x0c, 0x0e, 0x0f, 0x10, 0x11, 0x12, 0x15, 0x16, 0x17] then some .extended
  else if code ∈ [4, 5, 6, 7, 8, 9, 0x13, 0x14] then some .inline
  else if code ∈ [0, 0x0a, 0x0d, 0x18, 0x1e, 0x1f] then some .char
  else none

/-- The records that hold the text of a paragraph. -/
def isTextRecord : Item → Bool
  | .paraText _ _ | .paraCharShape _ _ | .paraLineSeg _ _ | .paraRangeTag _ => true
  | _ => false

/-- The text of a paragraph with these children: of the last text record, or an
empty text. -/
def paraChunks (kids : List Item) : List Chunk :=
  ((kids.filterMap fun a => match a with | .paraText cs _ => some cs | _ => none).getLast?).getD
    [⟨0, 0, .text []⟩]

/-- The character shapes by position, of the last such record. -/
def paraShapes (kids : List Item) : Option (List (Nat × Nat)) :=
  (kids.filterMap fun a => match a with | .paraCharShape cs _ => some cs | _ => none).getLast?

/-- The lines by position, of the last such record, or a single line. -/
def paraLines (kids : List Item) : List (Nat × LineId) :=
  match (kids.filterMap fun a => match a with | .paraLineSeg ls t => some (ls, t) | _ => none).getLast? with
  | some (ls, t) => ls.mapIdx fun i pos => (pos, (some t, i))
  | none => [(0, (none, 0))]

/-- The text of a paragraph as ranged chunks. -/
def paraRanges (kids : List Item) : List (RChunk Unit) :=
  (paraChunks kids).map fun c => ⟨c.start, c.stop, (), c.val⟩

/-- The element made from a piece of text or a control character of the given
shape. -/
def pieceItem (shape : Nat) : ChunkVal → Option Item
  | .text s => some (.text s shape none)
  | .ctrl d => (kindOf d.code).map fun k => .controlChar d.code k shape

/-- Leaves in a row. -/
def leaves : List Item → Forest Item
  | [] => .nil
  | a :: as => .node a .nil (leaves as)

/-- Lines in a row. -/
def lineForest : List (LineId × List Item) → Forest Item
  | [] => .nil
  | l :: ls => .node (.lineSeg l.1) (leaves l.2) (lineForest ls)

/-- Adjacent entries differ. -/
def Differing : List LineId → Prop
  | a :: b :: t => a ≠ b ∧ Differing (b :: t)
  | _ => True

/-- `LinesOf kids L`: the lines `L` hold the text of the paragraph with the
children `kids`.  There is a division of the text into lines of pieces such that
the pieces are the text cut somewhere, with nothing lost, added or reordered;
every piece is in the line its position belongs to and has the shape of its
position; no line is empty and a line is not continued in a line with the same
number; and `L` has a line element per line and an element per piece. -/
def LinesOf (kids : List Item) (L : Forest Item) : Prop :=
  ∃ (shapes : List (Nat × Nat)) (lines : List (LineId × List (RChunk Nat))) (items : List (LineId × List Item)),
    paraShapes kids = some shapes ∧
    Cut ((lines.flatMap (·.2)).map fun c => (⟨c.start, c.stop, (), c.val⟩ : RChunk Unit)) (paraRanges kids) ∧
    (∀ l ∈ lines, l.2 ≠ [] ∧ ∀ c ∈ l.2, shapeAt (paraLines kids) c.start = some l.1 ∧
      shapeAt shapes c.start = some c.attr) ∧
    Differing (lines.map (·.1)) ∧
    items.map (·.1) = lines.map (·.1) ∧
    items.map (·.2.map some) = lines.map (fun l => l.2.map fun c => pieceItem c.attr c.val) ∧
    L = lineForest items

/-- `Texted f f'`: `f'` is `f` without the text records; instead every paragraph
has its lines as its last children. -/
inductive Texted : Forest Item → Forest Item → Prop
  | nil : Texted .nil .nil
  | record {a sibs sibs'} : isTextRecord a → Texted sibs sibs' → Texted (.node a .nil sibs) sibs'
  | paragraph {a cs cs' L sibs sibs'} : a.isParagraph → Texted cs cs' → LinesOf cs.roots L →
      Texted sibs sibs' → Texted (.node a cs sibs) (.node a (cs'.append L) sibs')
  | other {a cs cs' sibs sibs'} : isTextRecord a = false → a.isParagraph = false → Texted cs cs' →
      Texted sibs sibs' → Texted (.node a cs sibs) (.node a cs' sibs')

/-- A condition on every element and the root items of its children. -/
def Everywhere (R : Item → List Item → Prop) : Forest Item → Prop
  | .nil => True
  | .node a cs sibs => R a cs.roots ∧ Everywhere R cs ∧ Everywhere R sibs

/-- The end of the last range. -/
def rangesEnd (cs : List (RChunk Unit)) : Nat := ((cs.getLast?).map (·.stop)).getD 0

/-- The text and the lines of a paragraph fit together with the given character
shapes: the text chunks are consecutive from 0 on; shapes and lines begin at 0 and
are ascending and do not begin inside a control character; all control characters
have a kind. -/
def ShapesOk (kids : List Item) (shapes : List (Nat × Nat)) : Prop :=
  (shapes.map (·.1)).head? = some 0 ∧ Ascending shapes ∧
  RTiles 0 (rangesEnd (paraRanges kids)) (paraRanges kids) ∧ rangesEnd (paraRanges kids) < 0x7fffffff ∧
  ((paraLines kids).map (·.1)).head? = some 0 ∧ Ascending (paraLines kids) ∧
  CtrlsUncut shapes (paraRanges kids) ∧ CtrlsUncut (paraLines kids) (paraRanges kids) ∧
  ∀ d ∈ ctrlsOf (paraRanges kids), kindOf d.code ≠ none

/-- There are character shapes and the text records fit together. -/
def ParaOk (kids : List Item) : Prop := ∃ shapes, paraShapes kids = some shapes ∧ ShapesOk kids shapes

/-- Text records occur in paragraphs only, have no children and fit together. -/
def TextNodeOk (a : Item) (kids : List Item) : Prop :=
  if a.isParagraph then ParaOk kids
  else (isTextRecord a → kids = []) ∧ ∀ b ∈ kids, isTextRecord b = false

/-! Deciding these conditions (for the examples). -/

instance {α σ : Type} (shapes : List (Nat × σ)) (cs : List (RChunk α)) : Decidable (CtrlsUncut shapes cs) :=
  decidable_of_iff (∀ c ∈ cs, (match c.val with | .ctrl _ => true | .text _ => false) = true →
      ∀ p ∈ shapes, ¬ (c.start < p.1 ∧ p.1 < c.stop)) <| by
    unfold CtrlsUncut
    refine forall_congr' fun c => imp_congr_right fun _ => imp_congr_left ?_
    cases c.val <;> simp

instance (kids : List Item) (shapes : List (Nat × Nat)) : Decidable (ShapesOk kids shapes) :=
  inferInstanceAs (Decidable (_ ∧ _ ∧ _ ∧ _ ∧ _ ∧ _ ∧ _ ∧ _ ∧ _))

instance (kids : List Item) : Decidable (ParaOk kids) :=
  match h : paraShapes kids with
  | none => isFalse (by simp [ParaOk, h])
  | some s => decidable_of_iff (ShapesOk kids s) (by simp [ParaOk, h])

instance (a : Item) (kids : List Item) : Decidable (TextNodeOk a kids) :=
  inferInstanceAs (Decidable (ite _ _ _))

instance decEverywhere (R : Item → List Item → Prop) [∀ a l, Decidable (R a l)] :
    ∀ f, Decidable (Everywhere R f)
  | .nil => isTrue trivial
  | .node _ cs sibs =>
    have := decEverywhere R cs
    have := decEverywhere R sibs
    inferInstanceAs (Decidable (_ ∧ _ ∧ _))

end Hwp.Spec
