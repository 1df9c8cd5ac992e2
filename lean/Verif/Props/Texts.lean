/-
C66 (text pass) and the control character table of C14.
-/
import Verif.Proofs.Texts
import Verif.Proofs.Restructure
namespace Hwp.Props
open Hwp Spec
set_option linter.unusedSimpArgs false

/-- C14: the kind of every control character, and hence its width: extended and
inline ones take eight code units, plain ones one. -/
theorem C14_kinds (code : Nat) : ctrlKind code = kindOf code ∧
    (∀ k, ctrlKind code = some k → k.size = if k = .char then 1 else 8) :=
  ⟨(kindOf_eq code).symm, fun k _ => by cases k <;> rfl⟩

example : ctrlKind 0x15 = some .extended ∧ ctrlKind 0x0b = some .extended ∧ ctrlKind 9 = some .inline ∧
    ctrlKind 13 = some .char ∧ ctrlKind 0x19 = none := by decide

/-- C66: the text pass replaces the text records of every paragraph by its lines. -/
theorem C66_texts (f : Forest Item) (h : Everywhere TextNodeOk f)
    (hr : ∀ b ∈ f.roots, isTextRecord b = false) :
    ∃ f', Texted f f' ∧ makeTexts (.ofList (eventsOf f)) = .ofList (eventsOf f') := by
  obtain ⟨f', h1, h2⟩ := makeTexts_forest none f h
  refine ⟨f', h1, ?_⟩
  have := h2 [] [] (.inr hr)
  rw [List.append_nil] at this
  simp only [makeTexts, Gen.ofList]
  rw [this]
  simp [stackAfter, makeTextsGo, Gen.prepend]

/-- The characters of the texts among the given elements. -/
def itemText (items : List Item) : PyStr :=
  items.flatMap fun a => match a with | .text s _ _ => s | _ => []

/-- The codes of the control characters among the given elements. -/
def itemCtrls (items : List Item) : List Nat :=
  items.flatMap fun a => match a with | .controlChar c _ _ => [c] | _ => []

theorem starts_leaves (as : List Item) : starts (eventsOf (leaves as)) = as := by
  induction as with
  | nil => rfl
  | cons a as ih => simp [leaves, eventsOf, starts, ih]

theorem starts_lineForest (ls : List (LineId × List Item)) :
    starts (eventsOf (lineForest ls)) = ls.flatMap fun l => .lineSeg l.1 :: l.2 := by
  induction ls with
  | nil => rfl
  | cons l ls ih => simp [lineForest, eventsOf, starts, Hwp.starts_append, starts_leaves, ih]

/-- C66: the lines of a paragraph hold exactly its text and its control
characters, in order. -/
theorem C66_text_kept (kids : List Item) (L : Forest Item) (h : LinesOf kids L) :
    itemText (starts (eventsOf L)) = textOf (paraRanges kids) ∧
    itemCtrls (starts (eventsOf L)) = (ctrlsOf (paraRanges kids)).map CtrlChar.code := by
  obtain ⟨shapes, lines, items, -, h2, -, -, h5, h6, rfl⟩ := h
  have ht := h2.text
  rw [← ht.1, ← ht.2, starts_lineForest]
  clear h2 ht
  have key : ∀ (cs : List (RChunk Nat)) (is : List Item),
      is.map some = (cs.map fun c => pieceItem c.attr c.val) →
      itemText is = textOf (cs.map fun c => (⟨c.start, c.stop, (), c.val⟩ : RChunk Unit)) ∧
      itemCtrls is = (ctrlsOf (cs.map fun c => (⟨c.start, c.stop, (), c.val⟩ : RChunk Unit))).map CtrlChar.code := by
    intro cs
    induction cs with
    | nil => intro is h; simp at h; subst h; exact ⟨rfl, rfl⟩
    | cons c cs ih =>
      intro is h
      cases is with
      | nil => simp at h
      | cons i is =>
        simp only [List.map_cons, List.cons.injEq] at h
        obtain ⟨i1, i2⟩ := ih is h.2
        have h1 := h.1
        unfold itemText itemCtrls textOf ctrlsOf at *
        cases hv : c.val with
        | text s =>
          simp only [hv, pieceItem, Option.some.injEq] at h1
          subst h1
          simp [hv, i1, i2]
        | ctrl d =>
          simp only [hv, pieceItem] at h1
          cases hk : kindOf d.code with
          | none => simp [hk] at h1
          | some k =>
            simp only [hk, Option.map_some, Option.some.injEq] at h1
            subst h1
            simp [hv, i1, i2]
  induction lines generalizing items with
  | nil =>
    simp at h5; subst h5; exact ⟨rfl, rfl⟩
  | cons l lines ih =>
    cases items with
    | nil => simp at h5
    | cons i items =>
      simp only [List.map_cons, List.cons.injEq] at h5 h6
      obtain ⟨i1, i2⟩ := ih items h5.2 h6.2
      obtain ⟨k1, k2⟩ := key l.2 i.2 h6.1
      unfold itemText itemCtrls textOf ctrlsOf at *
      simp [i1, i2, k1, k2]

/-- C66: a paragraph without character shapes is a `TypeError` at its end. -/
theorem C66_no_shapes (n : Bool) (t : Nat) (cs sibs : Forest Item) (h : Everywhere TextNodeOk cs)
    (hs : paraShapes cs.roots = none) :
    ∃ cs', Texted cs cs' ∧ makeTexts (.ofList (eventsOf (.node (.paragraph n t) cs sibs))) =
      ⟨.start (.paragraph n t) :: eventsOf cs', some .typeError⟩ := by
  obtain ⟨cs', h1, h2⟩ := makeTexts_forest none cs h
  refine ⟨cs', h1, ?_⟩
  simp only [makeTexts, Gen.ofList, eventsOf, makeTextsGo]
  rw [h2 _ _ (.inl (by simp))]
  have hst : stackAfter ([{}] : List ParaParts) cs.roots = [partsAfter {} cs.roots] := rfl
  rw [hst]
  simp only [makeTextsGo]
  have hc : (partsAfter {} cs.roots).charshapes = none := by
    rw [(partsAfter_spec cs.roots {}).2.1]
    simp only [Option.or_none]; exact hs
  unfold mergeParagraph
  rw [hc]
  simp [Gen.andThen, Gen.raise, Gen.prepend, Gen.cons]

/-- C66: a paragraph with character shapes only is one line with one empty text of
the first shape. -/
theorem C66_empty_paragraph (n : Bool) (t t' s0 : Nat) :
    makeTexts (.ofList (eventsOf (.node (.paragraph n t) (.node (.paraCharShape [(0, s0)] t') .nil .nil) .nil))) =
      .ofList (eventsOf (.node (.paragraph n t)
        (.node (.lineSeg (none, 0)) (.node (.text [] s0 none) .nil .nil) .nil) .nil)) := by
  simp [makeTexts, eventsOf, Gen.ofList, makeTextsGo, mergeParagraph, paraLineSegs, splitAndShape, lineSegmented,
    makeRangedShapes, makeRangedShapesGo, shapesLoop, shapeLoop, groupLines, lineSegmentedGo, textChunkEvents, wrapModelevents, Gen.prepend, Gen.cons, Gen.chain, Gen.andThen, Gen.done]

/-- A paragraph with two lines, three shapes and a table, whose cell paragraph has
no line segments. -/
private def sampleTexts : Forest Item :=
  .node (.paragraph false 1)
    (.node (.paraText [⟨0, 5, .text [65, 66, 67, 68, 69]⟩, ⟨5, 13, .ctrl (.other 11 [] [])⟩, ⟨13, 14, .ctrl (.plain 13)⟩] 2) .nil
      (.node (.paraCharShape [(0, 7), (2, 8), (13, 9)] 3) .nil
        (.node (.paraLineSeg [0, 4] 4) .nil
          (.node (.paraRangeTag 5) .nil
            (.node (.tableControl 6)
              (.node (.paragraph false 7) (.node (.paraCharShape [(0, 3)] 8) .nil .nil) .nil) .nil)))))
    .nil

example : Everywhere TextNodeOk sampleTexts ∧ makeTexts (.ofList (eventsOf sampleTexts)) = .ofList (eventsOf
    (.node (.paragraph false 1)
      (.node (.tableControl 6)
        (.node (.paragraph false 7) (.node (.lineSeg (none, 0)) (.node (.text [] 3 none) .nil .nil) .nil) .nil)
        (.node (.lineSeg (some 4, 0)) (.node (.text [65, 66] 7 none) .nil (.node (.text [67, 68] 8 none) .nil .nil))
          (.node (.lineSeg (some 4, 1)) (.node (.text [69] 8 none) .nil
            (.node (.controlChar 11 .extended 8) .nil (.node (.controlChar 13 .char 9) .nil .nil))) .nil)))
      .nil)) := by
  decide +kernel

end Hwp.Props
