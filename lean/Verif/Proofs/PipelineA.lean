import Verif.Spec.Pipeline
import Verif.Proofs.FieldTree
import Verif.Proofs.Inline
import Verif.Props.Texts
namespace Hwp
open Spec
set_option linter.unusedSimpArgs false

/-! ### Forests -/

theorem Forest.roots_append {α} (f g : Forest α) : (f.append g).roots = f.roots ++ g.roots := by
  induction f with
  | nil => rfl
  | node a cs sibs _ ih => simp [Forest.append, Forest.roots, ih]

theorem allItems_eq (f : Forest Item) : allItems f = f.items := by
  induction f with
  | nil => rfl
  | node a cs sibs ih1 ih2 => simp [allItems, Forest.items, ih1, ih2]

theorem Forest.items_append {α} (f g : Forest α) : (f.append g).items = f.items ++ g.items := by
  induction f with
  | nil => rfl
  | node a cs sibs _ ih => simp [Forest.append, Forest.items, ih]

theorem everywhere_append (R : Item → List Item → Prop) (f g : Forest Item) :
    Everywhere R (f.append g) ↔ Everywhere R f ∧ Everywhere R g := by
  induction f with
  | nil => simp [Forest.append, Everywhere]
  | node a cs sibs _ ih => simp [Forest.append, Everywhere, ih, and_assoc]

theorem Everywhere.mono {R R' : Item → List Item → Prop} (h : ∀ a l, R a l → R' a l) (f : Forest Item)
    (hf : Everywhere R f) : Everywhere R' f := by
  induction f with
  | nil => trivial
  | node a cs sibs ih1 ih2 => exact ⟨h _ _ hf.1, ih1 hf.2.1, ih2 hf.2.2⟩

theorem nodeOk_textNodeOk (a : Item) (l : List Item) (h : NodeOk a l) : TextNodeOk a l := by
  obtain ⟨-, h2, h3⟩ := h
  unfold TextNodeOk
  split
  · rename_i hp; rw [if_pos hp] at h3; exact h3.2.1
  · rename_i hp; rw [if_neg hp] at h3
    exact ⟨fun ht => h2 (.inl ht), fun b hb => (h3.1 b hb).1⟩

/-! ### The lines made by the text pass -/

/-- Elements of a line made by the text pass. -/
def IsPiece (a : Item) : Prop :=
  (∃ s sh, a = .text s sh none) ∨ ∃ code k sh, kindOf code = some k ∧ a = .controlChar code k sh

theorem pieceItem_isPiece (shape : Nat) (v : ChunkVal) (a : Item) (h : pieceItem shape v = some a) : IsPiece a := by
  cases v with
  | text s =>
    simp only [pieceItem, Option.some.injEq] at h
    exact .inl ⟨s, shape, h.symm⟩
  | ctrl d =>
    simp only [pieceItem] at h
    cases hk : kindOf d.code with
    | none => simp [hk] at h
    | some k =>
      simp only [hk, Option.map_some, Option.some.injEq] at h
      exact .inr ⟨d.code, k, shape, hk, h.symm⟩

theorem linesOf_items (kids : List Item) (L : Forest Item) (h : LinesOf kids L) :
    ∃ items : List (LineId × List Item), L = lineForest items ∧ (∀ l ∈ items, ∀ a ∈ l.2, IsPiece a) ∧
      Props.itemText (items.flatMap (·.2)) = textOf (paraRanges kids) ∧
      Props.itemCtrls (items.flatMap (·.2)) = (ctrlsOf (paraRanges kids)).map CtrlChar.code := by
  have hk := Props.C66_text_kept kids L h
  obtain ⟨shapes, lines, items, -, -, -, -, h5, h6, rfl⟩ := h
  refine ⟨items, rfl, ?_, ?_⟩
  · intro l hl a ha
    have : l.2.map some ∈ items.map (·.2.map some) := List.mem_map.2 ⟨l, hl, rfl⟩
    rw [h6] at this
    obtain ⟨l', -, hl'⟩ := List.mem_map.1 this
    have : some a ∈ l.2.map some := List.mem_map.2 ⟨a, ha, rfl⟩
    rw [← hl'] at this
    obtain ⟨c, -, hc⟩ := List.mem_map.1 this
    exact pieceItem_isPiece _ _ _ hc
  · rw [Props.starts_lineForest] at hk
    have e1 : ∀ items : List (LineId × List Item), Props.itemText (items.flatMap fun l => .lineSeg l.1 :: l.2) =
        Props.itemText (items.flatMap (·.2)) := by
      intro items
      induction items with
      | nil => rfl
      | cons l ls ih => simp only [Props.itemText, List.flatMap_cons, List.flatMap_append] at ih ⊢; simp [ih]
    have e2 : ∀ items : List (LineId × List Item), Props.itemCtrls (items.flatMap fun l => .lineSeg l.1 :: l.2) =
        Props.itemCtrls (items.flatMap (·.2)) := by
      intro items
      induction items with
      | nil => rfl
      | cons l ls ih => simp only [Props.itemCtrls, List.flatMap_cons, List.flatMap_append] at ih ⊢; simp [ih]
    rw [e1, e2] at hk
    exact hk

theorem lineForest_roots (items : List (LineId × List Item)) :
    (lineForest items).roots = items.map fun l => .lineSeg l.1 := by
  induction items with
  | nil => rfl
  | cons l ls ih => simp [lineForest, Forest.roots, ih]

theorem leaves_roots (l : List Item) : (leaves l).roots = l := by
  induction l with
  | nil => rfl
  | cons a l ih => simp [leaves, Forest.roots, ih]

theorem IsPiece.kind {a : Item} (h : IsPiece a) : a.isText ∨ a.isControlChar := by
  rcases h with ⟨s, sh, rfl⟩ | ⟨c, k, sh, -, rfl⟩
  · exact .inl rfl
  · exact .inr rfl

theorem leaves_plain (l : List Item) (h : ∀ a ∈ l, IsPiece a) : PlainLine (leaves l) := by
  induction l with
  | nil => trivial
  | cons a l ih => exact ⟨(h a (by simp)).kind, rfl, ih (fun b hb => h b (by simp [hb]))⟩

theorem lineAnchors_leaves (l : List Item) : lineAnchors (leaves l) = (l.filter isAnchor).length := by
  induction l with
  | nil => rfl
  | cons a l ih =>
    simp only [leaves, lineAnchors, ih, List.filter_cons]
    split <;> simp; omega

theorem anchorCount_lineForest (items : List (LineId × List Item)) :
    anchorCount (lineForest items) = ((items.flatMap (·.2)).filter isAnchor).length := by
  induction items with
  | nil => rfl
  | cons l ls ih =>
    simp [lineForest, anchorCount, Item.isLineSeg, lineAnchors_leaves, ih]

theorem anchors_pieces (l : List Item) (h : ∀ a ∈ l, IsPiece a) :
    (l.filter isAnchor).length = ((Props.itemCtrls l).filter fun c => kindOf c == some .extended).length := by
  induction l with
  | nil => rfl
  | cons a l ih =>
    have ih := ih (fun b hb => h b (by simp [hb]))
    rcases h a (by simp) with ⟨s, sh, rfl⟩ | ⟨c, k, sh, hk, rfl⟩
    · simp only [List.filter_cons, isAnchor, Props.itemCtrls, List.flatMap_cons, List.nil_append] at ih ⊢
      simpa using ih
    · simp only [Props.itemCtrls, List.flatMap_cons] at ih ⊢
      cases k <;> simp [List.filter_cons, isAnchor, hk, ih]

theorem anchorCount_linesOf (kids : List Item) (L : Forest Item) (h : LinesOf kids L) :
    anchorCount L = anchorsIn kids := by
  obtain ⟨items, rfl, h1, -, h3⟩ := linesOf_items kids L h
  rw [anchorCount_lineForest, anchors_pieces, h3]
  · simp [anchorsIn, List.filter_map, Function.comp_def]
  · intro a ha
    obtain ⟨l, hl, ha⟩ := List.mem_flatMap.1 ha
    exact h1 l hl a ha

theorem topControls_append (f g : Forest Item) : topControls (f.append g) = topControls f ++ topControls g := by
  induction f with
  | nil => rfl
  | node a cs sibs _ ih => simp only [Forest.append, topControls, ih]; split <;> simp

theorem withoutControls_append (f g : Forest Item) :
    withoutControls (f.append g) = (withoutControls f).append (withoutControls g) := by
  induction f with
  | nil => rfl
  | node a cs sibs _ ih => simp only [Forest.append, withoutControls, ih]; split <;> simp [Forest.append]

theorem anchorCount_append (f g : Forest Item) : anchorCount (f.append g) = anchorCount f + anchorCount g := by
  induction f with
  | nil => simp [Forest.append, anchorCount]
  | node a cs sibs _ ih => simp only [Forest.append, anchorCount, ih]; omega

theorem inlined_append (f g : Forest Item) : inlined (f.append g) = (inlined f).append (inlined g) := by
  induction f with
  | nil => rfl
  | node a cs sibs _ ih => simp only [Forest.append, inlined, ih]; split <;> simp [Forest.append]

theorem topControls_length (f : Forest Item) : (topControls f).length = (f.roots.filter Item.isControl).length := by
  induction f with
  | nil => rfl
  | node a cs sibs _ ih =>
    simp only [topControls, Forest.roots, List.filter_cons]
    split <;> simp [ih]

theorem topControls_lineForest (items : List (LineId × List Item)) : topControls (lineForest items) = [] := by
  induction items with
  | nil => rfl
  | cons l ls ih => simp [lineForest, topControls, Item.isControl, ih]

theorem withoutControls_lineForest (items : List (LineId × List Item)) :
    withoutControls (lineForest items) = lineForest items := by
  induction items with
  | nil => rfl
  | cons l ls ih => simp [lineForest, withoutControls, Item.isControl, ih]

theorem leaves_inlined (l : List Item) (h : ∀ a ∈ l, IsPiece a) : inlined (leaves l) = leaves l :=
  plainLine_inlined _ (leaves_plain l h)

theorem lineForest_inlined (items : List (LineId × List Item)) (h : ∀ l ∈ items, ∀ a ∈ l.2, IsPiece a) :
    inlined (lineForest items) = lineForest items := by
  induction items with
  | nil => rfl
  | cons l ls ih =>
    simp [lineForest, inlined, Item.isParagraph, leaves_inlined l.2 (h l (by simp)),
      ih (fun l hl => h l (by simp [hl]))]

/-! ### After the text pass -/

theorem texted_roots {f f' : Forest Item} (h : Texted f f') :
    f'.roots = f.roots.filter fun a => !isTextRecord a := by
  induction h with
  | nil => rfl
  | record ht _ ih => simp [Forest.roots, ht, ih]
  | @paragraph a _ _ _ _ _ hp _ _ _ _ ih =>
    have : isTextRecord a = false := by cases a <;> simp_all [Item.isParagraph, isTextRecord]
    simp [Forest.roots, ih, this]
  | other ht _ _ _ _ ih => simp [Forest.roots, ih, ht]

theorem filter_texted_controls (l : List Item) :
    (l.filter fun a => !isTextRecord a).filter Item.isControl = l.filter Item.isControl := by
  rw [List.filter_filter]
  apply List.filter_congr
  intro a _
  cases a <;> rfl

/-- Made neither by the passes nor a text record. -/
theorem anchorCount_noLines (f : Forest Item) (h : ∀ a ∈ f.roots, a.isLineSeg = false) : anchorCount f = 0 := by
  induction f with
  | nil => rfl
  | node a cs sibs _ ih =>
    simp only [anchorCount, h a (by simp [Forest.roots]), ih (fun b hb => h b (by simp [Forest.roots, hb]))]
    rfl

theorem inlineOk_append_lines (items : List (LineId × List Item)) (h : ∀ l ∈ items, ∀ a ∈ l.2, IsPiece a) :
    InlineOk true (lineForest items) := by
  induction items with
  | nil => trivial
  | cons l ls ih =>
    simp only [lineForest, InlineOk, Item.isParagraph, Item.isControl, Item.isLineSeg, Bool.false_eq_true, if_false, if_true]
    refine ⟨trivial, leaves_plain _ (h l (by simp)), ?_, ih (fun l hl => h l (by simp [hl]))⟩
    rw [lineForest_roots]
    intro b hb
    obtain ⟨x, -, rfl⟩ := List.mem_map.1 hb
    rfl

theorem inlineOk_append (b : Bool) (f g : Forest Item) (h1 : InlineOk b f) (h2 : InlineOk b g)
    (hn : ∀ a ∈ f.roots, a.isLineSeg = false) : InlineOk b (f.append g) := by
  induction f with
  | nil => exact h2
  | node a cs sibs _ ih =>
    have hn' : ∀ x ∈ sibs.roots, x.isLineSeg = false := fun x hx => hn x (by simp [Forest.roots, hx])
    have ha := hn a (by simp [Forest.roots])
    simp only [Forest.append, InlineOk] at h1 ⊢
    split
    · rename_i hp; rw [if_pos hp] at h1; exact ⟨h1.1, h1.2.1, ih h1.2.2 hn'⟩
    · rename_i hp; rw [if_neg hp] at h1
      split
      · rename_i hc; rw [if_pos hc] at h1; exact ⟨h1.1, h1.2.1, ih h1.2.2 hn'⟩
      · rename_i hc
        rw [if_neg hc] at h1
        simp only [ha, Bool.false_eq_true, if_false] at h1 ⊢
        exact ⟨h1.1, h1.2.1, ih h1.2.2 hn'⟩

theorem everywhere_roots {R : Item → List Item → Prop} {P : Item → Prop} (h : ∀ a l, R a l → P a) (f : Forest Item)
    (hf : Everywhere R f) : ∀ a ∈ f.roots, P a := by
  induction f with
  | nil => simp [Forest.roots]
  | node a cs sibs _ ih =>
    intro b hb
    rcases List.mem_cons.1 hb with rfl | hb
    · exact h _ _ hf.1
    · exact ih hf.2.2 b hb

theorem nodeOk_noLines (f f' : Forest Item) (h : Texted f f') (hf : Everywhere NodeOk f) :
    ∀ a ∈ f'.roots, a.isLineSeg = false ∧ madeByPasses a = false := by
  intro a ha
  rw [texted_roots h] at ha
  have ha := (List.mem_filter.1 ha).1
  have := everywhere_roots (P := fun a => madeByPasses a = false) (fun a l h => h.1) f hf a ha
  exact ⟨by cases a <;> simp_all [madeByPasses, Item.isLineSeg], this⟩

theorem texted_inlineOk {f f' : Forest Item} (h : Texted f f') : Everywhere NodeOk f →
    ∀ inPara : Bool, (inPara = false → ∀ a ∈ f.roots, a.isControl = false) → InlineOk inPara f' := by
  induction h with
  | nil => intro _ _ _; trivial
  | record ht _ ih =>
    intro hf b hb
    exact ih hf.2.2 b (fun h a ha => hb h a (by simp [Forest.roots, ha]))
  | @paragraph a cs cs' L sibs sibs' hp ht hL hs ih1 ih2 =>
    intro hf b hb
    obtain ⟨⟨h1, h2, h3⟩, h4, h5⟩ := hf
    rw [if_pos hp] at h3
    obtain ⟨items, rfl, hi, -, -⟩ := linesOf_items _ _ hL
    simp only [InlineOk, hp, if_true]
    refine ⟨?_, ?_, ih2 h5 b (fun h a ha => hb h a (by simp [Forest.roots, ha]))⟩
    · exact inlineOk_append _ _ _ (ih1 h4 true (by simp)) (inlineOk_append_lines items hi)
        (fun a ha => (nodeOk_noLines _ _ ht h4 a ha).1)
    · rw [anchorCount_append, anchorCount_noLines _ (fun a ha => (nodeOk_noLines _ _ ht h4 a ha).1),
        anchorCount_linesOf _ _ hL, topControls_append, topControls_lineForest, List.append_nil,
        topControls_length, texted_roots ht, filter_texted_controls]
      rw [Nat.zero_add]
      exact h3.2.2
  | @other a cs cs' sibs sibs' ht hp hc hs ih1 ih2 =>
    intro hf b hb
    obtain ⟨⟨h1, h2, h3⟩, h4, h5⟩ := hf
    simp only [hp, Bool.false_eq_true, if_false] at h3
    have i1 := ih1 h4 false (fun _ a ha => (h3.1 a ha).2)
    have i2 := ih2 h5 b (fun h a ha => hb h a (by simp [Forest.roots, ha]))
    have hl : a.isLineSeg = false := by cases a <;> simp_all [madeByPasses, Item.isLineSeg]
    have hcc : a.isControlChar = false := by cases a <;> simp_all [madeByPasses, Item.isControlChar]
    simp only [InlineOk, hp, hl, Bool.false_eq_true, if_false]
    split
    · rename_i hctl
      refine ⟨?_, i1, i2⟩
      cases b with
      | true => rfl
      | false => have := hb rfl a (by simp [Forest.roots]); simp [hctl] at this
    · exact ⟨hcc, i1, i2⟩

/-! ### Fields in the skeleton -/

theorem fieldRun_append (b : Bool) (f g : Forest Item) : ∀ S,
    fieldRun b S (f.append g) = (fieldRun b S f).bind fun S' => fieldRun b S' g := by
  induction f with
  | nil => intro S; simp [Forest.append, fieldRun]
  | node a cs sibs _ ih =>
    intro S
    simp only [Forest.append, fieldRun]
    split
    · split
      · exact ih _
      · rfl
    · split
      · split
        · exact ih _
        · rfl
      · cases fieldRun a.isLineSeg S cs with
        | none => rfl
        | some S' =>
          simp only
          split
          · rfl
          · exact ih _

theorem placeIn_append (f g : Forest Item) : ∀ q,
    placeIn q (f.append g) = ((placeIn q f).1.append (placeIn (placeIn q f).2 g).1, (placeIn (placeIn q f).2 g).2) := by
  induction f with
  | nil => intro q; simp [Forest.append, placeIn]
  | node a cs sibs _ ih =>
    intro q
    by_cases ha : isAnchor a
    · cases q with
      | nil => simp only [Forest.append, placeIn, ha, ih]
      | cons t q =>
        obtain ⟨c, k⟩ := t
        simp only [Forest.append, placeIn, ha, ih]
    · simp only [Bool.not_eq_true] at ha
      simp only [Forest.append]
      rw [placeIn_other _ _ _ _ ha, placeIn_other _ _ _ _ ha, ih]
      rfl

theorem leaves_append (l m : List Item) : leaves (l ++ m) = (leaves l).append (leaves m) := by
  induction l with
  | nil => rfl
  | cons a l ih => simp [leaves, Forest.append, ih]

/-- The fields of lines are those of their contents in a row. -/
theorem fieldRun_lines (items : List (LineId × List Item)) : ∀ q S,
    fieldRun false S (placeLines q (lineForest items)).1 =
      fieldRun true S (placeIn q (leaves (items.flatMap (·.2)))).1 := by
  induction items with
  | nil => intro q S; rfl
  | cons l ls ih =>
    intro q S
    simp only [lineForest, placeLines, Item.isLineSeg, if_true, List.flatMap_cons, leaves_append]
    rw [placeIn_append, fieldRun_append]
    simp only [fieldRun, Item.isField, Item.isFieldEnd, Item.isLineSeg, Bool.false_eq_true, if_false, false_and]
    cases fieldRun true S (placeIn q (leaves l.2)).1 with
    | none => rfl
    | some S' => simp only [Option.bind_some]; exact ih _ _

/-- The same elements with the same effect on fields. -/
inductive FEq : Forest Item → Forest Item → Prop
  | nil : FEq .nil .nil
  | node {a k k' s s'} : a.isLineSeg = false → a.isFieldEnd = false → (∀ S, fieldRun false S k = fieldRun false S k') →
      FEq s s' → FEq (.node a k s) (.node a k' s')

theorem FEq.run {f g : Forest Item} (h : FEq f g) : ∀ b S, fieldRun b S f = fieldRun b S g := by
  induction h with
  | nil => intro _ _; rfl
  | node h1 h2 h3 _ ih =>
    intro b S
    simp only [fieldRun, h1, h2, h3, ih, Bool.false_eq_true, if_false]

theorem FEq.withoutControls {f g : Forest Item} (h : FEq f g) : FEq (withoutControls f) (withoutControls g) := by
  induction h with
  | nil => exact .nil
  | @node a k k' s s' h1 h2 h3 _ ih =>
    simp only [Spec.withoutControls]
    split
    · exact ih
    · exact .node h1 h2 h3 ih

/-- Controls with the same effect on fields. -/
inductive QEq : List (Item × Forest Item) → List (Item × Forest Item) → Prop
  | nil : QEq [] []
  | cons {t t' q q'} : t.1 = t'.1 ∧ t.1.isControl ∧ (∀ S, fieldRun false S t.2 = fieldRun false S t'.2) →
      QEq q q' → QEq (t :: q) (t' :: q')

theorem FEq.topControls {f g : Forest Item} (h : FEq f g) : QEq (topControls f) (topControls g) := by
  induction h with
  | nil => exact .nil
  | @node a k k' s s' h1 h2 h3 _ ih =>
    simp only [Spec.topControls]
    split
    · rename_i hc; exact .cons ⟨rfl, hc, h3⟩ ih
    · exact ih

theorem placeLines_append_noLines (f g : Forest Item) (q) (h : ∀ a ∈ f.roots, a.isLineSeg = false) :
    (placeLines q (f.append g)).1 = f.append (placeLines q g).1 := by
  induction f with
  | nil => rfl
  | node a cs sibs _ ih =>
    have ha := h a (by simp [Forest.roots])
    simp only [Forest.append, placeLines, ha, Bool.false_eq_true, if_false, ih (fun b hb => h b (by simp [Forest.roots, hb]))]

theorem FEq.noLines {f g : Forest Item} (h : FEq f g) :
    (∀ a ∈ f.roots, a.isLineSeg = false) ∧ ∀ a ∈ g.roots, a.isLineSeg = false := by
  induction h with
  | nil => simp [Forest.roots]
  | node h1 _ _ _ ih => simp [Forest.roots, h1]; exact ih

/-- In a line only the control characters matter for fields. -/
theorem fieldRun_placeIn (l : List Item) (hl : ∀ a ∈ l, IsPiece a) : ∀ q q' S, QEq q q' →
    fieldRun true S (placeIn q (leaves l)).1 = fieldRun true S (placeIn q' (leaves
      ((Props.itemCtrls l).map fun c => .controlChar c ((kindOf c).getD .char) 0))).1 := by
  induction l with
  | nil => intro q q' S _; rfl
  | cons a l ih =>
    have ih := ih (fun b hb => hl b (by simp [hb]))
    intro q q' S hq
    rcases hl a (by simp) with ⟨s, sh, rfl⟩ | ⟨c, k, sh, hk, rfl⟩
    · have e : Props.itemCtrls (Item.text s sh none :: l) = Props.itemCtrls l := by simp [Props.itemCtrls]
      rw [e, ← ih q q' S hq]
      simp only [leaves]
      rw [placeIn_other _ _ _ _ rfl]
      simp [fieldRun, Item.isField, Item.isFieldEnd, Item.isLineSeg]
    · have e : Props.itemCtrls (Item.controlChar c k sh :: l) = c :: Props.itemCtrls l := by simp [Props.itemCtrls]
      rw [e]
      simp only [leaves, List.map_cons, hk, Option.getD_some]
      have other : isAnchor (.controlChar c k sh) = false ∨ (q = [] ∧ q' = []) →
          fieldRun true S (.node (.controlChar c k sh) .nil (placeIn q (leaves l)).1) =
          fieldRun true S (.node (.controlChar c k 0) .nil (placeIn q' (leaves
            ((Props.itemCtrls l).map fun c => .controlChar c ((kindOf c).getD .char) 0))).1) := by
        intro _
        have hfe : ∀ x y, (Item.controlChar c k x).isFieldEnd = (Item.controlChar c k y).isFieldEnd := by
          intro x y
          simp only [Item.isFieldEnd]
          split <;> split <;> simp_all
        simp only [fieldRun, hfe sh 0]
        simp only [Item.isField, Item.isLineSeg, Bool.false_eq_true, if_false]
        split
        · simp [ih _ _ _ hq]
        · simp [ih _ _ _ hq]
      by_cases ha : isAnchor (.controlChar c k sh)
      · have ha' : isAnchor (.controlChar c k 0) = true := by cases k <;> simp_all [isAnchor]
        cases hq with
        | nil =>
          have := other (.inr ⟨rfl, rfl⟩)
          simpa [placeIn, ha, ha'] using this
        | @cons t t' q q' ht hq =>
          obtain ⟨c1, k1⟩ := t
          obtain ⟨c2, k2⟩ := t'
          obtain ⟨rfl, hctl, hk'⟩ := ht
          rw [placeIn_anchor _ _ _ _ _ _ ha, placeIn_anchor _ _ _ _ _ _ ha']
          dsimp only at hk' hctl
          have hls := (Item.control_ne hctl)
          have hl' : c1.isLineSeg = false := by cases c1 <;> simp_all [Item.isControl, Item.isLineSeg]
          have hfe : c1.isFieldEnd = false := by cases c1 <;> simp_all [Item.isControl, Item.isFieldEnd]
          simp only [fieldRun, hl', hfe, hk', Bool.false_eq_true, if_false, ih _ _ _ hq]
      · simp only [Bool.not_eq_true] at ha
        have ha' : isAnchor (.controlChar c k 0) = false := by cases k <;> simp_all [isAnchor]
        rw [placeIn_other _ _ _ _ ha, placeIn_other _ _ _ _ ha']
        exact other (.inl ha)

theorem ctrlLeaves_pieces (kids : List Item) (h : ∀ d ∈ ctrlsOf (paraRanges kids), kindOf d.code ≠ none) :
    ∀ a ∈ ctrlLeaves kids, IsPiece a := by
  intro a ha
  obtain ⟨d, hd, rfl⟩ := List.mem_map.1 ha
  have := h d hd
  cases hk : kindOf d.code with
  | none => exact absurd hk this
  | some k => exact .inr ⟨d.code, k, 0, hk, by simp⟩

theorem texted_feq {f f' : Forest Item} (h : Texted f f') : Everywhere NodeOk f →
    FEq (inlined f') (inlined (fieldSkeleton f)) := by
  induction h with
  | nil => intro _; exact .nil
  | record ht _ ih =>
    intro hf
    simp only [fieldSkeleton, ht, if_true]
    exact ih hf.2.2
  | @paragraph a cs cs' L sibs sibs' hp ht hL hs ih1 ih2 =>
    intro hf
    obtain ⟨⟨h1, h2, h3⟩, h4, h5⟩ := hf
    rw [if_pos hp] at h3
    have htr : isTextRecord a = false := by cases a <;> simp_all [Item.isParagraph, isTextRecord]
    obtain ⟨items, rfl, hi, -, hc⟩ := linesOf_items _ _ hL
    have i1 := ih1 h4
    simp only [fieldSkeleton, htr, hp, Bool.false_eq_true, if_false, if_true, inlined]
    refine .node ?_ ?_ ?_ (ih2 h5)
    · cases a <;> simp_all [Item.isParagraph, Item.isLineSeg]
    · cases a <;> simp_all [Item.isParagraph, Item.isFieldEnd]
    · intro S
      obtain ⟨sh, -, hsh⟩ := h3.2.1
      have hpc := ctrlLeaves_pieces cs.roots hsh.2.2.2.2.2.2.2.2
      have e0 : (.node (.lineSeg (none, 0)) (leaves (ctrlLeaves cs.roots)) .nil : Forest Item) =
          lineForest [((none, 0), ctrlLeaves cs.roots)] := rfl
      rw [e0]
      have hw := i1.withoutControls
      have hq := i1.topControls
      rw [inlined_append, inlined_append, lineForest_inlined items hi,
        lineForest_inlined [((none, 0), ctrlLeaves cs.roots)] (by simpa using hpc),
        topControls_append, topControls_append, topControls_lineForest, topControls_lineForest,
        withoutControls_append, withoutControls_append, withoutControls_lineForest, withoutControls_lineForest,
        List.append_nil, List.append_nil, placeLines_append_noLines _ _ _ hw.noLines.1,
        placeLines_append_noLines _ _ _ hw.noLines.2, fieldRun_append, fieldRun_append, hw.run]
      congr 1
      funext S'
      rw [fieldRun_lines, fieldRun_lines]
      rw [fieldRun_placeIn _ _ _ _ _ hq, hc]
      · simp [ctrlLeaves, Function.comp_def]
      · intro a ha
        obtain ⟨l, hl, ha⟩ := List.mem_flatMap.1 ha
        exact hi l hl a ha
  | @other a cs cs' sibs sibs' ht hp hc hs ih1 ih2 =>
    intro hf
    obtain ⟨⟨h1, h2, h3⟩, h4, h5⟩ := hf
    simp only [fieldSkeleton, ht, hp, Bool.false_eq_true, if_false, inlined]
    refine .node ?_ ?_ (fun S => (ih1 h4).run false S) (ih2 h5)
    · cases a <;> simp_all [madeByPasses, Item.isLineSeg]
    · cases a <;> simp_all [madeByPasses, Item.isFieldEnd]

theorem texted_fieldsPaired {f f' : Forest Item} (h : Texted f f') (hf : Everywhere NodeOk f)
    (hp : FieldsPaired (inlined (fieldSkeleton f))) : FieldsPaired (inlined f') := by
  unfold FieldsPaired at hp ⊢
  rw [(texted_feq h hf).run]
  exact hp

end Hwp
