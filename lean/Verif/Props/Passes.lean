/-
Properties C20-C26: the event passes of xmlmodel.py.
-/
import Verif.Proofs.Inline
namespace Hwp.Props
open Spec
set_option linter.unusedSimpArgs false

/-! ### C20 field matching -/

/-- A document in which a field is open around a table whose cell contains a stray
field end character. -/
private def strayEnd : Forest Item :=
  .node (.paragraph false 1)
    (.node (.lineSeg (some 9, 0))
      (.node (.field 0 7) .nil
        (.node (.tableControl 2)
          (.node (.paragraph false 3)
            (.node (.lineSeg (some 9, 0)) (.node (.controlChar 4 .inline 0) .nil .nil) .nil) .nil) .nil)) .nil) .nil

/-- The claim does not hold for all well nested streams: a field end character
inside a nested paragraph closes a field of the enclosing paragraph. -/
theorem C20_counterexample : WellNested (eventsOf strayEnd) ∧
    (matchFields (.ofList (eventsOf strayEnd))).err = none ∧
    ¬ WellNested (matchFields (.ofList (eventsOf strayEnd))).out := by
  decide +kernel

/-- Field matching keeps a stream well nested when fields start and end inside
lines and everything inside a line ends the fields it starts. -/
theorem C20_nested_partial (f : Forest Item) (h : FieldsPaired f) :
    WellNested (matchFields (.ofList (eventsOf f))).out ∧
      (matchFields (.ofList (eventsOf f))).err = none := by
  obtain ⟨S', hS⟩ := Option.isSome_iff_exists.1 h
  obtain ⟨out, e, n⟩ := matchFields_forest none f false [] S' [] hS
  simp only [Bool.false_eq_true, if_false] at n
  simp only [matchFields, Gen.ofList]
  rw [List.append_nil] at e
  rw [e]
  simp only [matchFieldsGo, Gen.prepend, and_true]
  exact n [] [] rfl

/-- Whatever the stream, field matching neither drops nor reorders any event of
an element that is not a field (or a field end character), and never raises. -/
theorem C20_keeps_other_events (es : List IEv) (err : Option PyErr) :
    (matchFields ⟨es, err⟩).out.filter notField = es.filter notField ∧ (matchFields ⟨es, err⟩).err = err :=
  ⟨matchFieldsGo_filter err es [] (by simp), matchFieldsGo_err err es []⟩

/-- A field spanning two lines, around a table with a field of its own. -/
private def spanning : Forest Item :=
  .node (.paragraph false 1)
    (.node (.lineSeg (some 9, 0))
      (.node (.text [65] 0 none) .nil
        (.node (.field 0 7) (.node (.other 3 3) .nil .nil)
          (.node (.tableControl 2)
            (.node (.paragraph false 3)
              (.node (.lineSeg (some 9, 0)) (.node (.field 1 8) .nil (.node (.controlChar 4 .inline 0) .nil .nil)) .nil)
              .nil) .nil)))
      (.node (.lineSeg (some 9, 1))
        (.node (.text [66] 0 none) .nil
          (.node (.controlChar 4 .inline 0) .nil (.node (.text [67] 0 none) .nil .nil))) .nil)) .nil

example : FieldsPaired spanning ∧ ¬ FieldsPaired strayEnd ∧
    (matchFields (.ofList (eventsOf spanning))).out =
      [.start (.paragraph false 1), .start (.lineSeg (some 9, 0)),
       .start (.text [65] 0 none), .stop (.text [65] 0 none),
       .start (.field 0 7), .start (.other 3 3), .stop (.other 3 3),
       .start (.tableControl 2), .start (.paragraph false 3), .start (.lineSeg (some 9, 0)), .start (.field 0 7),
       .start (.field 1 8), .stop (.field 1 8), .stop (.field 0 7), .stop (.lineSeg (some 9, 0)),
       .stop (.paragraph false 3), .stop (.tableControl 2), .stop (.field 0 7), .stop (.lineSeg (some 9, 0)),
       .start (.lineSeg (some 9, 1)), .start (.field 0 7), .start (.text [66] 0 none), .stop (.text [66] 0 none),
       .stop (.field 0 7), .start (.text [67] 0 none), .stop (.text [67] 0 none), .stop (.lineSeg (some 9, 1)),
       .stop (.paragraph false 1)] := by
  decide +kernel

/-! ### C21 list headers -/

/-- In a well nested stream without list headers at the top level every list
header gets exactly the paragraphs directly following it as siblings as further
children; the result is the event stream of that tree. -/
theorem C21_listheader (f : Forest Item) (h : ∀ a ∈ f.roots, a.isListHeader = false) :
    paragraphsToListHeader Item.isListHeader Item.isParagraph (.ofList (eventsOf f)) =
      .ofList (eventsOf (adopt Item.isListHeader Item.isParagraph f)) := by
  refine listHeader_top _ _ ?_ none f h
  intro a ha
  cases a <;> simp_all [Item.isListHeader, Item.isParagraph]

/-- The second use of the pass: cells into their table body. -/
theorem C21_tablebody (f : Forest Item) (h : ∀ a ∈ f.roots, a.isTableBody = false) :
    paragraphsToListHeader Item.isTableBody Item.isTableCell (.ofList (eventsOf f)) =
      .ofList (eventsOf (adopt Item.isTableBody Item.isTableCell f)) := by
  refine listHeader_top _ _ ?_ none f h
  intro a ha
  cases a <;> simp_all [Item.isTableBody, Item.isTableCell]

/-- All elements are kept, in the same order, and the result is well nested. -/
theorem C21_keeps_elements (isP isC : Item → Bool) (hd : ∀ a, isP a → isC a = false) (f : Forest Item)
    (h : ∀ a ∈ f.roots, isP a = false) :
    WellNested (paragraphsToListHeader isP isC (.ofList (eventsOf f))).out ∧
      starts (paragraphsToListHeader isP isC (.ofList (eventsOf f))).out = starts (eventsOf f) := by
  simp only [paragraphsToListHeader, Gen.ofList]
  rw [listHeader_top isP isC hd none f h]
  exact ⟨wellNested_eventsOf _, adopt_starts isP isC _ f (Nat.le_refl _)⟩

/-- A list header at the top level is never closed. -/
theorem C21_toplevel_unclosed : ¬ WellNested (paragraphsToListHeader Item.isListHeader Item.isParagraph
    (.ofList (eventsOf (.node (.listHeader 0 1) .nil (.node (.paragraph false 2) .nil .nil))))).out := by
  decide +kernel

example : (paragraphsToListHeader Item.isListHeader Item.isParagraph (.ofList (eventsOf
    (.node (.tableControl 1)
      (.node (.listHeader 0 2) (.node (.other 0 3) .nil .nil)
        (.node (.paragraph false 4) .nil (.node (.paragraph true 5) .nil
          (.node (.tableBody (some [1]) 6) .nil (.node (.tableCell 7) .nil (.node (.paragraph false 8) .nil .nil))))))
      .nil)))).out = eventsOf
    (.node (.tableControl 1)
      (.node (.listHeader 0 2) (.node (.other 0 3) .nil (.node (.paragraph false 4) .nil
          (.node (.paragraph true 5) .nil .nil)))
        (.node (.tableBody (some [1]) 6) .nil
          (.node (.tableCell 7) (.node (.paragraph false 8) .nil .nil) .nil))) .nil) := by
  decide +kernel

/-! ### C22 table rows -/

/-- Restructuring puts the cells of every table body into rows of exactly the
declared widths, also in tables inside cells, when each body consists of as many
cells as declared and no row is declared empty. -/
theorem C22_rows_partial (f f' : Forest Item) (h : rowed false f = some f') :
    restructureTablebody (.ofList (eventsOf f)) = .ofList (eventsOf f') := by
  have := (tableBody_forest none f [] [] f').1 h
  simp only [restructureTablebody, Gen.ofList]
  rw [List.append_nil] at this
  rw [this]
  simp [tableBodyGo, Gen.prepend]

/-- Row `i` of a grouped body has exactly `ws[i]` cells, and the rows together are
the cells in order. -/
theorem C22_row_sizes (ws : List Nat) : ∀ (cells : Forest Item), cells.roots.length = ws.sum →
    ∃ rows : List (Forest Item), rows.map (·.roots.length) = ws ∧
      eventsOf (groupRows ws cells) = rows.flatMap (fun r => eventsOf (.node .tableRow r .nil)) ∧
      rows.flatMap eventsOf = eventsOf cells := by
  induction ws with
  | nil =>
    intro cells h
    refine ⟨[], rfl, rfl, ?_⟩
    cases cells with
    | nil => rfl
    | node a cs sibs => simp [Forest.roots] at h
  | cons w ws ih =>
    intro cells h
    simp only [List.sum_cons] at h
    have hd : (cells.drop w).roots.length = ws.sum := by simp [Forest.roots_drop]; omega
    obtain ⟨rows, h1, h2, h3⟩ := ih (cells.drop w) hd
    have key : ∀ (n : Nat) (g : Forest Item), n ≤ g.roots.length → (g.take n).roots.length = n ∧
        eventsOf (g.take n) ++ eventsOf (g.drop n) = eventsOf g := by
      intro n
      induction n with
      | zero => intro g _; simp [Forest.take, Forest.drop, Forest.roots, eventsOf]
      | succ n ih =>
        intro g hg
        cases g with
        | nil => simp [Forest.roots] at hg
        | node a cs sibs =>
          simp only [Forest.roots, List.length_cons, Nat.add_le_add_iff_right] at hg
          obtain ⟨k1, k2⟩ := ih sibs hg
          simp [Forest.take, Forest.drop, Forest.roots, eventsOf, k1, k2]
    obtain ⟨k1, k2⟩ := key w cells (by omega)
    refine ⟨cells.take w :: rows, by simp [k1, h1], ?_, ?_⟩
    · simp [groupRows, eventsOf, h2]
    · simp [h3, k2]

/-- Each row has at least one cell in the code: a declared empty row consumes two
cells, so with as many cells as declared the restructuring fails. -/
theorem C22_zero_width_counterexample :
    (restructureTablebody (.ofList (eventsOf (.node (.tableBody (some [0, 1]) 1)
      (.node (.tableCell 2) .nil .nil) .nil)))) =
    .ofList [.start (.tableBody none 1), .start .tableRow, .start (.tableCell 2), .stop (.tableCell 2),
      .stop (.tableBody none 1)] := by
  decide +kernel

/-- More cells than declared are an `IndexError`. -/
theorem C22_extra_cell :
    (restructureTablebody (.ofList (eventsOf (.node (.tableBody (some [1]) 1)
      (.node (.tableCell 2) .nil (.node (.tableCell 3) .nil .nil)) .nil)))).err = some .indexError := by
  decide +kernel

example : rowed false (.node (.tableBody (some [1, 3]) 1)
    (.node (.tableCell 2) .nil (.node (.tableCell 3) (.node (.tableBody (some [2]) 9)
      (.node (.tableCell 10) .nil (.node (.tableCell 11) .nil .nil)) .nil)
      (.node (.tableCell 4) .nil (.node (.tableCell 5) .nil .nil)))) .nil) = some
    (.node (.tableBody none 1)
      (.node .tableRow (.node (.tableCell 2) .nil .nil)
        (.node .tableRow (.node (.tableCell 3) (.node (.tableBody none 9)
          (.node .tableRow (.node (.tableCell 10) .nil (.node (.tableCell 11) .nil .nil)) .nil) .nil)
          (.node (.tableCell 4) .nil (.node (.tableCell 5) .nil .nil))) .nil)) .nil) := by
  decide +kernel

/-! ### C23 inline controls -/

/-- In every paragraph, at any depth, the `n`-th extended control character is
replaced by the `n`-th control of the paragraph (with its contents treated the
same way), when paragraphs have as many of one as of the other. -/
theorem C23_inline (f : Forest Item) (h : InlineOk false f) :
    makeExtendedControlsInline (.ofList (eventsOf f)) = .ofList (eventsOf (inlined f)) := by
  have := (inline_forest f).1 h none [] []
  simp only [makeExtendedControlsInline, Gen.ofList]
  rw [List.append_nil] at this
  rw [this]
  simp [inlineGo_nil, Gen.prepend]

/-- No control (or anything else) is lost or duplicated: apart from the replaced
characters the elements are the same. -/
theorem C23_no_loss (f : Forest Item) (h : InlineOk false f) :
    (starts (makeExtendedControlsInline (.ofList (eventsOf f))).out).Perm
      ((starts (eventsOf f)).filter fun a => !isAnchor a) := by
  rw [C23_inline f h]
  simp only [Gen.ofList, starts_eventsOf]
  exact (inlined_perm f).1 h

/-- An extended control character without a control is an error. -/
theorem C23_missing_control :
    (makeExtendedControlsInline (.ofList (eventsOf (.node (.paragraph false 1)
      (.node (.lineSeg (some 9, 0)) (.node (.controlChar 11 .extended 0) .nil .nil) .nil) .nil)))).err =
      some .attributeError := by
  simp [makeExtendedControlsInline, Gen.ofList, eventsOf, inlineGo, Item.isControl, Gen.cons, Gen.raise]

/-- A paragraph with a table containing a paragraph with a field, and a second
control. -/
private def withControls : Forest Item :=
  .node (.paragraph false 1)
    (.node (.tableControl 2)
      (.node (.listHeader 0 3) .nil (.node (.paragraph false 4)
        (.node (.field 0 5) .nil
          (.node (.lineSeg (some 9, 0)) (.node (.controlChar 3 .extended 0) .nil (.node (.text [65] 0 none) .nil .nil)) .nil))
        .nil))
      (.node (.control 0 6) .nil
        (.node (.lineSeg (some 9, 0)) (.node (.text [66] 0 none) .nil (.node (.controlChar 11 .extended 0) .nil .nil))
          (.node (.lineSeg (some 9, 1)) (.node (.controlChar 10 .char 0) .nil (.node (.controlChar 15 .extended 0) .nil .nil))
            .nil)))) .nil

example : InlineOk false withControls ∧ inlined withControls =
    .node (.paragraph false 1)
      (.node (.lineSeg (some 9, 0)) (.node (.text [66] 0 none) .nil
          (.node (.tableControl 2) (.node (.listHeader 0 3) .nil (.node (.paragraph false 4)
            (.node (.lineSeg (some 9, 0)) (.node (.field 0 5) .nil (.node (.text [65] 0 none) .nil .nil)) .nil) .nil)) .nil))
        (.node (.lineSeg (some 9, 1)) (.node (.controlChar 10 .char 0) .nil (.node (.control 0 6) .nil .nil)) .nil)) .nil := by
  refine ⟨?_, by decide +kernel⟩
  simp [withControls, InlineOk, Item.isParagraph, Item.isControl, Item.isLineSeg, Item.isControlChar, PlainLine,
    Item.isText, Forest.roots, anchorCount, lineAnchors, topControls, isAnchor]

/-! ### C24 section wrapping -/

/-- The first section definition is taken out of the stream; the result is one
element for it whose children are its own children followed by everything else
in order. -/
theorem C24_wrap (sectId : Option Nat) (f f' cs : Forest Item) (a : Item)
    (h : extractSection f = some ((a, cs), f')) :
    wrapSection sectId (.ofList (eventsOf f)) =
      .ofList ((eventsOf (.node (setSectId sectId a) (cs.append f') .nil)).map Ev.some) :=
  wrapSection_forest sectId f f' a cs h

/-- What `extractSection` means: the events are those of the rest with the section
definition's subtree put back, and it is the first one. -/
theorem C24_extract (f f' cs : Forest Item) (a : Item) (h : extractSection f = some ((a, cs), f')) :
    a.isSectionDef ∧ ∃ pre post, eventsOf f = pre ++ .start a :: (eventsOf cs ++ .stop a :: post) ∧
      eventsOf f' = pre ++ post ∧ ∀ b, Ev.start b ∈ pre → b.isSectionDef = false :=
  extractSection_some f a cs f' h

/-- A section definition that occurs is found. -/
theorem C24_found (f : Forest Item) (h : ∃ a ∈ starts (eventsOf f), a.isSectionDef) :
    (extractSection f).isSome := by
  cases hx : extractSection f with
  | some _ => rfl
  | none =>
    obtain ⟨a, ha, hs⟩ := h
    have : Ev.start a ∈ eventsOf f := by
      have : ∀ es : List IEv, a ∈ starts es → Ev.start a ∈ es := by
        intro es
        induction es with
        | nil => simp [starts]
        | cons e es ih =>
          cases e with
          | start b =>
            simp only [starts, List.mem_cons, Ev.start.injEq]
            rintro (rfl | h)
            · exact Or.inl rfl
            · exact Or.inr (ih h)
          | stop b =>
            simp only [starts, List.mem_cons, reduceCtorEq, false_or]
            exact ih
      exact this _ ha
    have := extractSection_none f hx a this
    simp [this] at hs

/-- The element around the section is the section definition itself with the section id it
is given; without one, with the section id it had. -/
theorem C24_section_id (i : Nat) (f f' cs : Forest Item) (a : Item)
    (h : extractSection f = some ((a, cs), f')) :
    ∃ s t, a = .sectionDef s t ∧
      wrapSection (some i) (.ofList (eventsOf f)) =
        .ofList ((eventsOf (.node (.sectionDef (some i) t) (cs.append f') .nil)).map Ev.some) ∧
      wrapSection none (.ofList (eventsOf f)) =
        .ofList ((eventsOf (.node (.sectionDef s t) (cs.append f') .nil)).map Ev.some) := by
  have ha := (C24_extract f f' cs a h).1
  have h1 := C24_wrap (some i) f f' cs a h
  have h2 := C24_wrap none f f' cs a h
  cases a with
  | sectionDef s t => exact ⟨s, t, rfl, h1, h2⟩
  | _ => simp [Item.isSectionDef] at ha

/-- Without a section definition all events are lost and the only event is the end
of `None`. -/
theorem C24_no_section_definition (sectId : Option Nat) (es : List IEv)
    (h : ∀ a, Ev.start a ∈ es → a.isSectionDef = false) :
    wrapSection sectId (.ofList es) = .ofList [.stop none] := by
  simp only [wrapSection, Gen.ofList]
  rw [wrapSectionGo_none sectId none es [] h]
  rfl

example : (wrapSection (some 3) (.ofList (eventsOf
    (.node (.paragraph false 1)
      (.node (.lineSeg (some 9, 0)) (.node (.sectionDef none 5) (.node (.other 0 6) .nil .nil) (.node (.text [65] 0 none) .nil .nil))
        .nil) (.node (.paragraph false 2) .nil .nil))))) = .ofList ((eventsOf
    (.node (.sectionDef (some 3) 5) (.node (.other 0 6) .nil
      (.node (.paragraph false 1) (.node (.lineSeg (some 9, 0)) (.node (.text [65] 0 none) .nil .nil) .nil)
        (.node (.paragraph false 2) .nil .nil))) .nil)).map Ev.some) := by
  decide +kernel

/-! ### C25 column sets -/

/-- Inside one element (the section), the result is the event stream of the tree
in which each paragraph that starts a column set is put, with its siblings up to
the next such paragraph, into a column set; when no such paragraph is a direct
child of a paragraph. -/
theorem C25_columns_partial (root : Item) (f : Forest Item) (hr : root.isParagraph = false)
    (hc : root ≠ .columnSet) (h : ColumnsOk f) :
    wrapColumns (.ofList ((eventsOf (.node root f .nil)).map Ev.some)) =
      .ofList (eventsOf (.node root (columned f) .nil)) := by
  have := (wrapColumns_forest none f h).2 root [] [] hr hc
  simp only [wrapColumns, Gen.ofList, eventsOf, List.map_cons, List.map_append, Ev.some, List.map_nil]
  have hst : ∀ es', wrapColumnsGo none [] (.start (some root) :: es') =
      .cons (.start root) (wrapColumnsGo none [root] es') := by
    intro es'
    cases root <;> first | rfl | simp [Item.isParagraph] at hr
  rw [hst, this.1]
  simp [wrapColumnsGo, Gen.cons, Gen.prepend]

/-- Column set events are the only events added: whenever the pass does not fail,
the other events are kept in order, also for streams that are not well nested. -/
theorem C25_keeps_events (es : List IEv) (h : ∀ e ∈ es, e.item ≠ .columnSet) :
    ∀ st, (wrapColumnsGo none st (es.map Ev.some)).err = none →
    (wrapColumnsGo none st (es.map Ev.some)).out.filter (fun e => decide (e.item ≠ .columnSet)) = es := by
  induction es with
  | nil => intro st _; rfl
  | cons e es ih =>
    have ih := ih (fun e he => h e (by simp [he]))
    have he := h e (by simp)
    intro st herr
    cases e with
    | start a =>
      simp only [List.map_cons, Ev.some] at herr ⊢
      simp only [Ev.item] at he
      generalize hes : es.map Ev.some = es' at *
      rw [wrapColumnsGo.eq_def] at herr ⊢
      split at herr <;> simp_all [Ev.item]
      · split at herr
        · split at herr <;> simp_all [Gen.raise, Gen.prepend, Ev.item]
        · simp_all [Gen.cons, Ev.item]
      · simp_all [Gen.cons, Ev.item]
    | stop a =>
      simp only [List.map_cons, Ev.some] at herr ⊢
      simp only [Ev.item] at he
      generalize hes : es.map Ev.some = es' at *
      rw [wrapColumnsGo.eq_def] at herr ⊢
      split at herr <;> simp_all [Ev.item]
      · simp_all [Gen.cons, Ev.item]
      · split at herr
        · simp_all [Gen.raise]
        · split at herr
          · simp_all [Gen.cons, Ev.item]
          · split at herr
            · split at herr
              · simp_all
              · simp_all [Gen.prepend, Ev.item]
            · simp_all [Gen.raise]

/-- A paragraph starting a column set inside a paragraph breaks the nesting. -/
theorem C25_counterexample : ¬ WellNested (wrapColumns (.ofList ((eventsOf
    (.node (.sectionDef none 0) (.node (.paragraph true 1) (.node (.paragraph true 2) .nil .nil) .nil)
      .nil)).map Ev.some))).out := by
  decide +kernel

/-- At the top level, outside any element, such a paragraph is an `IndexError`. -/
theorem C25_toplevel : (wrapColumns (.ofList ((eventsOf (.node (.paragraph true 1) .nil .nil)).map Ev.some))).err =
    some .indexError := by
  decide +kernel

example : wrapColumns (.ofList ((eventsOf (.node (.sectionDef none 0)
      (.node (.other 0 9) .nil (.node (.paragraph true 1)
        (.node (.control 0 5) (.node (.paragraph true 6) .nil .nil) .nil)
        (.node (.paragraph false 2) .nil (.node (.paragraph true 3) .nil .nil)))) .nil)).map Ev.some)) =
    .ofList (eventsOf (.node (.sectionDef none 0)
      (.node (.other 0 9) .nil
        (.node .columnSet (.node (.paragraph true 1)
            (.node (.control 0 5) (.node .columnSet (.node (.paragraph true 6) .nil .nil) .nil) .nil)
            (.node (.paragraph false 2) .nil .nil))
          (.node .columnSet (.node (.paragraph true 3) .nil .nil) .nil))) .nil)) := by
  decide +kernel

/-! ### C26 unique ids -/

/-- The id attribute of a model, written down from the documentation. -/
def idAttrOf : Item → Option IdAttr
  | .paragraph _ _ => some .paragraphId
  | .tableControl _ => some .tableId
  | .gshapeControl _ => some .gshapeId
  | .shapeComponent _ => some .shapeId
  | _ => none

/-- The kind of id an event carries: start events of id-carrying models. -/
def idKind : IEv → Option IdAttr
  | .start a => idAttrOf a
  | .stop _ => none

/-- The events are unchanged. -/
theorem C26_events_unchanged (es : List IEv) : (giveUniqueIds es).map (·.1) = es := by
  have : ∀ c, (uniqueIdsGo c es).map (·.1) = es := by
    induction es with
    | nil => intro c; rfl
    | cons e es ih =>
      intro c
      cases e with
      | start a => cases a <;> simp [uniqueIdsGo, ih]
      | stop a => simp [uniqueIdsGo, ih]
  exact this {}

/-- The number of the next id of an attribute. -/
private def IdCounters.get (c : IdCounters) : IdAttr → Nat
  | .paragraphId => c.paragraph
  | .tableId => c.table
  | .gshapeId => c.gshape
  | .shapeId => c.shape

private theorem ids_go (es : List IEv) : ∀ (c : IdCounters) (i : Nat) e o, (uniqueIdsGo c es)[i]? = some (e, o) →
    o = (idKind e).map fun k =>
      (k, IdCounters.get c k + ((es.take i).filter fun e => idKind e == some k).length) := by
  induction es with
  | nil => intro c i e o h; simp [uniqueIdsGo] at h
  | cons x es ih =>
    intro c i e o h
    cases i with
    | zero =>
      cases x with
      | stop a => simp [uniqueIdsGo] at h; obtain ⟨rfl, rfl⟩ := h; rfl
      | start a =>
        cases a <;> simp [uniqueIdsGo] at h <;> obtain ⟨rfl, rfl⟩ := h <;>
          simp [idKind, idAttrOf, IdCounters.get]
    | succ i =>
      cases x with
      | stop a =>
        simp only [uniqueIdsGo, List.getElem?_cons_succ] at h
        rw [ih c i e o h]
        simp [idKind]
      | start a =>
        cases a <;> simp only [uniqueIdsGo, List.getElem?_cons_succ] at h <;> rw [ih _ i e o h] <;>
          simp only [List.take_succ_cons] <;>
          (cases hb : idKind e <;> simp only [Option.map_none, Option.map_some] <;>
            (rename_i k; cases k <;> simp [idKind, idAttrOf, IdCounters.get] <;> omega))

/-- A start event of an id-carrying model gets, as its id, the number of earlier
start events with the same kind of id; so ids count 0, 1, 2, ... in document
order.  No other event gets an id. -/
theorem C26_ids (es : List IEv) (i : Nat) (e : IEv) (o : Option (IdAttr × Nat))
    (h : (giveUniqueIds es)[i]? = some (e, o)) :
    o = (idKind e).map fun k => (k, ((es.take i).filter fun e => idKind e == some k).length) := by
  have := ids_go es {} i e o h
  rw [this]
  cases ha : idKind e with
  | none => rfl
  | some k => cases k <;> simp [IdCounters.get]

/-- Hence no two events get the same id. -/
theorem C26_unique (es : List IEv) (i j : Nat) (e e' : IEv) (k : IdAttr) (n : Nat) (hij : i < j)
    (hi : (giveUniqueIds es)[i]? = some (e, some (k, n))) :
    (giveUniqueIds es)[j]? ≠ some (e', some (k, n)) := by
  intro hj
  have h1 := C26_ids es i e _ hi
  have h2 := C26_ids es j e' _ hj
  cases ha : idKind e with
  | none => simp [ha] at h1
  | some ka =>
    cases hb : idKind e' with
    | none => simp [hb] at h2
    | some kb =>
      simp only [ha, hb, Option.map_some, Option.some.injEq, Prod.mk.injEq] at h1 h2
      obtain ⟨rfl, h1⟩ := h1
      obtain ⟨rfl, h2⟩ := h2
      have hei : es[i]? = some e := by
        have := congrArg (fun l => l[i]?) (C26_events_unchanged es)
        simp only [List.getElem?_map, hi, Option.map_some] at this
        exact this.symm
      have hsplit : es.take j = es.take i ++ (e :: (es.take j).drop (i + 1)) := by
        have e1 : es.take i = (es.take j).take i := by rw [List.take_take]; congr 1; omega
        have e2 : (es.take j)[i]? = some e := by
          rw [List.getElem?_take, if_pos hij, hei]
        have hl2 : i < (es.take j).length := by
          rcases Nat.lt_or_ge i (es.take j).length with h | h
          · exact h
          · rw [List.getElem?_eq_none h] at e2; simp at e2
        have e3 : (es.take j)[i] = e := by
          rw [List.getElem?_eq_getElem hl2] at e2; simpa using e2
        rw [e1, ← e3, ← List.drop_eq_getElem_cons hl2, List.take_append_drop]
      rw [hsplit] at h2
      simp only [List.filter_append, List.length_append, List.filter_cons, ha, beq_self_eq_true, if_true,
        List.length_cons] at h2
      omega

example : giveUniqueIds [.start (.paragraph false 1), .start (.tableControl 2), .start (.paragraph false 3),
      .stop (.paragraph false 3), .stop (.tableControl 2), .start (.gshapeControl 4), .start (.shapeComponent 5)] =
    [(.start (.paragraph false 1), some (.paragraphId, 0)), (.start (.tableControl 2), some (.tableId, 0)),
     (.start (.paragraph false 3), some (.paragraphId, 1)), (.stop (.paragraph false 3), none),
     (.stop (.tableControl 2), none), (.start (.gshapeControl 4), some (.gshapeId, 0)),
     (.start (.shapeComponent 5), some (.shapeId, 0))] := by
  decide +kernel

end Hwp.Props
