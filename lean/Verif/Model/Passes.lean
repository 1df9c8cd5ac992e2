/-
Model of the event passes of /repo/src/hwp5/xmlmodel.py.

An item `(model, attributes, context)` is modelled by `Item`: one constructor for
every model class a pass looks at, carrying the attributes the passes read or
write.  `cls` distinguishes further classes of a family, `tag` stands for all
other attributes and the context (never looked at by a pass).
-/
import Verif.Model.TreeOp
import Verif.Model.Shapes
import Verif.Model.Charsets
namespace Hwp

/-- A line segment: the `tag` of its `ParaLineSeg`, and its index. -/
abbrev LineId := Option Nat × Nat

inductive Item where
  /-- `Paragraph`; `newColumns` is `SplitFlags(split).new_columnsdef`. -/
  | paragraph (newColumns : Bool) (tag : Nat)
  | paraText (chunks : List Chunk) (tag : Nat)
  /-- `ParaCharShape`; `charshapes` as `(position, shape id)`. -/
  | paraCharShape (charshapes : List (Nat × Nat)) (tag : Nat)
  /-- `ParaLineSeg`; the `chpos` of its line segments in order. -/
  | paraLineSeg (chpos : List Nat) (tag : Nat)
  | paraRangeTag (tag : Nat)
  /-- `LineSeg`; identified by the `tag` of its `ParaLineSeg` (`none` for the dummy of a
  paragraph without one) and its index in it. -/
  | lineSeg (id : LineId)
  | text (s : PyStr) (shape : Nat) (lang : Option Lang)
  | controlChar (code : Nat) (kind : CtrlKind) (shape : Nat)
  | sectionDef (sectId : Option Nat) (tag : Nat)
  | columnSet
  /-- `TableBody`; `rowcols` is removed by `restructure_tablebody`. -/
  | tableBody (rowcols : Option (List Nat)) (tag : Nat)
  | tableRow
  | tableCell (tag : Nat)
  /-- the other subclasses of `ListHeader`, tagid56_list_header.py. -/
  | listHeader (cls tag : Nat)
  /-- subclasses of `Field`, controls/field.py. -/
  | field (cls tag : Nat)
  | tableControl (tag : Nat)
  | gshapeControl (tag : Nat)
  /-- the other subclasses of `Control`. -/
  | control (cls tag : Nat)
  | shapeComponent (tag : Nat)
  | other (cls tag : Nat)
  deriving DecidableEq, Repr

namespace Item

/-- `model is Paragraph`. -/
def isParagraph : Item → Bool
  | .paragraph _ _ => true
  | _ => false

/-- `issubclass(model, Control)`: controls/*.py. -/
def isControl : Item → Bool
  | .sectionDef _ _ | .field _ _ | .tableControl _ | .gshapeControl _ | .control _ _ => true
  | _ => false

/-- `issubclass(model, ListHeader)`: tagid56_list_header.py:89-142. -/
def isListHeader : Item → Bool
  | .tableCell _ | .listHeader _ _ => true
  | _ => false

/-- `issubclass(model, Field)`. -/
def isField : Item → Bool
  | .field _ _ => true
  | _ => false

def isTableBody : Item → Bool
  | .tableBody _ _ => true
  | _ => false

def isTableCell : Item → Bool
  | .tableCell _ => true
  | _ => false

def isLineSeg : Item → Bool
  | .lineSeg _ => true
  | _ => false

def isSectionDef : Item → Bool
  | .sectionDef _ _ => true
  | _ => false

def isText : Item → Bool
  | .text _ _ _ => true
  | _ => false

def isControlChar : Item → Bool
  | .controlChar _ _ _ => true
  | _ => false

/-- `model is ControlChar and attributes['name'] == 'FIELD_END'`
(controlchar.py:136: code 4). -/
def isFieldEnd : Item → Bool
  | .controlChar 4 _ _ => true
  | _ => false

/-- The model class. -/
def cls : Item → Nat × Nat
  | .paragraph _ _ => (0, 0)
  | .paraText _ _ => (1, 0)
  | .paraCharShape _ _ => (2, 0)
  | .paraLineSeg _ _ => (3, 0)
  | .paraRangeTag _ => (4, 0)
  | .lineSeg _ => (5, 0)
  | .text _ _ _ => (6, 0)
  | .controlChar _ _ _ => (7, 0)
  | .sectionDef _ _ => (8, 0)
  | .columnSet => (9, 0)
  | .tableBody _ _ => (10, 0)
  | .tableRow => (11, 0)
  | .tableCell _ => (12, 0)
  | .listHeader c _ => (13, c)
  | .field c _ => (14, c)
  | .tableControl _ => (15, 0)
  | .gshapeControl _ => (16, 0)
  | .control c _ => (17, c)
  | .shapeComponent _ => (18, 0)
  | .other c _ => (19, c)

end Item

/-- An event of an item. -/
abbrev IEv := Ev Item

/-! ### make_texts_linesegmented_and_charshaped -/

/-- xmlmodel.py:232-253 `range_shaped_textchunk_events`, for one chunk. -/
def textChunkEvents (c : RChunk (Nat × Unit)) : Gen IEv :=
  match c.val with
  | .text s =>
    let item := Item.text s c.attr.1 none
    .ofList [.start item, .stop item]
  | .ctrl d =>
    match ctrlKind d.code with
    | none => .raise .keyError
    | some kind =>
      let item := Item.controlChar d.code kind c.attr.1
      .ofList [.start item, .stop item]

/-- Running generators one after the other. -/
def Gen.chain {α} : List (Gen α) → Gen α
  | [] => .done
  | g :: gs =>
    match g.err with
    | some _ => g
    | none => .prepend g.out (Gen.chain gs)

/-- Continue with `g` after `a` unless `a` raised. -/
def Gen.andThen {α} (a g : Gen α) : Gen α :=
  match a.err with
  | some _ => a
  | none => .prepend a.out g

/-- xmlmodel.py:555-559 `wrap_modelevents`. -/
def wrapModelevents {α} (w : α) (inner : Gen (Ev α)) : Gen (Ev α) :=
  .cons (.start w) (inner.andThen (.ofList [.stop w]))

/-- What `make_texts_linesegmented_and_charshaped` collects per paragraph. -/
structure ParaParts where
  text : Option (List Chunk) := none
  charshapes : Option (List (Nat × Nat)) := none
  linesegs : Option (List Nat × Nat) := none
  deriving DecidableEq, Repr

/-- xmlmodel.py:210-223: the line segments with their positions, or one dummy. -/
def paraLineSegs : Option (List Nat × Nat) → List (Nat × LineId)
  | some (ls, tag) => ls.mapIdx fun i chpos => (chpos, (some tag, i))
  | none => [(0, (none, 0))]

/-- xmlmodel.py:199-229 `merge_paragraph_text_charshape_lineseg`.  A missing
`ParaCharShape` raises `TypeError` (`None[1]`, line 206). -/
def mergeParagraph (p : ParaParts) : Gen IEv :=
  let chunks : List Chunk := p.text.getD [⟨0, 0, .text []⟩]
  match p.charshapes with
  | none => .raise .typeError
  | some charshapes =>
    let rchunks : List (RChunk Unit) := chunks.map fun c => ⟨c.start, c.stop, (), c.val⟩
    let shaped := splitAndShape (.ofList rchunks) (makeRangedShapes charshapes)
    let lines := lineSegmented shaped (makeRangedShapes (paraLineSegs p.linesegs))
    (Gen.chain (lines.out.map fun l =>
      wrapModelevents (Item.lineSeg l.1) (Gen.chain (l.2.map textChunkEvents)))).andThen
      ⟨[], lines.err⟩

/-- xmlmodel.py:165-196 `make_texts_linesegmented_and_charshaped`; `stack` top
first. -/
def makeTextsGo (err : Option PyErr) (stack : List ParaParts) : List IEv → Gen IEv
  | [] => ⟨[], err⟩
  | .start (.paragraph n t) :: es =>
    .cons (.start (.paragraph n t)) (makeTextsGo err ({} :: stack) es)
  | .stop (.paragraph n t) :: es =>
    match stack with
    | [] => .raise .indexError
    | p :: st => (mergeParagraph p).andThen (.cons (.stop (.paragraph n t)) (makeTextsGo err st es))
  | .start (.paraText cs _) :: es =>
    match stack with
    | [] => .raise .indexError
    | p :: st => makeTextsGo err ({ p with text := some cs } :: st) es
  | .stop (.paraText _ _) :: es => makeTextsGo err stack es
  | .start (.paraCharShape cs _) :: es =>
    match stack with
    | [] => .raise .indexError
    | p :: st => makeTextsGo err ({ p with charshapes := some cs } :: st) es
  | .stop (.paraCharShape _ _) :: es => makeTextsGo err stack es
  | .start (.paraLineSeg ls t) :: es =>
    match stack with
    | [] => .raise .indexError
    | p :: st => makeTextsGo err ({ p with linesegs := some (ls, t) } :: st) es
  | .stop (.paraLineSeg _ _) :: es => makeTextsGo err stack es
  | .start (.paraRangeTag _) :: es =>
    match stack with
    | [] => .raise .indexError
    | p :: st => makeTextsGo err (p :: st) es
  | .stop (.paraRangeTag _) :: es => makeTextsGo err stack es
  | e :: es => .cons e (makeTextsGo err stack es)

def makeTexts (g : Gen IEv) : Gen IEv := makeTextsGo g.err [] g.out

/-! ### make_extended_controls_inline -/

/-- Number of nodes of a forest. -/
def Forest.size {α} : Forest α → Nat
  | .nil => 0
  | .node _ cs sibs => 1 + cs.size + sibs.size

theorem Forest.size_snoc {α} (f : Forest α) (a : α) (cs : Forest α) :
    (f.snoc a cs).size = f.size + 1 + cs.size := by
  induction f with
  | nil => simp [Forest.snoc, Forest.size]
  | node b ds sibs _ ih => simp [Forest.snoc, Forest.size, ih]; omega

theorem treeEventsMulti_length {α} (f : Forest α) : (treeEventsMulti f).length = 2 * f.size := by
  induction f with
  | nil => rfl
  | node a cs sibs ih1 ih2 => simp [treeEventsMulti, Forest.size, ih1, ih2]; omega

theorem buildSubtreeGo_size {α} (n : Nat) : ∀ (es : List (Ev α)) (childs : Forest α) a cs rest,
    es.length = n → (buildSubtreeGo es childs).1 = (some (a, cs), rest) →
    2 * cs.size + 1 + rest.length = es.length + 2 * childs.size := by
  induction n using Nat.strongRecOn with
  | ind n ih =>
    intro es childs a cs rest hn h
    match es, hn with
    | [], _ => rw [buildSubtreeGo] at h; simp at h
    | .stop b :: es, hn =>
      rw [buildSubtreeGo] at h; simp at h
      obtain ⟨⟨_, rfl⟩, rfl⟩ := h
      simp at hn ⊢; omega
    | .start b :: es, hn =>
      rw [buildSubtreeGo] at h
      simp only [List.length_cons] at hn ⊢
      split at h
      · simp at h
      · rename_i a' cs' es' hlt heq
        have h1 := ih es.length (by omega) es .nil a' cs' es' rfl (by rw [heq])
        split at h
        rename_i r hr heq2
        simp at h
        have hl : es'.length < n := by simp [Forest.size] at h1; omega
        have h2 := ih es'.length hl es' (childs.snoc a' cs') a cs rest rfl (by rw [heq2]; exact h)
        rw [Forest.size_snoc] at h2
        simp [Forest.size] at h1
        omega

/-- A paragraph's dict in `make_extended_controls_inline`: the list under the key
`Control`, if it was set. -/
abbrev CtlStack := List (Option (List (Item × Forest Item)))

/-- Number of events of the stored control subtrees without their roots' start
events (termination measure). -/
def ctlSize (st : CtlStack) : Nat :=
  (st.map fun o => ((o.getD []).map fun t => 2 * t.2.size + 1).sum).sum

/-- xmlmodel.py:318-363 `make_extended_controls_inline` with `meci_paragraph` and
`meci_controlchar`; `stack` top first.

Simplification: the nested generator that runs over the events of an inlined
control (`make_extended_controls_inline(tev, stack)`) shares the stack, and the
outer loop continues when it is done, so its events are put in front of the
remaining ones. -/
def inlineGo (err : Option PyErr) (stack : CtlStack) (es : List IEv) : Gen IEv :=
  match es with
  | [] => ⟨[], err⟩
  | .start (.paragraph n t) :: es =>
    .cons (.start (.paragraph n t)) (inlineGo err (none :: stack) es)
  | .stop (.paragraph n t) :: es =>
    match stack with
    | [] => ⟨[.stop (.paragraph n t)], some .indexError⟩
    | _ :: st => .cons (.stop (.paragraph n t)) (inlineGo err st es)
  | .start (.controlChar code kind shape) :: es =>
    if kind = .extended then
      match stack with
      | [] => .raise .indexError
      | none :: _ => .raise .attributeError
      | some [] :: _ => .raise .indexError
      | some ((c, cs) :: q) :: st =>
        .cons (.start c) (inlineGo err (some q :: st) (treeEventsMulti cs ++ .stop c :: es))
    else
      .prepend [.start (.controlChar code kind shape), .stop (.controlChar code kind shape)]
        (inlineGo err stack es)
  | .stop (.controlChar _ _ _) :: es => inlineGo err stack es
  | .start a :: es =>
    if a.isControl then
      match _h : buildSubtree es with
      | (none, _) =>
        -- the subtree is `None`; it is stored and the events are exhausted
        match stack with
        | [] => match err with
          | some e => .raise e
          | none => .raise .indexError
        | _ => ⟨[], err⟩
      | (some (c, cs), rest) =>
        match stack with
        | [] => .raise .indexError
        | q :: st => inlineGo err (some (q.getD [] ++ [(c, cs)]) :: st) rest
    else .cons (.start a) (inlineGo err stack es)
  | .stop a :: es => .cons (.stop a) (inlineGo err stack es)
termination_by es.length + ctlSize stack
decreasing_by
  all_goals simp_wf
  · simp [ctlSize]
  · simp [ctlSize]; omega
  · simp [ctlSize, treeEventsMulti_length]; omega
  · have := buildSubtreeGo_size _ es .nil c cs rest rfl _h
    simp [Forest.size] at this
    simp [ctlSize]
    cases q <;> simp <;> omega

def makeExtendedControlsInline (g : Gen IEv) : Gen IEv := inlineGo g.err [] g.out

/-! ### match_field_start_end -/

/-- xmlmodel.py:397-440 `match_field_start_end`; `stack` of open fields, top
first. -/
def matchFieldsGo (err : Option PyErr) (stack : List Item) : List IEv → Gen IEv
  | [] => ⟨[], err⟩
  | .start a :: es =>
    if a.isField then .cons (.start a) (matchFieldsGo err (a :: stack) es)
    else if a.isLineSeg then
      .cons (.start a) (.prepend (stack.reverse.map .start) (matchFieldsGo err stack es))
    else if a.isFieldEnd then matchFieldsGo err stack es
    else .cons (.start a) (matchFieldsGo err stack es)
  | .stop a :: es =>
    if a.isField then matchFieldsGo err stack es
    else if a.isLineSeg then
      .prepend (stack.map .stop) (.cons (.stop a) (matchFieldsGo err stack es))
    else if a.isFieldEnd then
      match stack with
      | f :: st => .cons (.stop f) (matchFieldsGo err st es)
      | [] => matchFieldsGo err [] es
    else .cons (.stop a) (matchFieldsGo err stack es)

def matchFields (g : Gen IEv) : Gen IEv := matchFieldsGo g.err [] g.out

/-! ### make_paragraphs_children_of_listheader -/

/-- xmlmodel.py:366-394 `make_paragraphs_children_of_listheader`; `isParent` is
`issubclass(model, parentmodel)`, `isChild` is `model is childmodel`, the stack
holds `(level, item)`, top first. -/
def listHeaderGo (isParent isChild : Item → Bool) (err : Option PyErr)
    (stack : List (Int × Item)) (level : Int) : List IEv → Gen IEv
  | [] => ⟨[], err⟩
  | .start a :: es =>
    let level := level + 1
    let (closing, stack) : List IEv × List (Int × Item) :=
      match stack with
      | (l, lh) :: st => if l = level ∧ ¬ isChild a then ([.stop lh], st) else ([], stack)
      | [] => ([], [])
    .prepend closing <|
      .cons (.start a) <|
        listHeaderGo isParent isChild err (if isParent a then (level, a) :: stack else stack) level es
  | .stop a :: es =>
    let (closing, stack) : List IEv × List (Int × Item) :=
      match stack with
      | (l, lh) :: st => if l - 1 = level then ([.stop lh], st) else ([], stack)
      | [] => ([], [])
    .prepend closing <|
      if isParent a then listHeaderGo isParent isChild err stack (level - 1) es
      else .cons (.stop a) (listHeaderGo isParent isChild err stack (level - 1) es)

def paragraphsToListHeader (isParent isChild : Item → Bool) (g : Gen IEv) : Gen IEv :=
  listHeaderGo isParent isChild g.err [] 0 g.out

/-! ### restructure_tablebody -/

/-- What to do at a cell: `(ROW_OPEN, ROW_CLOSE)` bits, xmlmodel.py:447-448. -/
abbrev RowMark := Bool × Bool

/-- xmlmodel.py:468-476, the marks of one row. `range(0, cols - 2)` is empty for
`cols < 2`. -/
def rowMarks (cols : Nat) : List RowMark :=
  if cols = 1 then [(true, true)]
  else (true, false) :: (List.replicate (cols - 2) (false, false) ++ [(false, true)])

/-- xmlmodel.py:451-496 `restructure_tablebody`; `stack` of the marks of the open
table bodies, top first. -/
def tableBodyGo (err : Option PyErr) (stack : List (List RowMark)) : List IEv → Gen IEv
  | [] => ⟨[], err⟩
  | .start (.tableBody rc t) :: es =>
    match rc with
    | none => .raise .keyError
    | some rowcols =>
      .cons (.start (.tableBody none t))
        (tableBodyGo err ((rowcols.map rowMarks).flatten :: stack) es)
  | .stop (.tableBody _ t) :: es =>
    match stack with
    | [] => ⟨[.stop (.tableBody none t)], some .indexError⟩
    | _ :: st => .cons (.stop (.tableBody none t)) (tableBodyGo err st es)
  | .start (.tableCell t) :: es =>
    match stack with
    | [] => .raise .indexError
    | [] :: _ => .raise .indexError
    | (m :: ms) :: st =>
      .prepend (if m.1 then [.start .tableRow] else [])
        (.cons (.start (.tableCell t)) (tableBodyGo err ((m :: ms) :: st) es))
  | .stop (.tableCell t) :: es =>
    match stack with
    | [] => .raise .indexError
    | [] :: _ => ⟨[.stop (.tableCell t)], some .indexError⟩
    | (m :: ms) :: st =>
      .cons (.stop (.tableCell t))
        (.prepend (if m.2 then [.stop .tableRow] else []) (tableBodyGo err (ms :: st) es))
  | e :: es => .cons e (tableBodyGo err stack es)

def restructureTablebody (g : Gen IEv) : Gen IEv := tableBodyGo g.err [] g.out

/-! ### tokenize_text_by_lang -/

/-- xmlmodel.py:499-515 `tokenize_text_by_lang`. -/
def tokenizeTextGo (err : Option PyErr) : List IEv → Gen IEv
  | [] => ⟨[], err⟩
  | .start (.text s shape _) :: es =>
    .prepend ((tokenizeByLang s).map fun t =>
        [Ev.start (Item.text t.2 shape (some t.1)), Ev.stop (Item.text t.2 shape (some t.1))]).flatten
      (tokenizeTextGo err es)
  | .stop (.text _ _ _) :: es => tokenizeTextGo err es
  | e :: es => .cons e (tokenizeTextGo err es)

def tokenizeText (g : Gen IEv) : Gen IEv := tokenizeTextGo g.err g.out

/-! ### wrap_section -/

/-- `attributes['section_id'] = sect_id` (xmlmodel.py:268-269) on a section
definition.  The attributes dict of the start event is the one of the end event
`build_subtree` returns. -/
def setSectId (sectId : Option Nat) : Item → Item
  | .sectionDef s t => .sectionDef (match sectId with | some i => some i | none => s) t
  | a => a

/-- An event of an item that is not `None`. -/
def Ev.some {α} : Ev α → Ev (Option α)
  | .start a => .start (Option.some a)
  | .stop a => .stop (Option.some a)

/-- xmlmodel.py:256-278 `wrap_section`, before the section definition; `buf` is
`starting_buffer`.  Without a section definition the final event is
`(ENDEVENT, None)`. -/
def wrapSectionGo (sectId : Option Nat) (err : Option PyErr) (buf : List IEv) :
    List IEv → Gen (Ev (Option Item))
  | [] =>
    match err with
    | some e => .raise e
    | none => .ofList [.stop none]
  | .start a :: es =>
    if a.isSectionDef then
      match buildSubtree es with
      | (none, _) => .raise (err.getD .typeError)
      | (some (c, cs), rest) =>
        let sd := setSectId sectId c
        .prepend ((Ev.start sd :: (treeEventsMulti cs ++ buf ++ rest)).map Ev.some)
          (match err with
           | some e => .raise e
           | none => .ofList [.stop (some sd)])
    else wrapSectionGo sectId err (buf ++ [.start a]) es
  | .stop a :: es => wrapSectionGo sectId err (buf ++ [.stop a]) es

def wrapSection (sectId : Option Nat) (g : Gen IEv) : Gen (Ev (Option Item)) :=
  wrapSectionGo sectId g.err [] g.out

/-! ### wrap_columns -/

/-- xmlmodel.py:285-315 `wrap_columns`; `stack` top first.  Unpacking the item
`None` raises `TypeError`. -/
def wrapColumnsGo (err : Option PyErr) (stack : List Item) : List (Ev (Option Item)) → Gen IEv
  | [] => ⟨[], err⟩
  | .start none :: _ => .raise .typeError
  | .stop none :: _ => .raise .typeError
  | .start (some (.paragraph n t)) :: es =>
    if n then
      match stack with
      | [] => .raise .indexError
      | .columnSet :: st =>
        .prepend [.stop .columnSet, .start .columnSet, .start (.paragraph n t)]
          (wrapColumnsGo err (.columnSet :: st) es)
      | st =>
        .prepend [.start .columnSet, .start (.paragraph n t)]
          (wrapColumnsGo err (.columnSet :: st) es)
    else .cons (.start (.paragraph n t)) (wrapColumnsGo err stack es)
  | .stop (some (.paragraph n t)) :: es =>
    .cons (.stop (.paragraph n t)) (wrapColumnsGo err stack es)
  | .start (some a) :: es => .cons (.start a) (wrapColumnsGo err (a :: stack) es)
  | .stop (some a) :: es =>
    match stack with
    | [] => .raise .indexError
    | b :: st =>
      if a.cls ≠ b.cls then
        match b with
        | .columnSet =>
          match st with
          | [] => ⟨[.stop b], some .indexError⟩
          | _ :: st' => .prepend [.stop b, .stop a] (wrapColumnsGo err st' es)
        | _ => .raise .assertionError
      else .cons (.stop a) (wrapColumnsGo err st es)

def wrapColumns (g : Gen (Ev (Option Item))) : Gen IEv := wrapColumnsGo g.err [] g.out

/-! ### give_elements_unique_id -/

/-- The id attributes: `paragraph_id`, `table_id`, `gshape_id`, `shape_id`. -/
inductive IdAttr where
  | paragraphId | tableId | gshapeId | shapeId
  deriving DecidableEq, Repr

/-- The counters of xmlmodel.py:72-75. -/
structure IdCounters where
  paragraph : Nat := 0
  table : Nat := 0
  gshape : Nat := 0
  shape : Nat := 0
  deriving DecidableEq, Repr

/-- xmlmodel.py:71-91 `give_elements_unique_id`: the events with the id attribute
set at the event, if any. -/
def uniqueIdsGo (c : IdCounters) : List IEv → List (IEv × Option (IdAttr × Nat))
  | [] => []
  | .start a :: es =>
    match a with
    | .paragraph _ _ =>
      (.start a, some (.paragraphId, c.paragraph)) :: uniqueIdsGo { c with paragraph := c.paragraph + 1 } es
    | .tableControl _ =>
      (.start a, some (.tableId, c.table)) :: uniqueIdsGo { c with table := c.table + 1 } es
    | .gshapeControl _ =>
      (.start a, some (.gshapeId, c.gshape)) :: uniqueIdsGo { c with gshape := c.gshape + 1 } es
    | .shapeComponent _ =>
      (.start a, some (.shapeId, c.shape)) :: uniqueIdsGo { c with shape := c.shape + 1 } es
    | _ => (.start a, none) :: uniqueIdsGo c es
  | .stop a :: es => (.stop a, none) :: uniqueIdsGo c es

def giveUniqueIds (es : List IEv) : List (IEv × Option (IdAttr × Nat)) := uniqueIdsGo {} es

/-! ### Section.events -/

/-- xmlmodel.py:742-762 `Section.events`: the pipeline behind `modelevents`. -/
def sectionEvents (sectId : Option Nat) (g : Gen IEv) : Gen IEv :=
  let g := makeTexts g
  let g := makeExtendedControlsInline g
  let g := matchFields g
  let g := paragraphsToListHeader Item.isListHeader Item.isParagraph g
  let g := paragraphsToListHeader Item.isTableBody Item.isTableCell g
  let g := restructureTablebody g
  let g := tokenizeText g
  let g := wrapSection sectId g
  wrapColumns g

end Hwp
