/-
Specification of tables: where the cells are, in the records and on the page.
-/
import Verif.Spec.Pictures
import Verif.Model.Tables
set_option autoImplicit false
namespace Hwp.Spec

/-! ### Grids -/

/-- A cell: the row and the column of its first slot, and the numbers of rows and columns it covers. -/
structure CellAt where
  row : Nat
  col : Nat
  rowspan : Nat
  colspan : Nat
  deriving DecidableEq, Repr

/-- The slot in row `i` and column `j` is covered. -/
def CellAt.covers (c : CellAt) (i j : Nat) : Prop := c.row ≤ i ∧ i < c.row + c.rowspan ∧ c.col ≤ j ∧ j < c.col + c.colspan

instance (c : CellAt) (i j : Nat) : Decidable (c.covers i j) := inferInstanceAs (Decidable (_ ∧ _ ∧ _ ∧ _))

/-- The cells cover each slot of a grid of `rows` rows and `cols` columns exactly once, and nothing else. -/
structure FillsGrid (rows cols : Nat) (cells : List CellAt) : Prop where
  inside : ∀ c ∈ cells, 0 < c.rowspan ∧ 0 < c.colspan ∧ c.row + c.rowspan ≤ rows ∧ c.col + c.colspan ≤ cols
  apart : cells.Pairwise fun a b => ∀ i j, ¬ (a.covers i j ∧ b.covers i j)
  full : ∀ i < rows, ∀ j < cols, ∃ c ∈ cells, c.covers i j

/-- The reading order: row by row, from left to right. -/
def ReadingOrder (cells : List CellAt) : Prop := cells.Pairwise fun a b => a.row < b.row ∨ (a.row = b.row ∧ a.col < b.col)

/-- A list in pieces of the given lengths. -/
def pieces {α : Type} : List Nat → List α → List (List α)
  | [], _ => []
  | w :: ws, l => l.take w :: pieces ws (l.drop w)

/-- A table: its rows hold the cells that begin in them, in reading order; its cells fill a grid. -/
structure ProperTable (cols : Nat) (rows : List (List CellAt)) : Prop where
  fills : FillsGrid rows.length cols rows.flatten
  order : ReadingOrder rows.flatten
  inRow : ∀ (i : Nat) (row : List CellAt), rows[i]? = some row → ∀ c ∈ row, c.row = i

/-! ### HTML -/

/-- The first column from `x` on whose slot in row `y` is not covered. -/
def firstFree (placed : List CellAt) (y x : Nat) : Nat :=
  let width := (placed.map fun c => c.col + c.colspan).foldr max 0
  ((List.range' x (width + 1)).find? fun j => placed.all fun c => ¬ c.covers y j).getD 0

/-- HTML, "forming a table": the cells of row `y` of `n` rows are put one after the other into free slots from column `x` on.  Cells are given
by their attributes `rowspan` and `colspan`; `colspan` 0 is 1, `rowspan` 0 is the rest of the table; they are at most 1000 and 65534;
rows behind the last row do not exist. -/
def htmlRow (n : Nat) (placed : List CellAt) (y x : Nat) : List (Nat × Nat) → List CellAt
  | [] => placed
  | (rs, cs) :: cells =>
    let col := firstFree placed y x
    let colspan := if cs = 0 then 1 else min cs 1000
    let rowspan := if rs = 0 then n - y else min (min rs 65534) (n - y)
    htmlRow n (placed ++ [⟨y, col, rowspan, colspan⟩]) y (col + colspan) cells

/-- The cells of a table of `n` rows, from row `y` on. -/
def htmlRows (n : Nat) (placed : List CellAt) (y : Nat) : List (List (Nat × Nat)) → List CellAt
  | [] => placed
  | row :: rows => htmlRows n (htmlRow n placed y 0 row) (y + 1) rows

/-- Where a browser shows the cells of a table, given by the attributes of the cells of its rows. -/
def htmlLayout (rows : List (List (Nat × Nat))) : List CellAt := htmlRows rows.length [] 0 rows

/-! ### ODF -/

/-- Where an office program shows the cells of a table with rows of `table:table-cell` elements: each takes one column of its row, whatever it spans;
covered slots are elements of their own, `table:covered-table-cell`. -/
def odfLayout (rows : List (List (Nat × Nat))) : List CellAt :=
  (rows.mapIdx fun i row => row.mapIdx fun j s => (⟨i, j, s.1, s.2⟩ : CellAt)).flatten

/-! ### Tables in view -/

/-- All tables: what is in the elements `TableControl`, in the order of the document. -/
def allTables : Forest XNode → List (Forest XNode)
  | .nil => []
  | .node (.text _) _ sibs => allTables sibs
  | .node (.elem n _) cs sibs => (if n = lit "TableControl" then [cs] else []) ++ allTables cs ++ allTables sibs

/-- The tables out of view: a table with these attributes is `seen` in some places. -/
def hiddenTables {P : Type} (s : Places P) (seen : P → List (PyStr × PyStr) → Bool) : Forest XNode → P → List (Forest XNode)
  | .nil, _ => []
  | .node (.text _) _ sibs, p => hiddenTables s seen sibs p
  | .node (.elem n as) cs sibs, p =>
    (if n = lit "TableControl" ∧ ¬ seen p as then [cs] else []) ++
    (match s.view p n as with
      | .hidden => allTables cs
      | .words => allTables cs
      | .place q => hiddenTables s seen cs q) ++ hiddenTables s seen sibs p

/-- The tables of the sections out of view. -/
def hiddenTablesInSections {P : Type} (s : Places P) (seen : P → List (PyStr × PyStr) → Bool) (p : P) : Forest XNode → List (Forest XNode)
  | .nil => []
  | .node (.text _) _ sibs => hiddenTablesInSections s seen p sibs
  | .node (.elem n _) cs sibs =>
    (if n = lit "SectionDef" then hiddenTables s seen cs p else []) ++ hiddenTablesInSections s seen p sibs

/-- The tables in all elements of this name. -/
def tablesIn (name : String) : Forest XNode → List (Forest XNode)
  | .nil => []
  | .node (.text _) _ sibs => tablesIn name sibs
  | .node (.elem n _) cs sibs => (if n = lit name then allTables cs else []) ++ tablesIn name cs ++ tablesIn name sibs

/-- Where tables are seen on the page: in the lines of a paragraph, and wherever anything is. -/
def htmlSeesTable (p : HtmlSpot) (as : List (PyStr × PyStr)) : Bool :=
  (p = .anything ∨ p = .line) ∧ (attrValue as "inline" = lit "0" ∨ attrValue as "inline" = lit "1")

/-- Where tables are seen in the text document. -/
def odtSeesTable (p : OdtSpot) (_ : List (PyStr × PyStr)) : Bool := p = .anything ∨ p = .line

/-! ### Records -/

/-- A field with a number. -/
def natField (name : String) (content : Fields) : Nat :=
  match fieldOf name content with
  | some (.leaf (.int n)) => n.toNat
  | _ => 0

/-- The cell of a `TableCell` record. -/
def cellAt (content : Fields) : CellAt :=
  ⟨natField "row" content, natField "col" content, natField "rowspan" content, natField "colspan" content⟩

/-- The numbers of cells of the rows of a `TableBody` record. -/
def rowWidths (content : Fields) : List Nat :=
  match fieldOf "rowcols" content with
  | some (.list xs) => xs.map fun x => match x with | .leaf (.int n) => n.toNat | _ => 0
  | _ => []

/-- The rows of the `TableBody` records among records next to each other: the `TableCell` records that follow, as many for each row as the body says. -/
def recordRows : List (PModel Fields) → List (List CellAt)
  | [] => []
  | m :: r => (if m.type = "TableBody" then
      pieces (rowWidths m.content) ((r.filter fun c => c.type = "TableCell").map fun c => cellAt c.content) else []) ++ recordRows r

/-- The tables of a section: the rows right below each `TableControl` record. -/
def recordTables : Forest (Nat × PModel Fields) → List (List (List CellAt))
  | .nil => []
  | .node a cs sibs =>
    (if a.2.type = "TableControl" then [recordRows (cs.roots.map (·.2))] else []) ++ recordTables cs ++ recordTables sibs

/-- Paragraphs come behind list headers, as cells are, with nothing but paragraphs between; or behind the start, if `b`. -/
def TidyList : Bool → List (PModel Fields) → Prop
  | _, [] => True
  | b, m :: r => if m.type = "Paragraph" then b = true ∧ TidyList b r else TidyList (isSubclass m.type "ListHeader") r

instance decTidyList : (b : Bool) → (l : List (PModel Fields)) → Decidable (TidyList b l)
  | _, [] => .isTrue trivial
  | b, m :: r => by
    have := decTidyList b r
    have := decTidyList (isSubclass m.type "ListHeader") r
    unfold TidyList
    exact inferInstance

/-- The paragraphs below tables are those of cells and captions. -/
def TidyTables : Forest (Nat × PModel Fields) → Prop
  | .nil => True
  | .node a cs sibs => (a.2.type = "TableControl" → TidyList false (cs.roots.map (·.2))) ∧ TidyTables cs ∧ TidyTables sibs

/-- The spans of the cells, as text. -/
def spanTexts (rows : List (List CellAt)) : List (List (PyStr × PyStr)) :=
  rows.map fun r => r.map fun c => (decimal c.rowspan, decimal c.colspan)

/-- The spans, as numbers. -/
def spanNumbers (rows : List (List (PyStr × PyStr))) : List (List (Nat × Nat)) :=
  rows.map fun r => r.map fun c => ((xpathNumber c.1).getD 0, (xpathNumber c.2).getD 0)

end Hwp.Spec
