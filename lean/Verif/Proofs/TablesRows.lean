/-
The rows of the tables of a section through the passes.
-/
import Verif.Proofs.TablesPasses
import Verif.Proofs.PlainSection
set_option autoImplicit false
set_option linter.unusedSimpArgs false
set_option linter.unusedVariables false
namespace Hwp
open Spec

/-! ### The rows, before and after the passes -/

def cellTag : Item → Option Nat
  | .tableCell t => some t
  | _ => none

/-- The cells among siblings. -/
def cellTags (l : List Item) : List Nat := l.filterMap cellTag

/-- The rows of the table bodies among siblings: the cells that follow, as the row widths say. -/
def rowsOfRecords : List Item → List (List Nat)
  | [] => []
  | .tableBody (some ws) _ :: r => pieces ws (cellTags r) ++ rowsOfRecords r
  | _ :: r => rowsOfRecords r

/-- Bodies that hold their cells. -/
def rowsOfBodies : Forest Item → List (List Nat)
  | .nil => []
  | .node (.tableBody (some ws) _) cs sibs => pieces ws (cellTags cs.roots) ++ rowsOfBodies sibs
  | .node _ _ sibs => rowsOfBodies sibs

/-- The cells of the rows among siblings. -/
def rowsIn : Forest Item → List (List Nat)
  | .nil => []
  | .node .tableRow cs sibs => cellTags cs.roots :: rowsIn sibs
  | .node _ _ sibs => rowsIn sibs

/-- Bodies that hold rows. -/
def rowsOfRows : Forest Item → List (List Nat)
  | .nil => []
  | .node (.tableBody _ _) cs sibs => rowsIn cs ++ rowsOfRows sibs
  | .node _ _ sibs => rowsOfRows sibs

theorem cellTags_append (l m : List Item) : cellTags (l ++ m) = cellTags l ++ cellTags m := by simp [cellTags]

theorem cellTags_paragraphs (l : List Item) : cellTags (l.filter (!·.isParagraph)) = cellTags l := by
  induction l with
  | nil => rfl
  | cons a l ih =>
    cases a <;> simp_all [cellTags, cellTag, Item.isParagraph, List.filter_cons, List.filterMap_cons]

theorem rowsOfRecords_other (a : Item) (l : List Item) (h : a.isTableBody = false) : rowsOfRecords (a :: l) = rowsOfRecords l := by
  cases a <;> first | rfl | simp [Item.isTableBody] at h

theorem rowsOfRecords_paragraphs (l : List Item) : rowsOfRecords (l.filter (!·.isParagraph)) = rowsOfRecords l := by
  induction l with
  | nil => rfl
  | cons a l ih =>
    by_cases hp : a.isParagraph
    · have : a.isTableBody = false := by cases a <;> simp_all [Item.isParagraph, Item.isTableBody]
      rw [rowsOfRecords_other _ _ this, ← ih]
      simp [List.filter_cons, hp]
    · have e : (a :: l).filter (!·.isParagraph) = a :: l.filter (!·.isParagraph) := by simp [List.filter_cons, hp]
      rw [e]
      by_cases hb : a.isTableBody
      · cases a <;> simp [Item.isTableBody] at hb
        case tableBody rc t =>
        cases rc with
        | none => exact ih
        | some ws => simp only [rowsOfRecords, ih, cellTags_paragraphs]
      · rw [rowsOfRecords_other _ _ (by simpa using hb), rowsOfRecords_other _ _ (by simpa using hb), ih]

/-! ### Paragraphs into list headers -/

theorem adopt_lists_roots (k : Nat) : ∀ f : Forest Item, f.size ≤ k →
    (adopt Item.isListHeader Item.isParagraph f).roots.filter (!·.isParagraph) = f.roots.filter (!·.isParagraph) := by
  induction k with
  | zero =>
    intro f hf
    cases f with
    | nil => rw [adopt_nil]
    | node a cs sibs => simp [Forest.size] at hf
  | succ k ih =>
    intro f hf
    cases f with
    | nil => rw [adopt_nil]
    | node a cs sibs =>
      simp only [Forest.size] at hf
      by_cases hl : a.isListHeader
      · rw [adopt_node_parent hl]
        have h1 := ih (sibs.dropWhile Item.isParagraph) (by have := sibs.size_dropWhile Item.isParagraph; omega)
        have h2 : ∀ l : List Item, (l.dropWhile Item.isParagraph).filter (!·.isParagraph) = l.filter (!·.isParagraph) := by
          intro l
          induction l with
          | nil => rfl
          | cons b l ihl =>
            by_cases hb : b.isParagraph
            · simp [List.dropWhile_cons, hb, List.filter_cons]
              simpa using ihl
            · simp [List.dropWhile_cons, hb]
        simp only [Forest.roots, List.filter_cons, h1, Forest.roots_dropWhile, h2]
      · rw [adopt_node_other (by simpa using hl)]
        simp only [Forest.roots, List.filter_cons, ih sibs (by omega)]

theorem listHeader_not_table {a : Item} (h : a.isListHeader) : isTable a = false := by cases a <;> simp_all [Item.isListHeader, isTable]

theorem adopt_lists_gather (k : Nat) : ∀ f : Forest Item, f.size ≤ k →
    gather (fun g => rowsOfRecords g.roots) (adopt Item.isListHeader Item.isParagraph f) = gather (fun g => rowsOfRecords g.roots) f := by
  induction k with
  | zero =>
    intro f hf
    cases f with
    | nil => rw [adopt_nil]
    | node a cs sibs => simp [Forest.size] at hf
  | succ k ih =>
    intro f hf
    cases f with
    | nil => rw [adopt_nil]
    | node a cs sibs =>
      simp only [Forest.size] at hf
      by_cases hl : a.isListHeader
      · rw [adopt_node_parent hl]
        have h1 := ih cs (by omega)
        have h2 := ih (sibs.takeWhile Item.isParagraph) (by have := sibs.size_takeWhile Item.isParagraph; omega)
        have h3 := ih (sibs.dropWhile Item.isParagraph) (by have := sibs.size_dropWhile Item.isParagraph; omega)
        simp only [gather, listHeader_not_table hl, Bool.false_eq_true, if_false, List.nil_append, gather_append, h1, h2, h3, List.append_assoc]
        rw [← gather_append, Forest.takeWhile_append_dropWhile]
      · rw [adopt_node_other (by simpa using hl)]
        have : rowsOfRecords (adopt Item.isListHeader Item.isParagraph cs).roots = rowsOfRecords cs.roots := by
          rw [← rowsOfRecords_paragraphs, adopt_lists_roots _ _ (Nat.le_refl _), rowsOfRecords_paragraphs]
        simp only [gather, this, ih cs (by omega), ih sibs (by omega)]

/-! ### Cells into bodies -/

theorem pieces_append {α : Type} (ws : List Nat) : ∀ l m : List α, l.length = ws.sum → pieces ws (l ++ m) = pieces ws l := by
  induction ws with
  | nil => intro l m _; rfl
  | cons w ws ih =>
    intro l m h
    simp only [List.sum_cons] at h
    have hw : w ≤ l.length := by omega
    simp only [pieces, List.take_append_of_le_length hw, List.drop_append_of_le_length hw]
    rw [ih _ _ (by simp; omega)]

theorem rowsOfRecords_cells (l : List Item) : rowsOfRecords (l.dropWhile Item.isTableCell) = rowsOfRecords l := by
  induction l with
  | nil => rfl
  | cons a l ih =>
    by_cases hc : a.isTableCell
    · rw [List.dropWhile_cons_of_pos hc, ih]
      cases a <;> simp [Item.isTableCell] at hc
      rfl
    · rw [List.dropWhile_cons_of_neg (by simpa using hc)]

theorem cellTags_length (l : List Item) (h : ∀ b ∈ l, b.isTableCell) : (cellTags l).length = l.length := by
  induction l with
  | nil => rfl
  | cons a l ih =>
    have ha := h a (by simp)
    have := ih fun b hb => h b (by simp [hb])
    cases a <;> simp [Item.isTableCell] at ha
    simpa [cellTags, cellTag, List.filterMap_cons] using this

theorem rowsOfBodies_other (a : Item) (cs sibs : Forest Item) (h : a.isTableBody = false) :
    rowsOfBodies (.node a cs sibs) = rowsOfBodies sibs := by
  cases a <;> first | rfl | simp [Item.isTableBody] at h

theorem body_not_table {a : Item} (h : a.isTableBody) : isTable a = false := by cases a <;> simp_all [Item.isTableBody, isTable]

theorem adopt_cells_gather (k : Nat) : ∀ f : Forest Item, f.size ≤ k → Everywhere Q4 f → ∀ n, Sib4 n f.roots →
    rowsOfBodies (adopt Item.isTableBody Item.isTableCell f) = rowsOfRecords f.roots ∧
    gather rowsOfBodies (adopt Item.isTableBody Item.isTableCell f) = gather (fun g => rowsOfRecords g.roots) f := by
  induction k with
  | zero =>
    intro f hk _ n hs
    cases f with
    | nil => rw [adopt_nil]; exact ⟨rfl, rfl⟩
    | node a cs sibs => simp [Forest.size] at hk
  | succ k ih =>
    intro f hk hq n hs
    cases f with
    | nil => rw [adopt_nil]; exact ⟨rfl, rfl⟩
    | node a cs sibs =>
      simp only [Forest.size] at hk
      obtain ⟨q1, q2, q3⟩ := hq
      obtain ⟨a1, a2, a3, a4, a5⟩ := q1
      simp only [Forest.roots] at hs ⊢
      by_cases hp : a.isTableBody
      · rw [adopt_node_parent hp]
        obtain ⟨t1, t2⟩ := everywhere_takeWhile Q4 Item.isTableCell sibs q3
        obtain ⟨ws, t, rfl, hn, hpos, hsib⟩ : ∃ ws t, a = .tableBody (some ws) t ∧ n = 0 ∧ (∀ w ∈ ws, 0 < w) ∧
            Sib4 ws.sum sibs.roots := by
          cases a <;> simp [Item.isTableBody] at hp
          case tableBody rc t =>
          cases rc with
          | none => cases hs
          | some ws => exact ⟨ws, t, rfl, hs.1, hs.2.1, hs.2.2⟩
        obtain ⟨s1, s2, s3⟩ := sib4_cells _ _ hsib
        have hle : (sibs.takeWhile Item.isTableCell).size ≤ k := by have := sibs.size_takeWhile Item.isTableCell; omega
        have s2' : Sib4 ws.sum (sibs.takeWhile Item.isTableCell).roots := by rw [Forest.roots_takeWhile]; exact s2
        obtain ⟨-, d2⟩ := ih (sibs.takeWhile Item.isTableCell) hle t1 ws.sum s2'
        obtain ⟨e1, e2⟩ := ih (sibs.dropWhile Item.isTableCell)
          (by have := sibs.size_dropWhile Item.isTableCell; omega) t2 0 (by rw [Forest.roots_dropWhile]; exact s3)
        have hcells : ∀ b ∈ (sibs.takeWhile Item.isTableCell).roots, b.isTableCell := by
          rw [Forest.roots_takeWhile]
          intro b hb
          exact (List.all_eq_true.1 List.all_takeWhile) b hb
        obtain ⟨-, -, -, d4⟩ := adopt_cells _ (sibs.takeWhile Item.isTableCell) (Nat.le_refl _) t1 ws.sum s2'
        have hcs : cs = .nil := forest_nil_of_roots (a3 rfl)
        subst hcs
        rw [adopt_nil]
        simp only [Forest.append]
        constructor
        · simp only [rowsOfBodies, rowsOfRecords, e1, Forest.roots_dropWhile, rowsOfRecords_cells, d4 hcells]
          congr 1
          conv => rhs; rw [← List.takeWhile_append_dropWhile (p := Item.isTableCell) (l := sibs.roots), cellTags_append]
          rw [pieces_append, Forest.roots_takeWhile]
          rw [Forest.roots_takeWhile] at hcells
          rw [cellTags_length _ hcells, s1]
        · simp only [gather, isTable, Bool.false_eq_true, if_false, List.nil_append, d2, e2]
          rw [← gather_append, Forest.takeWhile_append_dropWhile]
      · simp only [Bool.not_eq_true] at hp
        rw [adopt_node_other hp]
        obtain ⟨c1, c2⟩ := ih cs (by omega) q2 0 a5
        have hrest : ∃ n', Sib4 n' sibs.roots := by
          cases a <;> simp [Item.isTableBody] at hp
          case tableCell t => exact ⟨n - 1, hs.2⟩
          all_goals exact ⟨0, hs.2⟩
        obtain ⟨n', r1⟩ := hrest
        obtain ⟨e1, e2⟩ := ih sibs (by omega) q3 n' r1
        constructor
        · rw [rowsOfBodies_other _ _ _ hp, rowsOfRecords_other _ _ hp, e1]
        · simp only [gather, c1, c2, e2]

/-! ### Rows -/

theorem gather_groupRows {β : Type} (φ : Forest Item → β) (ws : List Nat) : ∀ f : Forest Item, f.roots.length = ws.sum →
    gather φ (groupRows ws f) = gather φ f := by
  induction ws with
  | nil =>
    intro f h
    cases f with
    | nil => rfl
    | node a cs sibs => simp [Forest.roots] at h
  | cons w ws ih =>
    intro f h
    simp only [List.sum_cons] at h
    have := ih (f.drop w) (by simp [Forest.roots_drop]; omega)
    simp only [groupRows, gather, isTable, Bool.false_eq_true, if_false, List.nil_append, this]
    rw [← gather_append, Forest.take_append_drop]

theorem forest_roots_take (f : Forest Item) : ∀ n, (f.take n).roots = f.roots.take n := by
  induction f with
  | nil => intro n; cases n <;> rfl
  | node a cs sibs _ ih =>
    intro n
    cases n with
    | zero => rfl
    | succ n => simp [Forest.take, Forest.roots, ih]

theorem rowsIn_groupRows (ws : List Nat) : ∀ f : Forest Item, (∀ b ∈ f.roots, b.isTableCell) →
    rowsIn (groupRows ws f) = pieces ws (cellTags f.roots) := by
  induction ws with
  | nil => intro f _; rfl
  | cons w ws ih =>
    intro f hf
    have hm : ∀ l : List Item, (∀ b ∈ l, b.isTableCell) → ∀ n, cellTags (l.take n) = (cellTags l).take n ∧ cellTags (l.drop n) = (cellTags l).drop n := by
      intro l
      induction l with
      | nil => intro _ n; cases n <;> exact ⟨rfl, rfl⟩
      | cons a l ihl =>
        intro hl n
        have ha := hl a (by simp)
        have ihl := ihl fun b hb => hl b (by simp [hb])
        cases n with
        | zero => exact ⟨rfl, rfl⟩
        | succ n =>
          cases a <;> simp [Item.isTableCell] at ha
          have := ihl n
          simpa [cellTags, cellTag, List.filterMap_cons] using this
    simp only [groupRows, rowsIn, pieces, forest_roots_take, (hm _ hf w).1]
    rw [ih, Forest.roots_drop, (hm _ hf w).2]
    rw [Forest.roots_drop]
    intro b hb
    exact hf b (List.mem_of_mem_drop hb)

theorem rowsOfRows_other (a : Item) (cs sibs : Forest Item) (h : a.isTableBody = false) :
    rowsOfRows (.node a cs sibs) = rowsOfRows sibs := by
  cases a <;> first | rfl | simp [Item.isTableBody] at h

theorem rowed_true_roots (f : Forest Item) : ∀ g, rowed true f = some g → (∀ b ∈ g.roots, b.isTableCell) ∧ cellTags g.roots = cellTags f.roots ∧
    g.roots.length = f.roots.length := by
  induction f with
  | nil => intro g h; simp [rowed] at h; subst h; simp [Forest.roots, cellTags]
  | node a cs sibs _ ih =>
    intro g h
    cases a <;> simp [rowed, Option.bind_eq_some_iff] at h
    case tableCell t =>
    obtain ⟨cs', h1, sibs', h2, rfl⟩ := h
    obtain ⟨i1, i2, i3⟩ := ih _ h2
    refine ⟨?_, ?_, by simp [Forest.roots, i3]⟩
    · intro b hb
      rcases List.mem_cons.1 hb with rfl | hb
      · rfl
      · exact i1 b hb
    · simpa [Forest.roots, cellTags, cellTag, List.filterMap_cons] using i2

theorem rowed_gather (f : Forest Item) : ∀ b g, rowed b f = some g →
    rowsOfRows g = rowsOfBodies f ∧ gather rowsOfRows g = gather rowsOfBodies f := by
  induction f with
  | nil =>
    intro b g h
    cases b <;> (simp [rowed] at h; subst h; exact ⟨rfl, rfl⟩)
  | node a cs sibs ih1 ih2 =>
    intro b g h
    obtain ⟨cs', sibs', h2, ⟨ws, t, rfl, h1, h3, rfl⟩ | ⟨hb, h1, rfl⟩⟩ := rowed_cases h
    · obtain ⟨r1, r2, r3⟩ := rowed_true_roots _ _ h1
      obtain ⟨i1, i2⟩ := ih1 _ _ h1
      obtain ⟨j1, j2⟩ := ih2 _ _ h2
      simp only [rowsOfRows, rowsOfBodies, rowsIn_groupRows ws cs' r1, r2, j1, gather, isTable, Bool.false_eq_true, if_false,
        List.nil_append, gather_groupRows rowsOfRows ws cs' (by rw [r3, h3]), i2, j2, and_self]
    · obtain ⟨i1, i2⟩ := ih1 _ _ h1
      obtain ⟨j1, j2⟩ := ih2 _ _ h2
      refine ⟨by rw [rowsOfRows_other _ _ _ hb, rowsOfBodies_other _ _ _ hb, j1], ?_⟩
      simp only [gather, i1, i2, j2]

/-! ### Tokens -/

theorem tokens_rows (sh : Nat) (ts : List (Lang × PyStr)) (g : Forest Item) :
    let g' := ts.foldr (fun t f => Forest.node (.text t.2 sh (some t.1)) .nil f) g
    cellTags g'.roots = cellTags g.roots ∧ rowsIn g' = rowsIn g ∧ rowsOfRows g' = rowsOfRows g ∧
      gather rowsOfRows g' = gather rowsOfRows g := by
  induction ts with
  | nil => exact ⟨rfl, rfl, rfl, rfl⟩
  | cons t ts ih =>
    obtain ⟨h1, h2, h3, h4⟩ := ih
    refine ⟨?_, h2, h3, ?_⟩
    · simpa [Forest.roots, cellTags, cellTag, List.filterMap_cons] using h1
    · simpa [gather, isTable] using h4

theorem cellTags_cons (a : Item) (l m : List Item) (h : cellTags l = cellTags m) : cellTags (a :: l) = cellTags (a :: m) := by
  simp only [cellTags] at h
  simp only [cellTags, List.filterMap_cons, h]

theorem rowsIn_cons (a : Item) (cs ds sibs tibs : Forest Item) (h : cellTags cs.roots = cellTags ds.roots) (h2 : rowsIn sibs = rowsIn tibs) :
    rowsIn (.node a cs sibs) = rowsIn (.node a ds tibs) := by
  cases a <;> first | exact h2 | skip
  simp only [rowsIn, h, h2]

theorem rowsOfRows_cons (a : Item) (cs ds sibs tibs : Forest Item) (h : rowsIn cs = rowsIn ds) (h2 : rowsOfRows sibs = rowsOfRows tibs) :
    rowsOfRows (.node a cs sibs) = rowsOfRows (.node a ds tibs) := by
  cases a <;> first | exact h2 | skip
  simp only [rowsOfRows, h, h2]

theorem tokenized_rows (f : Forest Item) (h : TextLeaves f) :
    cellTags (tokenized f).roots = cellTags f.roots ∧ rowsIn (tokenized f) = rowsIn f ∧
      rowsOfRows (tokenized f) = rowsOfRows f ∧ gather rowsOfRows (tokenized f) = gather rowsOfRows f := by
  induction f with
  | nil => exact ⟨rfl, rfl, rfl, rfl⟩
  | node a cs sibs ih1 ih2 =>
    obtain ⟨h1, h2, h3⟩ := h
    obtain ⟨i1, i2, i3, i4⟩ := ih1 h2
    obtain ⟨j1, j2, j3, j4⟩ := ih2 h3
    by_cases ht : a.isText
    · have hc := h1 ht
      subst hc
      cases a <;> simp [Item.isText] at ht
      case text s sh l =>
      obtain ⟨t1, t2, t3, t4⟩ := tokens_rows sh (tokenizeByLang s) (tokenized sibs)
      simp only [tokenized]
      refine ⟨?_, t2.trans j2, t3.trans j3, ?_⟩
      · rw [t1, j1]
        simp [Forest.roots, cellTags, cellTag, List.filterMap_cons]
      · rw [t4, j4]
        simp [gather, isTable]
    · rw [tokenized_other _ _ _ (by simpa using ht)]
      refine ⟨cellTags_cons _ _ _ j1, rowsIn_cons _ _ _ _ _ i1 j2, rowsOfRows_cons _ _ _ _ _ i2 j3, ?_⟩
      simp only [gather, i3, i4, j4]

/-! ### The section definition -/

theorem extract_rows (f : Forest Item) : ∀ a cs f', extractSection f = some ((a, cs), f') →
    cellTags f'.roots = cellTags f.roots ∧ rowsIn f' = rowsIn f ∧ rowsOfRows f' = rowsOfRows f ∧
      (gather rowsOfRows f).Perm (gather rowsOfRows cs ++ gather rowsOfRows f') := by
  induction f with
  | nil => intro a cs f' h; cases h
  | node a cs sibs ih1 ih2 =>
    intro b ks f' h
    simp only [extractSection] at h
    split at h
    · rename_i hs
      simp only [Option.some.injEq, Prod.mk.injEq] at h
      obtain ⟨⟨rfl, rfl⟩, rfl⟩ := h
      cases a <;> simp [Item.isSectionDef] at hs
      refine ⟨by simp [Forest.roots, cellTags, cellTag, List.filterMap_cons], rfl, rfl, ?_⟩
      simp [gather, isTable]
    · split at h
      · rename_i sd cs' heq
        simp only [Option.some.injEq, Prod.mk.injEq] at h
        obtain ⟨rfl, rfl⟩ := h
        obtain ⟨i1, i2, i3, i4⟩ := ih1 _ _ _ heq
        refine ⟨rfl, rowsIn_cons _ _ _ _ _ i1 rfl, rowsOfRows_cons _ _ _ _ _ i2 rfl, ?_⟩
        simp only [gather, i3, List.append_assoc]
        refine ((i4.append_right _).append_left _).trans ?_
        generalize (if isTable a = true then [rowsOfRows cs] else []) = X
        simp only [List.append_assoc]
        rw [← List.append_assoc, ← List.append_assoc (gather rowsOfRows _) X]
        exact List.perm_append_comm.append_right _
      · split at h
        · rename_i sd sibs' heq
          simp only [Option.some.injEq, Prod.mk.injEq] at h
          obtain ⟨rfl, rfl⟩ := h
          obtain ⟨i1, i2, i3, i4⟩ := ih2 _ _ _ heq
          refine ⟨cellTags_cons _ _ _ i1, rowsIn_cons _ _ _ _ _ rfl i2, rowsOfRows_cons _ _ _ _ _ rfl i3, ?_⟩
          simp only [gather]
          refine (i4.append_left _).trans ?_
          rw [← List.append_assoc, ← List.append_assoc (gather rowsOfRows _) _ (gather rowsOfRows sibs')]
          exact List.perm_append_comm.append_right _
        · cases h

/-! ### Columns -/

/-- A list of siblings in which every paragraph follows a list header or a cell, with only paragraphs in between. -/
def Tidy : Bool → List Item → Prop
  | _, [] => True
  | b, .paragraph _ _ :: r => b = true ∧ Tidy b r
  | _, a :: r => Tidy a.isListHeader r

/-- Table controls have no paragraphs among their children. -/
def Wt (a : Item) (rs : List Item) : Prop := isTable a → ∀ b ∈ rs, b.isParagraph = false

/-- Nor have table bodies and rows. -/
def W (a : Item) (rs : List Item) : Prop := isTable a ∨ a.isTableBody ∨ a = .tableRow → ∀ b ∈ rs, b.isParagraph = false

theorem tidy_drop (l : List Item) : ∀ b, Tidy b l → Tidy false (l.dropWhile Item.isParagraph) := by
  induction l with
  | nil => intro b _; trivial
  | cons a l ih =>
    intro b h
    by_cases hp : a.isParagraph
    · rw [List.dropWhile_cons_of_pos hp]
      cases a <;> simp [Item.isParagraph] at hp
      exact ih _ h.2
    · rw [List.dropWhile_cons_of_neg (by simpa using hp)]
      cases a <;> first | exact h | simp [Item.isParagraph] at hp

theorem adopt_tidy (k : Nat) : ∀ f : Forest Item, f.size ≤ k → Tidy false f.roots →
    ∀ b ∈ (adopt Item.isListHeader Item.isParagraph f).roots, b.isParagraph = false := by
  induction k with
  | zero =>
    intro f hf
    cases f with
    | nil => rw [adopt_nil]; simp [Forest.roots]
    | node a cs sibs => simp [Forest.size] at hf
  | succ k ih =>
    intro f hf ht
    cases f with
    | nil => rw [adopt_nil]; simp [Forest.roots]
    | node a cs sibs =>
      simp only [Forest.size] at hf
      have hp : a.isParagraph = false := by
        cases a <;> first | rfl | exact absurd ht.1 (by simp)
      have ht' : Tidy a.isListHeader sibs.roots := by
        cases a <;> first | exact ht | simp [Item.isParagraph] at hp
      by_cases hl : a.isListHeader
      · rw [adopt_node_parent hl]
        have h1 := ih (sibs.dropWhile Item.isParagraph) (by have := sibs.size_dropWhile Item.isParagraph; omega)
          (by rw [Forest.roots_dropWhile]; exact tidy_drop _ _ ht')
        intro b hb
        rcases List.mem_cons.1 hb with rfl | hb
        · exact hp
        · exact h1 b hb
      · rw [adopt_node_other (by simpa using hl)]
        have h1 := ih sibs (by omega) (by simpa [hl] using ht')
        intro b hb
        rcases List.mem_cons.1 hb with rfl | hb
        · exact hp
        · exact h1 b hb

theorem adopt_Wt (k : Nat) : ∀ f : Forest Item, f.size ≤ k → (∀ l ∈ gather Forest.roots f, Tidy false l) →
    Everywhere Wt (adopt Item.isListHeader Item.isParagraph f) := by
  induction k with
  | zero =>
    intro f hf
    cases f with
    | nil => rw [adopt_nil]; intro _; trivial
    | node a cs sibs => simp [Forest.size] at hf
  | succ k ih =>
    intro f hf ht
    cases f with
    | nil => rw [adopt_nil]; trivial
    | node a cs sibs =>
      simp only [Forest.size] at hf
      simp only [gather, List.mem_append] at ht
      have hc := ih cs (by omega) fun l hl => ht l (.inl (.inr hl))
      by_cases hl : a.isListHeader
      · rw [adopt_node_parent hl]
        have e : gather Forest.roots sibs = gather Forest.roots (sibs.takeWhile Item.isParagraph) ++ gather Forest.roots (sibs.dropWhile Item.isParagraph) := by
          rw [← gather_append, Forest.takeWhile_append_dropWhile]
        have h2 := ih (sibs.takeWhile Item.isParagraph) (by have := sibs.size_takeWhile Item.isParagraph; omega)
          fun l hl => ht l (.inr (by rw [e]; simp [hl]))
        have h3 := ih (sibs.dropWhile Item.isParagraph) (by have := sibs.size_dropWhile Item.isParagraph; omega)
          fun l hl => ht l (.inr (by rw [e]; simp [hl]))
        exact ⟨fun h => by simp [listHeader_not_table hl] at h, (everywhere_append _ _ _).2 ⟨hc, h2⟩, h3⟩
      · rw [adopt_node_other (by simpa using hl)]
        refine ⟨fun h => adopt_tidy _ _ (Nat.le_refl _) (ht _ (.inl (.inl (by simp [h])))), hc, ih sibs (by omega) fun l hl => ht l (.inr hl)⟩

theorem adopt_sub (isP isC : Item → Bool) (k : Nat) : ∀ f : Forest Item, f.size ≤ k → ∀ b ∈ (adopt isP isC f).roots, b ∈ f.roots := by
  induction k with
  | zero =>
    intro f hf
    cases f with
    | nil => rw [adopt_nil]; exact fun _ h => h
    | node a cs sibs => simp [Forest.size] at hf
  | succ k ih =>
    intro f hf b hb
    cases f with
    | nil => rw [adopt_nil] at hb; exact hb
    | node a cs sibs =>
      simp only [Forest.size] at hf
      by_cases hl : isP a
      · rw [adopt_node_parent hl] at hb
        rcases List.mem_cons.1 hb with rfl | hb
        · simp [Forest.roots]
        · have := ih (sibs.dropWhile isC) (by have := sibs.size_dropWhile isC; omega) b hb
          rw [Forest.roots_dropWhile] at this
          exact List.mem_cons_of_mem _ ((List.dropWhile_sublist _).mem this)
      · rw [adopt_node_other (by simpa using hl)] at hb
        rcases List.mem_cons.1 hb with rfl | hb
        · simp [Forest.roots]
        · exact List.mem_cons_of_mem _ (ih sibs (by omega) b hb)

theorem adopt_Wt2 (k : Nat) : ∀ f : Forest Item, f.size ≤ k → Everywhere Wt f → Everywhere Wt (adopt Item.isTableBody Item.isTableCell f) := by
  induction k with
  | zero =>
    intro f hf
    cases f with
    | nil => rw [adopt_nil]; intro _; trivial
    | node a cs sibs => simp [Forest.size] at hf
  | succ k ih =>
    intro f hf ht
    cases f with
    | nil => rw [adopt_nil]; trivial
    | node a cs sibs =>
      simp only [Forest.size] at hf
      obtain ⟨h1, h2, h3⟩ := ht
      have hc := ih cs (by omega) h2
      by_cases hl : a.isTableBody
      · rw [adopt_node_parent hl]
        obtain ⟨t1, t2⟩ := everywhere_takeWhile Wt Item.isTableCell sibs h3
        have h2 := ih (sibs.takeWhile Item.isTableCell) (by have := sibs.size_takeWhile Item.isTableCell; omega) t1
        have h3 := ih (sibs.dropWhile Item.isTableCell) (by have := sibs.size_dropWhile Item.isTableCell; omega) t2
        exact ⟨fun h => by simp [body_not_table hl] at h, (everywhere_append _ _ _).2 ⟨hc, h2⟩, h3⟩
      · rw [adopt_node_other (by simpa using hl)]
        exact ⟨fun h b hb => h1 h b (adopt_sub _ _ _ _ (Nat.le_refl _) b hb), hc, ih sibs (by omega) h3⟩

theorem everywhere_of_items {R : Item → Prop} (f : Forest Item) (h : ∀ a ∈ f.items, R a) : Everywhere (fun a _ => R a) f := by
  induction f with
  | nil => trivial
  | node a cs sibs ih1 ih2 =>
    exact ⟨h a (by simp [Forest.items]), ih1 fun b hb => h b (by simp [Forest.items, hb]), ih2 fun b hb => h b (by simp [Forest.items, hb])⟩

theorem items_of_everywhere {R : Item → List Item → Prop} {P : Item → Prop} (hi : ∀ a l, R a l → P a) (f : Forest Item) (h : Everywhere R f) : ∀ a ∈ f.items, P a := by
  induction f with
  | nil => simp [Forest.items]
  | node a cs sibs ih1 ih2 =>
    intro b hb
    simp only [Forest.items, List.mem_cons, List.mem_append] at hb
    rcases hb with rfl | hb | hb
    · exact hi _ _ h.1
    · exact ih1 h.2.1 b hb
    · exact ih2 h.2.2 b hb

theorem everywhere_and {R S : Item → List Item → Prop} (f : Forest Item) (h : Everywhere R f) (h' : Everywhere S f) :
    Everywhere (fun a l => R a l ∧ S a l) f := by
  induction f with
  | nil => trivial
  | node a cs sibs ih1 ih2 => exact ⟨⟨h.1, h'.1⟩, ih1 h.2.1 h'.2.1, ih2 h.2.2 h'.2.2⟩

theorem groupRows_W (ws : List Nat) : ∀ f : Forest Item, Everywhere W f → (∀ b ∈ f.roots, b.isTableCell) →
    Everywhere W (groupRows ws f) := by
  induction ws with
  | nil => intro f _ _; trivial
  | cons w ws ih =>
    intro f h hc
    refine ⟨?_, (everywhere_take W f h w).1, ih _ (everywhere_take W f h w).2 ?_⟩
    · intro _ b hb
      rw [forest_roots_take] at hb
      have := hc b (List.mem_of_mem_take hb)
      cases b <;> simp_all [Item.isTableCell, Item.isParagraph]
    · intro b hb
      rw [Forest.roots_drop] at hb
      exact hc b (List.mem_of_mem_drop hb)

theorem groupRows_roots (ws : List Nat) : ∀ f : Forest Item, ∀ b ∈ (groupRows ws f).roots, b = .tableRow := by
  induction ws with
  | nil => intro f b hb; simp [groupRows, Forest.roots] at hb
  | cons w ws ih =>
    intro f b hb
    rcases List.mem_cons.1 hb with rfl | hb
    · rfl
    · exact ih _ b hb

theorem rowed_W (f : Forest Item) : ∀ b g, rowed b f = some g → Everywhere W f →
    Everywhere W g ∧ ((∀ b ∈ f.roots, b.isParagraph = false) → ∀ b ∈ g.roots, b.isParagraph = false) := by
  induction f with
  | nil =>
    intro b g h _
    cases b <;> (simp [rowed] at h; subst h; exact ⟨trivial, id⟩)
  | node a cs sibs ih1 ih2 =>
    intro b g h hw
    obtain ⟨cs', sibs', h2, ⟨ws, t, rfl, h1, h3, rfl⟩ | ⟨hb, h1, rfl⟩⟩ := rowed_cases h
    · obtain ⟨r1, r2, r3⟩ := rowed_true_roots _ _ h1
      obtain ⟨i1, i2⟩ := ih1 _ _ h1 hw.2.1
      obtain ⟨j1, j2⟩ := ih2 _ _ h2 hw.2.2
      refine ⟨⟨?_, groupRows_W _ _ i1 r1, j1⟩, ?_⟩
      · intro _ b hb
        rw [groupRows_roots _ _ b hb]; rfl
      · intro hr b hb
        rcases List.mem_cons.1 hb with rfl | hb
        · rfl
        · exact j2 (fun b hb => hr b (by simp [Forest.roots, hb])) b hb
    · obtain ⟨i1, i2⟩ := ih1 _ _ h1 hw.2.1
      obtain ⟨j1, j2⟩ := ih2 _ _ h2 hw.2.2
      refine ⟨⟨fun ha => i2 (hw.1 ha), i1, j1⟩, ?_⟩
      intro hr b hb
      rcases List.mem_cons.1 hb with rfl | hb
      · exact hr _ (by simp [Forest.roots])
      · exact j2 (fun b hb => hr b (by simp [Forest.roots, hb])) b hb

theorem tokens_W (sh : Nat) (ts : List (Lang × PyStr)) (g : Forest Item) (h : Everywhere W g) :
    Everywhere W (ts.foldr (fun t f => Forest.node (.text t.2 sh (some t.1)) .nil f) g) ∧
    ((∀ b ∈ g.roots, b.isParagraph = false) →
      ∀ b ∈ (ts.foldr (fun t f => Forest.node (.text t.2 sh (some t.1)) .nil f) g).roots, b.isParagraph = false) := by
  induction ts with
  | nil => exact ⟨h, id⟩
  | cons t ts ih =>
    refine ⟨⟨by simp [W, isTable, Item.isTableBody], trivial, ih.1⟩, ?_⟩
    intro hg b hb
    rcases List.mem_cons.1 hb with rfl | hb
    · rfl
    · exact ih.2 hg b hb

theorem tokenized_W (f : Forest Item) (h : Everywhere W f) : Everywhere W (tokenized f) ∧
    ((∀ b ∈ f.roots, b.isParagraph = false) → ∀ b ∈ (tokenized f).roots, b.isParagraph = false) := by
  induction f with
  | nil => exact ⟨trivial, id⟩
  | node a cs sibs ih1 ih2 =>
    obtain ⟨c2, c3⟩ := ih1 h.2.1
    obtain ⟨s2, s3⟩ := ih2 h.2.2
    by_cases ht : a.isText
    · cases a <;> simp [Item.isText] at ht
      case text s sh l =>
      simp only [tokenized]
      obtain ⟨t1, t2⟩ := tokens_W sh (tokenizeByLang s) _ s2
      exact ⟨t1, fun h => t2 (s3 (fun b hb => h b (by simp [Forest.roots, hb])))⟩
    · rw [tokenized_other _ _ _ (by simpa using ht)]
      refine ⟨⟨fun ha => c3 (h.1 ha), c2, s2⟩, ?_⟩
      intro h b hb
      rcases List.mem_cons.1 hb with rfl | hb
      · exact h b (by simp [Forest.roots])
      · exact s3 (fun b hb => h b (by simp [Forest.roots, hb])) b hb

theorem extract_W (f : Forest Item) : ∀ a cs f', extractSection f = some ((a, cs), f') → Everywhere W f →
    Everywhere W cs ∧ Everywhere W f' ∧ ∀ b ∈ f'.roots, b ∈ f.roots := by
  induction f with
  | nil => intro a cs f' h; cases h
  | node a cs sibs ih1 ih2 =>
    intro b ks f' h hq
    simp only [extractSection] at h
    split at h
    · simp only [Option.some.injEq, Prod.mk.injEq] at h
      obtain ⟨⟨rfl, rfl⟩, rfl⟩ := h
      exact ⟨hq.2.1, hq.2.2, fun b hb => by simp [Forest.roots, hb]⟩
    · split at h
      · rename_i sd cs' heq
        simp only [Option.some.injEq, Prod.mk.injEq] at h
        obtain ⟨rfl, rfl⟩ := h
        obtain ⟨i1, i2, i3⟩ := ih1 _ _ _ heq hq.2.1
        exact ⟨i1, ⟨fun ha b hb => hq.1 ha b (i3 b hb), i2, hq.2.2⟩, fun b hb => by simpa [Forest.roots] using hb⟩
      · split at h
        · rename_i sd sibs' heq
          simp only [Option.some.injEq, Prod.mk.injEq] at h
          obtain ⟨rfl, rfl⟩ := h
          obtain ⟨i1, i2, i3⟩ := ih2 _ _ _ heq hq.2.2
          refine ⟨i1, ⟨hq.1, hq.2.1, i2⟩, ?_⟩
          intro b hb
          simp only [Forest.roots, List.mem_cons] at hb ⊢
          exact hb.imp id (i3 b)
        · cases h

theorem not_starts {a : Item} (h : a.isParagraph = false) : startsColumns a = false := by
  cases a <;> first | rfl | simp [Item.isParagraph] at h

theorem columned_rows (f : Forest Item) (hw : Everywhere W f) (h : ∀ b ∈ f.roots, b.isParagraph = false) :
    (columned f).roots = f.roots ∧ rowsIn (columned f) = rowsIn f ∧ rowsOfRows (columned f) = rowsOfRows f := by
  induction f with
  | nil => rw [columned_nil]; exact ⟨rfl, rfl, rfl⟩
  | node a cs sibs ih1 ih2 =>
    rw [columned_other (not_starts (h a (by simp [Forest.roots])))]
    obtain ⟨j1, j2, j3⟩ := ih2 hw.2.2 fun b hb => h b (by simp [Forest.roots, hb])
    refine ⟨by simp [Forest.roots, j1], ?_, ?_⟩
    · by_cases hr : a = .tableRow
      · obtain ⟨i1, -, -⟩ := ih1 hw.2.1 (hw.1 (.inr (.inr hr)))
        exact rowsIn_cons _ _ _ _ _ (by rw [i1]) j2
      · cases a <;> first | exact j2 | simp at hr
    · by_cases hr : a.isTableBody
      · obtain ⟨-, i2, -⟩ := ih1 hw.2.1 (hw.1 (.inr (.inl hr)))
        exact rowsOfRows_cons _ _ _ _ _ i2 j3
      · rw [rowsOfRows_other _ _ _ (by simpa using hr), rowsOfRows_other _ _ _ (by simpa using hr), j3]

theorem columned_gather (k : Nat) : ∀ f : Forest Item, f.size ≤ k → Everywhere W f →
    gather rowsOfRows (columned f) = gather rowsOfRows f := by
  induction k with
  | zero =>
    intro f hf
    cases f with
    | nil => rw [columned_nil]; intro _; rfl
    | node a cs sibs => simp [Forest.size] at hf
  | succ k ih =>
    intro f hf hw
    cases f with
    | nil => rw [columned_nil]
    | node a cs sibs =>
      simp only [Forest.size] at hf
      by_cases hs : startsColumns a
      · rw [columned_start hs]
        have ha : isTable a = false := by cases a <;> simp_all [startsColumns, isTable]
        obtain ⟨t1, t2⟩ := everywhere_takeWhile W (!startsColumns ·) sibs hw.2.2
        have h1 := ih cs (by omega) hw.2.1
        have h2 := ih (sibs.takeWhile (!startsColumns ·)) (by have := sibs.size_takeWhile (!startsColumns ·); omega) t1
        have h3 := ih (sibs.dropWhile (!startsColumns ·)) (by have := sibs.size_dropWhile (!startsColumns ·); omega) t2
        simp only [gather, ha, show isTable .columnSet = false from rfl, Bool.false_eq_true, if_false, List.nil_append, h1, h2, h3, List.append_assoc]
        rw [← gather_append, Forest.takeWhile_append_dropWhile]
      · rw [columned_other (by simpa using hs)]
        simp only [gather, ih cs (by omega) hw.2.1, ih sibs (by omega) hw.2.2]
        congr 2
        by_cases ha : isTable a
        · simp only [ha, if_true, (columned_rows cs hw.2.1 (hw.1 (.inl ha))).2.2]
        · simp only [ha, if_false, Bool.false_eq_true]

/-! ### All passes -/

theorem pipeline_tables (sid : Option Nat) (f : Forest Item) (h : ProperSection f) (ht : ∀ l ∈ gather Forest.roots f, Tidy false l)
    (a : Item) (g : Forest Item) (he : sectionEvents sid (.ofList (eventsOf f)) = .ofList (eventsOf (.node a g .nil))) :
    (gather rowsOfRows g).Perm ((gather Forest.roots f).map rowsOfRecords) := by
  obtain ⟨f1, f6, f8, cs, i, t, t1, e6, hx, e, -, -, -, -, -, hfp, hl7, hq7⟩ := Props.pipeline_all sid f h
  obtain ⟨h1, h2, h3, -⟩ := h
  have hr1 : ∀ a ∈ f1.roots, a.isParagraph := by
    intro a ha
    rw [texted_roots t1] at ha
    exact h1 a (List.mem_filter.1 ha).1
  have hio : InlineOk false f1 := by
    refine texted_inlineOk t1 h2 false ?_
    intro _ a ha
    have := h1 a ha
    cases a <;> simp_all [Item.isParagraph, Item.isControl]
  have hq1 := texted_Q t1 h2
  obtain ⟨hq2, hr2⟩ := inlined_Q f1 hq1
  obtain ⟨hq3, hr3⟩ := fielded_Q _ hfp hq2
  have hs3 : SiblingsOk 0 false (fielded (inlined f1)).roots := by
    rw [hr3, hr2]
    have : ∀ l : List Item, (∀ a ∈ l, a.isParagraph) → SiblingsOk 0 false l := by
      intro l hl
      induction l with
      | nil => rfl
      | cons a l ih =>
        have ha := hl a (by simp)
        cases a <;> simp [Item.isParagraph] at ha
        exact ⟨.inl rfl, ih (fun b hb => hl b (by simp [hb]))⟩
    exact this _ hr1
  obtain ⟨hq4, hs4, hr4⟩ := adopt_lists _ _ (Nat.le_refl _) hq3 0 hs3
  obtain ⟨hq5, hr5, hn5, -⟩ := adopt_cells _ _ (Nat.le_refl _) hq4 0 hs4
  have g3 : (gather Forest.roots (fielded (inlined f1))).Perm (gather Forest.roots f) := by
    rw [fielded_gather _ hfp hq2, ← texted_gather t1 h2]
    exact (inlined_gather f1 false hio).1
  have w4 := adopt_Wt _ (fielded (inlined f1)) (Nat.le_refl _) fun l hl => ht l (g3.mem_iff.1 hl)
  have w5t := adopt_Wt2 _ _ (Nat.le_refl _) w4
  have nr : ∀ a ∈ (adopt Item.isTableBody Item.isTableCell (adopt Item.isListHeader Item.isParagraph (fielded (inlined f1)))).items, a ≠ .tableRow := by
    rw [adopt_items, adopt_items]
    exact items_of_everywhere (fun a l h => h.2.1) _ hq3
  have w5 : Everywhere W (adopt Item.isTableBody Item.isTableCell (adopt Item.isListHeader Item.isParagraph (fielded (inlined f1)))) := by
    refine Everywhere.mono ?_ _ (everywhere_and _ (everywhere_and _ w5t hq5) (everywhere_of_items _ nr))
    rintro a l ⟨⟨k1, k2⟩, k3⟩ (hh | hh | hh) b hb
    · exact k1 hh b hb
    · obtain ⟨ws, t, -, -, -, k⟩ := k2.2.2.2.2 hh
      have := k b hb
      cases b <;> simp_all [Item.isTableCell, Item.isParagraph]
    · exact absurd hh k3
  have w6 := (rowed_W _ _ _ e6 w5).1
  have w7 := (tokenized_W _ w6).1
  obtain ⟨w8, w8', -⟩ := extract_W _ _ _ _ hx w7
  have hg : g = columned (cs.append f8) := by
    have := he.symm.trans e
    have := eventsOf_injective (by simpa [Gen.ofList] using this)
    simp only [Forest.node.injEq] at this
    exact this.2.1
  rw [hg, columned_gather _ _ (Nat.le_refl _) ((everywhere_append _ _ _).2 ⟨w8, w8'⟩), gather_append]
  refine (extract_rows _ _ _ _ hx).2.2.2.symm.trans ?_
  rw [(tokenized_rows f6 hl7).2.2.2, (rowed_gather _ _ _ e6).2, (adopt_cells_gather _ _ (Nat.le_refl _) hq4 0 hs4).2,
    adopt_lists_gather _ _ (Nat.le_refl _), gather_map Forest.roots rowsOfRecords]
  exact g3.map _

end Hwp
