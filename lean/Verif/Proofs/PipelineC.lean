import Verif.Proofs.PipelineB
import Verif.Proofs.Restructure
namespace Hwp
open Spec
set_option linter.unusedSimpArgs false

theorem Forest.roots_takeWhile {α} (p : α → Bool) (f : Forest α) : (f.takeWhile p).roots = f.roots.takeWhile p := by
  induction f with
  | nil => rfl
  | node a cs sibs _ ih =>
    simp only [Forest.takeWhile, Forest.roots, List.takeWhile_cons]
    split <;> simp [Forest.roots, ih]

theorem Forest.roots_dropWhile {α} (p : α → Bool) (f : Forest α) : (f.dropWhile p).roots = f.roots.dropWhile p := by
  induction f with
  | nil => rfl
  | node a cs sibs _ ih =>
    simp only [Forest.dropWhile, Forest.roots, List.dropWhile_cons]
    split <;> simp [Forest.roots, ih]

theorem everywhere_takeWhile (R : Item → List Item → Prop) (p : Item → Bool) (f : Forest Item)
    (h : Everywhere R f) : Everywhere R (f.takeWhile p) ∧ Everywhere R (f.dropWhile p) := by
  induction f with
  | nil => exact ⟨trivial, trivial⟩
  | node a cs sibs _ ih =>
    have ih := ih h.2.2
    simp only [Forest.takeWhile, Forest.dropWhile]
    split
    · exact ⟨⟨h.1, h.2.1, ih.1⟩, ih.2⟩
    · exact ⟨trivial, h⟩

/-! ### Paragraphs into list headers -/

/-- Siblings in which every table body is directly followed by its cells. -/
def Sib4 : Nat → List Item → Prop
  | n, [] => n = 0
  | n, .tableCell _ :: r => 0 < n ∧ Sib4 (n - 1) r
  | n, .tableBody (some ws) _ :: r => n = 0 ∧ (∀ w ∈ ws, 0 < w) ∧ Sib4 ws.sum r
  | _, .tableBody none _ :: _ => False
  | n, _ :: r => n = 0 ∧ Sib4 0 r

def Q4 (a : Item) (rs : List Item) : Prop :=
  a ≠ .columnSet ∧ (isLeaf a → rs = []) ∧ (a.isTableBody → rs = []) ∧
  (a.isParagraph → ∀ b ∈ rs, harmless b) ∧ Sib4 0 rs

theorem sib4_append (l m : List Item) (hm : Sib4 0 m) : ∀ n, Sib4 n l → Sib4 n (l ++ m) := by
  induction l with
  | nil => intro n h; cases h; exact hm
  | cons a l ih =>
    intro n h
    cases a
    case tableBody rc t =>
      cases rc with
      | none => cases h
      | some ws => exact ⟨h.1, h.2.1, ih _ h.2.2⟩
    all_goals exact ⟨h.1, ih _ h.2⟩

theorem siblingsOk_drop (l : List Item) : ∀ n c, SiblingsOk n c l → SiblingsOk n false (l.dropWhile Item.isParagraph) := by
  induction l with
  | nil => intro n c h; exact h
  | cons a l ih =>
    intro n c h
    cases a
    case paragraph x y =>
      rw [List.dropWhile_cons_of_pos (by rfl)]
      exact ih _ _ h.2
    case tableBody rc t =>
      cases rc with
      | none => cases h
      | some ws => exact h
    all_goals exact h

theorem siblingsOk_paragraphs (l : List Item) : SiblingsOk 0 false (l.takeWhile Item.isParagraph) := by
  induction l with
  | nil => rfl
  | cons a l ih =>
    by_cases h : a.isParagraph
    · rw [List.takeWhile_cons_of_pos h]
      cases a <;> simp [Item.isParagraph] at h
      exact ⟨.inl rfl, ih⟩
    · rw [List.takeWhile_cons_of_neg (by simpa using h)]
      rfl

theorem adopt_node_parent {isP isC : Item → Bool} {a : Item} (h : isP a) (cs sibs : Forest Item) :
    adopt isP isC (.node a cs sibs) =
      .node a ((adopt isP isC cs).append (adopt isP isC (sibs.takeWhile isC))) (adopt isP isC (sibs.dropWhile isC)) := by
  rw [adopt]; simp [h]

theorem adopt_node_other {isP isC : Item → Bool} {a : Item} (h : isP a = false) (cs sibs : Forest Item) :
    adopt isP isC (.node a cs sibs) = .node a (adopt isP isC cs) (adopt isP isC sibs) := by
  rw [adopt]; simp [h]

theorem adopt_nil {isP isC : Item → Bool} : adopt isP isC .nil = .nil := by rw [adopt]

theorem forest_nil_of_roots {f : Forest Item} (h : f.roots = []) : f = .nil := by
  cases f with
  | nil => rfl
  | node _ _ _ => simp [Forest.roots] at h

theorem adopt_lists (k : Nat) : ∀ f : Forest Item, f.size ≤ k → Everywhere Q f → ∀ n, SiblingsOk n false f.roots →
    let g := adopt Item.isListHeader Item.isParagraph f
    Everywhere Q4 g ∧ Sib4 n g.roots ∧ ∀ b ∈ g.roots, b ∈ f.roots := by
  induction k with
  | zero =>
    intro f hk _ n hs
    cases f with
    | nil => rw [adopt_nil]; exact ⟨trivial, hs, by simp⟩
    | node a cs sibs => simp [Forest.size] at hk
  | succ k ih =>
    intro f hk hq n hs
    cases f with
    | nil => rw [adopt_nil]; exact ⟨trivial, hs, by simp⟩
    | node a cs sibs =>
      simp only [Forest.size] at hk
      obtain ⟨q1, q2, q3⟩ := hq
      obtain ⟨a1, a2, a3, a4, a5, a6⟩ := q1
      obtain ⟨c1, c2, c3⟩ := ih cs (by omega) q2 0 a6
      simp only [Forest.roots] at hs ⊢
      by_cases hp : a.isListHeader
      · rw [adopt_node_parent hp]
        obtain ⟨t1, t2⟩ := everywhere_takeWhile Q Item.isParagraph sibs q3
        obtain ⟨d1, d2, d3⟩ := ih (sibs.takeWhile Item.isParagraph)
          (by have := sibs.size_takeWhile Item.isParagraph; omega) t1 0
          (by rw [Forest.roots_takeWhile]; exact siblingsOk_paragraphs _)
        have hrest : ∃ n', SiblingsOk n' false (sibs.dropWhile Item.isParagraph).roots ∧
            ∀ r, Sib4 n' r → Sib4 n (a :: r) := by
          rw [Forest.roots_dropWhile]
          cases a <;> simp [Item.isListHeader] at hp
          case tableCell t => exact ⟨n - 1, siblingsOk_drop _ _ _ hs.2, fun r hr => ⟨hs.1, hr⟩⟩
          case listHeader c t => exact ⟨0, siblingsOk_drop _ _ _ hs.2, fun r hr => ⟨hs.1, hr⟩⟩
        obtain ⟨n', r1, r2⟩ := hrest
        obtain ⟨e1, e2, e3⟩ := ih (sibs.dropWhile Item.isParagraph)
          (by have := sibs.size_dropWhile Item.isParagraph; omega) t2 n' r1
        refine ⟨⟨?_, ?_, e1⟩, r2 _ e2, ?_⟩
        · rw [Forest.roots_append]
          refine ⟨a1, ?_, ?_, ?_, sib4_append _ _ d2 _ c2⟩
          all_goals cases a <;> simp_all [Item.isListHeader, isLeaf, Item.isControlChar, Item.isText, Item.isTableBody, Item.isParagraph]
        · rw [everywhere_append]; exact ⟨c1, d1⟩
        · intro b hb
          simp only [Forest.roots, List.mem_cons] at hb ⊢
          rcases hb with rfl | hb
          · exact .inl rfl
          · right
            have := e3 b hb
            rw [Forest.roots_dropWhile] at this
            exact (List.dropWhile_sublist _).mem this
      · simp only [Bool.not_eq_true] at hp
        rw [adopt_node_other hp]
        have hrest : ∃ n', SiblingsOk n' false sibs.roots ∧ ∀ r, Sib4 n' r → Sib4 n (a :: r) := by
          cases a <;> simp [Item.isListHeader] at hp
          case paragraph x y =>
            have h0 : n = 0 := by simpa using hs.1
            exact ⟨n, hs.2, fun r hr => ⟨h0, h0 ▸ hr⟩⟩
          case tableBody rc t =>
            cases rc with
            | none => cases hs
            | some ws => exact ⟨ws.sum, hs.2.2, fun r hr => ⟨hs.1, hs.2.1, hr⟩⟩
          all_goals exact ⟨0, hs.2, fun r hr => ⟨hs.1, hr⟩⟩
        obtain ⟨n', r1, r2⟩ := hrest
        obtain ⟨e1, e2, e3⟩ := ih sibs (by omega) q3 n' r1
        refine ⟨⟨?_, c1, e1⟩, r2 _ e2, ?_⟩
        · refine ⟨a1, ?_, ?_, ?_, c2⟩
          · intro ht
            rw [forest_nil_of_roots (a3 ht), adopt_nil]; rfl
          · intro ht
            rw [forest_nil_of_roots (a4 ht), adopt_nil]; rfl
          · intro ht b hb
            exact a5 (.inl ht) b (c3 b hb)
        · intro b hb
          simp only [Forest.roots, List.mem_cons] at hb ⊢
          rcases hb with rfl | hb
          · exact .inl rfl
          · exact .inr (e3 b hb)

/-! ### Cells into table bodies -/

def Q5 (a : Item) (rs : List Item) : Prop :=
  a ≠ .columnSet ∧ (isLeaf a → rs = []) ∧ (a.isParagraph → ∀ b ∈ rs, b.isParagraph = false) ∧
  (a.isTableBody = false → ∀ b ∈ rs, b.isTableCell = false) ∧
  (a.isTableBody → ∃ ws t, a = .tableBody (some ws) t ∧ (∀ w ∈ ws, 0 < w) ∧ rs.length = ws.sum ∧
    ∀ b ∈ rs, b.isTableCell)

theorem sib4_cells (l : List Item) : ∀ n, Sib4 n l → (l.takeWhile Item.isTableCell).length = n ∧
    Sib4 n (l.takeWhile Item.isTableCell) ∧ Sib4 0 (l.dropWhile Item.isTableCell) := by
  induction l with
  | nil => intro n h; cases h; exact ⟨rfl, rfl, rfl⟩
  | cons a l ih =>
    intro n h
    by_cases hc : a.isTableCell
    · rw [List.takeWhile_cons_of_pos hc, List.dropWhile_cons_of_pos hc]
      cases a <;> simp [Item.isTableCell] at hc
      obtain ⟨h1, h2⟩ := h
      obtain ⟨i1, i2, i3⟩ := ih _ h2
      exact ⟨by simp [i1]; omega, ⟨h1, i2⟩, i3⟩
    · rw [List.takeWhile_cons_of_neg (by simpa using hc), List.dropWhile_cons_of_neg (by simpa using hc)]
      have h0 : n = 0 := by
        cases a
        case tableCell t => simp [Item.isTableCell] at hc
        case tableBody rc t =>
          cases rc with
          | none => cases h
          | some ws => exact h.1
        all_goals exact h.1
      subst h0
      exact ⟨rfl, rfl, h⟩

theorem adopt_cells (k : Nat) : ∀ f : Forest Item, f.size ≤ k → Everywhere Q4 f → ∀ n, Sib4 n f.roots →
    let g := adopt Item.isTableBody Item.isTableCell f
    Everywhere Q5 g ∧ (∀ b ∈ g.roots, b ∈ f.roots) ∧ (n = 0 → ∀ b ∈ g.roots, b.isTableCell = false) ∧
    ((∀ b ∈ f.roots, b.isTableCell) → g.roots = f.roots) := by
  induction k with
  | zero =>
    intro f hk _ n hs
    cases f with
    | nil => rw [adopt_nil]; exact ⟨trivial, by simp, by simp [Forest.roots], fun _ => rfl⟩
    | node a cs sibs => simp [Forest.size] at hk
  | succ k ih =>
    intro f hk hq n hs
    cases f with
    | nil => rw [adopt_nil]; exact ⟨trivial, by simp, by simp [Forest.roots], fun _ => rfl⟩
    | node a cs sibs =>
      simp only [Forest.size] at hk
      obtain ⟨q1, q2, q3⟩ := hq
      obtain ⟨a1, a2, a3, a4, a5⟩ := q1
      obtain ⟨c1, c2, c3, c4⟩ := ih cs (by omega) q2 0 a5
      simp only [Forest.roots] at hs ⊢
      by_cases hp : a.isTableBody
      · rw [adopt_node_parent hp]
        obtain ⟨t1, t2⟩ := everywhere_takeWhile Q4 Item.isTableCell sibs q3
        obtain ⟨ws, t, rfl, hn, hpos, hsib⟩ : ∃ ws t, a = .tableBody (some ws) t ∧ n = 0 ∧ (∀ w ∈ ws, 0 < w) ∧
            Sib4 ws.sum sibs.roots := by
          cases a <;> simp [Item.isTableBody] at hp
          case tableBody rc t =>
          cases rc with
          | none => cases hs
          | some ws => exact ⟨ws, t, rfl, hs.1, hs.2.1, hs.2.2⟩
        obtain ⟨s1, s2, s3⟩ := sib4_cells _ _ hsib
        obtain ⟨d1, d2, -, d4⟩ := ih (sibs.takeWhile Item.isTableCell)
          (by have := sibs.size_takeWhile Item.isTableCell; omega) t1 ws.sum (by rw [Forest.roots_takeWhile]; exact s2)
        obtain ⟨e1, e2, e3, -⟩ := ih (sibs.dropWhile Item.isTableCell)
          (by have := sibs.size_dropWhile Item.isTableCell; omega) t2 0 (by rw [Forest.roots_dropWhile]; exact s3)
        have hcells : ∀ b ∈ (sibs.takeWhile Item.isTableCell).roots, b.isTableCell := by
          rw [Forest.roots_takeWhile]
          intro b hb
          exact (List.all_eq_true.1 List.all_takeWhile) b hb
        have hcs : cs = .nil := forest_nil_of_roots (a3 rfl)
        subst hcs
        rw [adopt_nil]
        simp only [Forest.append]
        refine ⟨⟨?_, d1, e1⟩, ?_, ?_, ?_⟩
        · refine ⟨by simp, by simp [isLeaf, Item.isControlChar, Item.isText], by simp [Item.isParagraph], by simp [Item.isTableBody], fun _ => ⟨ws, t, rfl, hpos, ?_, ?_⟩⟩
          · rw [d4 hcells, Forest.roots_takeWhile, s1]
          · rw [d4 hcells]; exact hcells
        · intro b hb
          simp only [Forest.roots, List.mem_cons] at hb ⊢
          rcases hb with rfl | hb
          · exact .inl rfl
          · right
            have := e2 b hb
            rw [Forest.roots_dropWhile] at this
            exact (List.dropWhile_sublist _).mem this
        · intro _ b hb
          simp only [Forest.roots, List.mem_cons] at hb
          rcases hb with rfl | hb
          · rfl
          · exact e3 rfl b hb
        · intro h
          have := h _ List.mem_cons_self
          simp [Item.isTableCell] at this
      · simp only [Bool.not_eq_true] at hp
        rw [adopt_node_other hp]
        have hrest : ∃ n', Sib4 n' sibs.roots ∧ (n = 0 → n' = 0 ∧ a.isTableCell = false) := by
          cases a <;> simp [Item.isTableBody] at hp
          case tableCell t => exact ⟨n - 1, hs.2, fun h => by have := hs.1; omega⟩
          all_goals exact ⟨0, hs.2, fun _ => ⟨rfl, rfl⟩⟩
        obtain ⟨n', r1, r2⟩ := hrest
        obtain ⟨e1, e2, e3, e4⟩ := ih sibs (by omega) q3 n' r1
        refine ⟨⟨⟨a1, ?_, ?_, fun _ => c3 rfl, by simp [hp]⟩, c1, e1⟩, ?_, ?_, ?_⟩
        · intro ht
          rw [forest_nil_of_roots (a2 ht), adopt_nil]; rfl
        · intro ht b hb
          have := a4 ht b (c2 b hb)
          cases b <;> simp_all [harmless, Item.isParagraph]
        · intro b hb
          simp only [Forest.roots, List.mem_cons] at hb ⊢
          rcases hb with rfl | hb
          · exact .inl rfl
          · exact .inr (e2 b hb)
        · intro h0 b hb
          simp only [Forest.roots, List.mem_cons] at hb
          rcases hb with rfl | hb
          · exact (r2 h0).2
          · exact e3 (r2 h0).1 b hb
        · intro h
          simp only [Forest.roots]
          rw [e4 (fun b hb => h b (List.mem_cons_of_mem _ hb))]

/-! ### Rows -/

def Q6 (a : Item) (rs : List Item) : Prop :=
  a ≠ .columnSet ∧ (isLeaf a → rs = []) ∧ (a.isParagraph → ∀ b ∈ rs, b.isParagraph = false)

/-- The item of a body after the rows are made. -/
def unrow : Item → Item
  | .tableBody _ t => .tableBody none t
  | a => a

theorem unrow_paragraph (a : Item) : (unrow a).isParagraph = a.isParagraph := by cases a <;> rfl

theorem everywhere_take (R : Item → List Item → Prop) (f : Forest Item) (h : Everywhere R f) : ∀ n,
    Everywhere R (f.take n) ∧ Everywhere R (f.drop n) := by
  induction f with
  | nil => intro n; cases n <;> exact ⟨trivial, trivial⟩
  | node a cs sibs _ ih =>
    intro n
    cases n with
    | zero => exact ⟨trivial, h⟩
    | succ n => exact ⟨⟨h.1, h.2.1, (ih h.2.2 n).1⟩, (ih h.2.2 n).2⟩

theorem groupRows_Q6 (ws : List Nat) : ∀ f : Forest Item, Everywhere Q6 f → Everywhere Q6 (groupRows ws f) := by
  induction ws with
  | nil => intro f _; trivial
  | cons w ws ih =>
    intro f h
    refine ⟨?_, (everywhere_take Q6 f h w).1, ih _ (everywhere_take Q6 f h w).2⟩
    exact ⟨by simp, by simp [isLeaf, Item.isControlChar, Item.isText], by simp [Item.isParagraph]⟩

theorem rowed_ok (f : Forest Item) (h : Everywhere Q5 f) :
    ((∀ b ∈ f.roots, b.isTableCell = false) →
      ∃ g, rowed false f = some g ∧ Everywhere Q6 g ∧ g.roots = f.roots.map unrow) ∧
    ((∀ b ∈ f.roots, b.isTableCell) → ∃ g, rowed true f = some g ∧ Everywhere Q6 g ∧ g.roots = f.roots.map unrow) := by
  induction f with
  | nil => exact ⟨fun _ => ⟨.nil, rfl, trivial, rfl⟩, fun _ => ⟨.nil, rfl, trivial, rfl⟩⟩
  | node a cs sibs ih1 ih2 =>
    obtain ⟨⟨a1, a2, a3, a4, a5⟩, h2, h3⟩ := h
    have ih1 := ih1 h2
    have ih2 := ih2 h3
    constructor
    · intro hr
      obtain ⟨s', s1, s2, s3⟩ := ih2.1 (fun b hb => hr b (by simp [Forest.roots, hb]))
      have ha := hr a (by simp [Forest.roots])
      by_cases hb : a.isTableBody
      · obtain ⟨ws, t, rfl, w1, w2, w3⟩ := a5 hb
        obtain ⟨c', c1, c2, c3⟩ := ih1.2 w3
        refine ⟨.node (.tableBody none t) (groupRows ws c') s', ?_, ⟨?_, groupRows_Q6 _ _ c2, s2⟩, by simp [Forest.roots, unrow, s3]⟩
        · simp only [rowed, c1, s1]
          have hz : ¬ 0 ∈ ws := fun hz => absurd (w1 0 hz) (by omega)
          simp [w2, hz]
        · exact ⟨by simp, by simp [isLeaf, Item.isControlChar, Item.isText], by simp [Item.isParagraph]⟩
      · simp only [Bool.not_eq_true] at hb
        obtain ⟨c', c1, c2, c3⟩ := ih1.1 (a4 hb)
        have hu : unrow a = a := by cases a <;> simp_all [unrow, Item.isTableBody]
        refine ⟨.node a c' s', ?_, ⟨⟨a1, ?_, ?_⟩, c2, s2⟩, by simp [Forest.roots, s3, hu]⟩
        · cases a <;> first | (simp [Item.isTableBody] at hb; done) | (simp [Item.isTableCell] at ha; done) | simp [rowed, c1, s1]
        · intro ht; rw [c3, a2 ht]; rfl
        · intro ht b hb
          rw [c3] at hb
          obtain ⟨x, hx, rfl⟩ := List.mem_map.1 hb
          rw [unrow_paragraph]; exact a3 ht x hx
    · intro hr
      obtain ⟨s', s1, s2, s3⟩ := ih2.2 (fun b hb => hr b (by simp [Forest.roots, hb]))
      have ha := hr a (by simp [Forest.roots])
      cases a <;> simp [Item.isTableCell] at ha
      case tableCell t =>
      obtain ⟨c', c1, c2, c3⟩ := ih1.1 (a4 rfl)
      refine ⟨.node (.tableCell t) c' s', by simp [rowed, c1, s1], ⟨⟨by simp, by simp [isLeaf, Item.isControlChar, Item.isText], by simp [Item.isParagraph]⟩, c2, s2⟩, by simp [Forest.roots, s3, unrow]⟩

/-! ### Tokens -/

def Q7 (a : Item) (rs : List Item) : Prop :=
  a ≠ .columnSet ∧ (isLeaf a → rs = []) ∧ (a.isParagraph → ∀ b ∈ rs, b.isParagraph = false)

theorem tokens_Q7 (shape : Nat) (ts : List (Lang × PyStr)) (g : Forest Item) (h : Everywhere Q7 g) :
    Everywhere Q7 (ts.foldr (fun t f => .node (.text t.2 shape (some t.1)) .nil f) g) ∧
    ((∀ b ∈ g.roots, b.isParagraph = false) →
      ∀ b ∈ (ts.foldr (fun t f => .node (.text t.2 shape (some t.1)) .nil f) g).roots, b.isParagraph = false) := by
  induction ts with
  | nil => exact ⟨h, id⟩
  | cons t ts ih =>
    refine ⟨⟨⟨by simp, fun _ => rfl, by simp [Item.isParagraph]⟩, trivial, ih.1⟩, ?_⟩
    intro hg b hb
    simp only [List.foldr_cons, Forest.roots, List.mem_cons] at hb
    rcases hb with rfl | hb
    · rfl
    · exact ih.2 hg b hb

theorem tokenized_other (a : Item) (cs sibs : Forest Item) (h : a.isText = false) :
    tokenized (.node a cs sibs) = .node a (tokenized cs) (tokenized sibs) := by
  cases a <;> first | rfl | simp [isLeaf, Item.isControlChar, Item.isText] at h

theorem tokenized_ok (f : Forest Item) (h : Everywhere Q6 f) :
    TextLeaves f ∧ Everywhere Q7 (tokenized f) ∧
    ((∀ b ∈ f.roots, b.isParagraph = false) → ∀ b ∈ (tokenized f).roots, b.isParagraph = false) := by
  induction f with
  | nil => exact ⟨trivial, trivial, id⟩
  | node a cs sibs ih1 ih2 =>
    obtain ⟨⟨a1, a2, a3⟩, h2, h3⟩ := h
    obtain ⟨c1, c2, c3⟩ := ih1 h2
    obtain ⟨s1, s2, s3⟩ := ih2 h3
    refine ⟨⟨fun ht => forest_nil_of_roots (a2 (by simp [isLeaf, ht])), c1, s1⟩, ?_⟩
    by_cases ht : a.isText
    · cases a <;> simp [isLeaf, Item.isControlChar, Item.isText] at ht
      case text s sh l =>
      simp only [tokenized]
      obtain ⟨t1, t2⟩ := tokens_Q7 sh (tokenizeByLang s) _ s2
      exact ⟨t1, fun h => t2 (s3 (fun b hb => h b (by simp [Forest.roots, hb])))⟩
    · rw [tokenized_other _ _ _ (by simpa using ht)]
      refine ⟨⟨⟨a1, fun hl => ?_, fun hp => c3 (a3 hp)⟩, c2, s2⟩, ?_⟩
      · rw [forest_nil_of_roots (a2 hl)]; rfl
      intro h b hb
      simp only [Forest.roots, List.mem_cons] at hb
      rcases hb with rfl | hb
      · exact h b (by simp [Forest.roots])
      · exact s3 (fun b hb => h b (by simp [Forest.roots, hb])) b hb

/-! ### The section definition -/

theorem extract_Q7 (f : Forest Item) : ∀ a cs f', extractSection f = some ((a, cs), f') → Everywhere Q7 f →
    Everywhere Q7 cs ∧ Everywhere Q7 f' ∧ ∀ b ∈ f'.roots, b ∈ f.roots := by
  induction f with
  | nil => intro a cs f' h; cases h
  | node a cs sibs ih1 ih2 =>
    intro b ks f' h hq
    simp only [extractSection] at h
    split at h
    · simp only [Option.some.injEq, Prod.mk.injEq] at h
      obtain ⟨⟨rfl, rfl⟩, rfl⟩ := h
      exact ⟨hq.2.1, hq.2.2, fun b hb => by simp [Forest.roots, hb]⟩
    · split at h
      · rename_i sd cs' heq
        simp only [Option.some.injEq, Prod.mk.injEq] at h
        obtain ⟨rfl, rfl⟩ := h
        obtain ⟨i1, i2, i3⟩ := ih1 _ _ _ heq hq.2.1
        exact ⟨i1, ⟨⟨hq.1.1, fun hl => List.eq_nil_iff_forall_not_mem.2 fun b hb => by have := i3 b hb; rw [hq.1.2.1 hl] at this; simp at this, fun hp b hb => hq.1.2.2 hp b (i3 b hb)⟩, i2, hq.2.2⟩, fun b hb => by simpa [Forest.roots] using hb⟩
      · split at h
        · rename_i sd sibs' heq
          simp only [Option.some.injEq, Prod.mk.injEq] at h
          obtain ⟨rfl, rfl⟩ := h
          obtain ⟨i1, i2, i3⟩ := ih2 _ _ _ heq hq.2.2
          refine ⟨i1, ⟨hq.1, hq.2.1, i2⟩, ?_⟩
          intro b hb
          simp only [Forest.roots, List.mem_cons] at hb ⊢
          exact hb.imp id (i3 b)
        · cases h

theorem columnsOk_of_Q7 (f : Forest Item) (h : Everywhere Q7 f) : ColumnsOk f := by
  induction f with
  | nil => trivial
  | node a cs sibs ih1 ih2 =>
    refine ⟨h.1.1, ?_, ih1 h.2.1, ih2 h.2.2⟩
    intro hp b hb
    have := h.1.2.2 hp b hb
    cases b <;> simp_all [startsColumns, Item.isParagraph]

end Hwp
