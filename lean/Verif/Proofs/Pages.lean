/-
What is in the output and what is not is all the text.
-/
import Verif.Spec.Pages
import Verif.Proofs.PlainDoc
set_option linter.unusedSimpArgs false
set_option linter.unusedVariables false
set_option autoImplicit false
namespace Hwp
open Spec

theorem printed_append (a b : List Piece) : printed (a ++ b) = printed a ++ printed b := by
  induction a with
  | nil => rfl
  | cons x a ih => cases x <;> simp [printed, ih]

theorem later_texts (T : Forest XNode) : (firstText T ++ laterTexts T).Perm (allTexts T) := by
  induction T with
  | nil => exact .refl _
  | node a cs sibs _ ih =>
    cases a with
    | text t => exact .refl _
    | elem n as =>
      simp only [firstText, laterTexts, allTexts]
      refine .trans ?_ (ih.append_left _)
      rw [← List.append_assoc, ← List.append_assoc]
      exact List.perm_append_comm.append_right _

/-- What is done with an element in several ways. -/
def actRuns {M : Type} : Act M → Nat
  | .run => 1
  | .into _ _ => 0
def actWays {M : Type} : Act M → List M
  | .run => []
  | .into _ ms => ms

/-- The ways `ways p` show what the map says. -/
structure Agrees {M P : Type} (s : Sheet M) (v : Places P) (ways : P → List M) : Prop where
  text : ∀ p, ((ways p).filter s.copies).length = if v.text p then 1 else 0
  view : ∀ p n as, match v.view p n as with
    | .hidden => (∀ m ∈ ways p, actRuns (s.rule m n as) = 0) ∧ (ways p).flatMap (fun m => actWays (s.rule m n as)) = []
    | .words => (((ways p).map fun m => actRuns (s.rule m n as)).sum = 1) ∧ (ways p).flatMap (fun m => actWays (s.rule m n as)) = []
    | .place q => (∀ m ∈ ways p, actRuns (s.rule m n as) = 0) ∧ (ways p).flatMap (fun m => actWays (s.rule m n as)) = ways q

theorem printed_flatMap {M : Type} (f : M → List Piece) (ms : List M) : printed (ms.flatMap f) = ms.flatMap fun m => printed (f m) := by
  induction ms with
  | nil => rfl
  | cons m ms ih => simp [printed_append, ih]

theorem pieces_perm {M : Type} (f g : M → PyStr) (ms : List M) :
    (ms.flatMap fun m => f m ++ g m).Perm (ms.flatMap f ++ ms.flatMap g) := by
  induction ms with
  | nil => exact .refl _
  | cons m ms ih =>
    simp only [List.flatMap_cons, List.append_assoc]
    refine .append_left _ ?_
    refine (ih.append_left _).trans ?_
    rw [← List.append_assoc, ← List.append_assoc]
    exact List.perm_append_comm.append_right _

/-- What is printed of the children in one way of going through an element. -/
theorem printed_act {M : Type} (s : Sheet M) (cs : Forest XNode) (a : Act M) :
    printed (a.pieces (firstText cs) (walk s cs)) =
    (List.replicate (actRuns a) (firstText cs)).flatten ++ (actWays a).flatMap fun m => printed (walk s cs m) := by
  cases a with
  | run => simp [Act.pieces, printed, actRuns, actWays]
  | into b ms => simp [Act.pieces, printed, actRuns, actWays, printed_flatMap]

theorem acts_perm {M : Type} (s : Sheet M) (cs : Forest XNode) (r : M → Act M) (ms : List M) :
    (ms.flatMap fun m => (List.replicate (actRuns (r m)) (firstText cs)).flatten ++ (actWays (r m)).flatMap fun m => printed (walk s cs m)).Perm
      ((List.replicate ((ms.map fun m => actRuns (r m)).sum) (firstText cs)).flatten ++
        (ms.flatMap fun m => actWays (r m)).flatMap fun m => printed (walk s cs m)) := by
  refine (pieces_perm _ _ ms).trans ?_
  have e1 : (ms.flatMap fun m => (List.replicate (actRuns (r m)) (firstText cs)).flatten) =
      (List.replicate ((ms.map fun m => actRuns (r m)).sum) (firstText cs)).flatten := by
    induction ms with
    | nil => rfl
    | cons m ms ih => rw [List.flatMap_cons, ih, List.map_cons, List.sum_cons, ← List.replicate_append_replicate, List.flatten_append]
  rw [e1, List.flatMap_assoc]

theorem sum_zero {M : Type} (ms : List M) (f : M → Nat) (h : ∀ m ∈ ms, f m = 0) : (ms.map f).sum = 0 := by
  induction ms with
  | nil => rfl
  | cons m ms ih => simp [h m (by simp), ih fun m hm => h m (by simp [hm])]

theorem walk_all {M P : Type} {s : Sheet M} {v : Places P} {ways : P → List M} (h : Agrees s v ways) (T : Forest XNode) :
    ∀ p, (printed ((ways p).flatMap (walk s T)) ++ hiddenText v T p).Perm (allTexts T) := by
  induction T with
  | nil =>
    intro p
    have : ∀ ms : List M, ms.flatMap (walk s .nil) = [] := by
      intro ms; induction ms with
      | nil => rfl
      | cons m ms ih => simp [walk, ih]
    rw [this]
    exact .refl _
  | node a cs sibs ih1 ih2 =>
    intro p
    have i2 := ih2 p
    rw [printed_flatMap] at i2
    cases a with
    | text t =>
      simp only [printed_flatMap, walk, printed_append, hiddenText, allTexts]
      refine ((pieces_perm _ _ _).append_right _).trans ?_
      have e : (ways p).flatMap (fun m => printed (if s.copies m then [Piece.text t] else [])) = if v.text p then t else [] := by
        have ht := h.text p
        have : ∀ ms : List M, ms.flatMap (fun m => printed (if s.copies m then [Piece.text t] else [])) =
            (List.replicate ((ms.filter s.copies).length) t).flatten := by
          intro ms
          induction ms with
          | nil => rfl
          | cons m ms ih =>
            by_cases hm : s.copies m <;> simp [hm, printed, ih, List.replicate_succ]
        rw [this, ht]
        split <;> simp
      rw [e]
      by_cases hv : v.text p
      · simp only [hv, if_true, List.nil_append, List.append_assoc]
        exact i2.append_left _
      · simp only [hv, Bool.false_eq_true, if_false, List.nil_append]
        refine .trans ?_ (i2.append_left _)
        rw [← List.append_assoc, ← List.append_assoc]
        exact List.perm_append_comm.append_right _
    | elem n as =>
      simp only [printed_flatMap, walk, printed_append, hiddenText, allTexts, printed_act]
      refine ((pieces_perm _ _ _).append_right _).trans ?_
      have key : ∀ H : PyStr, (((List.replicate (((ways p).map fun m => actRuns (s.rule m n as)).sum) (firstText cs)).flatten ++
          ((ways p).flatMap fun m => actWays (s.rule m n as)).flatMap fun m => printed (walk s cs m)) ++ H).Perm (allTexts cs) →
          ((((ways p).flatMap fun m => (List.replicate (actRuns (s.rule m n as)) (firstText cs)).flatten ++
            (actWays (s.rule m n as)).flatMap fun m => printed (walk s cs m)) ++ (ways p).flatMap fun m => printed (walk s sibs m)) ++
            (H ++ hiddenText v sibs p)).Perm (allTexts cs ++ allTexts sibs) := by
        intro H hH
        have h1 := (acts_perm s cs (fun m => s.rule m n as) (ways p)).append_right H |>.trans hH
        refine .trans ?_ (h1.append i2)
        simp only [List.append_assoc]
        refine .append_left _ ?_
        rw [← List.append_assoc, ← List.append_assoc]
        exact List.perm_append_comm.append_right _
      apply key
      have hv := h.view p n as
      cases hq : v.view p n as with
      | hidden =>
        rw [hq] at hv
        rw [sum_zero _ _ hv.1, hv.2]
        exact .refl _
      | words =>
        rw [hq] at hv
        rw [hv.1, hv.2]
        simpa using later_texts cs
      | place q =>
        rw [hq] at hv
        have i1 := ih1 q
        rw [printed_flatMap] at i1
        rw [sum_zero _ _ hv.1, hv.2]
        simpa using i1

/-! ### The stylesheets -/

/-- How a place is gone through. -/
def htmlWays : HtmlSpot → List HtmlWay
  | .anything => [.all]
  | .list => [.paragraphs]
  | .paragraph => [.lines, .floats (lit "TableControl"), .floats (lit "GShapeObjectControl")]
  | .line => [.line, .floatsIn (lit "TableControl"), .floatsIn (lit "GShapeObjectControl")]

theorem html_agrees : Agrees htmlSheet htmlPlaces htmlWays where
  text := by intro p; cases p <;> rfl
  view := by
    intro p n as
    cases p
    case anything =>
      simp only [htmlPlaces, htmlView, htmlWays, htmlSheet, htmlRule]
      by_cases h1 : n = lit "Paragraph"
      · simp [h1, htmlParagraph, actRuns, actWays, htmlWays]
      by_cases h2 : n = lit "ControlChar"
      · simp [h2, htmlControlChar, actRuns, actWays, htmlWays, lit_eq]
      by_cases h3 : n = lit "AutoNumbering"
      · simp [h3, htmlNumbering, actRuns, actWays, htmlWays, lit_eq]
      by_cases h4 : n = lit "ShapePicture"
      · simp [h4, actRuns, actWays, htmlWays, lit_eq]
      simp [h1, h2, h3, h4, actRuns, actWays, htmlWays]
    case list =>
      simp only [htmlPlaces, htmlView, htmlWays, htmlSheet, htmlRule]
      by_cases h1 : n = lit "Paragraph" <;> simp [h1, htmlParagraph, actRuns, actWays, htmlWays]
    case paragraph =>
      simp only [htmlPlaces, htmlView, htmlWays, htmlSheet, htmlRule]
      by_cases h1 : n = lit "LineSeg" <;> simp [h1, htmlRule, actRuns, actWays, htmlWays]
    case line =>
      simp only [htmlPlaces, htmlView, htmlWays, htmlSheet, htmlRule]
      by_cases h1 : n = lit "Text"
      · simp [h1, htmlRule, actRuns, actWays, htmlWays, lit_eq]
      by_cases h2 : n = lit "ControlChar"
      · simp [h2, htmlRule, htmlControlChar, actRuns, actWays, htmlWays, lit_eq]
      by_cases h3 : n = lit "AutoNumbering"
      · simp [h3, htmlRule, htmlNumbering, actRuns, actWays, htmlWays, lit_eq]
      by_cases h4 : n = lit "TableControl"
      · by_cases h5 : attrValue as "inline" = lit "0"
        · simp [h4, h5, htmlRule, actRuns, actWays, htmlWays, lit_eq]
        by_cases h6 : attrValue as "inline" = lit "1"
        · simp [h4, h6, htmlRule, actRuns, actWays, htmlWays, lit_eq]
        simp [h4, h5, h6, htmlRule, actRuns, actWays, htmlWays, lit_eq]
      by_cases h7 : n = lit "GShapeObjectControl"
      · by_cases h5 : attrValue as "inline" = lit "0"
        · simp [h7, h5, htmlRule, actRuns, actWays, htmlWays, lit_eq]
        by_cases h6 : attrValue as "inline" = lit "1"
        · simp [h7, h6, htmlRule, actRuns, actWays, htmlWays, lit_eq]
        simp [h7, h5, h6, htmlRule, actRuns, actWays, htmlWays, lit_eq]
      simp [h1, h2, h3, h4, h7, htmlRule, actRuns, actWays, htmlWays]

/-- How a place is gone through. -/
def odtWays : OdtSpot → List OdtWay
  | .anything => [.all]
  | .paragraph => [.lines, .tables]
  | .line => [.line, .tablesIn]
  | .looseLine => [.line]
  | .table => [.bodies]
  | .body => [.rows]
  | .row => [.cells]
  | .drawing => [.shapes]
  | .picture => [.pictures]
  | .shape => [.boxes]
  | .note => [.notes]
  | .list => [.paragraphs]

theorem odt_shape (as : List (PyStr × PyStr)) : actRuns (odtShape as) = 0 ∧
    match odtShapeView as with
    | .hidden => actWays (odtShape as) = []
    | .words => False
    | .place q => actWays (odtShape as) = odtWays q := by
  unfold odtShape odtShapeView
  by_cases h1 : attrValue as "chid" = lit "$con"
  · simp [h1, actRuns, actWays, odtWays, lit_eq]
  by_cases h2 : attrValue as "chid" = lit "$pic"
  · simp [h2, actRuns, actWays, odtWays, lit_eq]
  by_cases h3 : attrValue as "chid" = lit "$rec"
  · simp [h3, actRuns, actWays, odtWays, lit_eq]
  by_cases h4 : attrValue as "chid" = lit "$lin"
  · simp [h4, actRuns, actWays, odtWays, lit_eq]
  simp [h1, h2, h3, h4, actRuns, actWays, odtWays]

theorem odt_agrees : Agrees odtSheet odtPlaces odtWays where
  text := by intro p; cases p <;> rfl
  view := by
    intro p n as
    cases p
    case anything =>
      simp only [odtPlaces, odtView, odtWays, odtSheet, odtRule]
      by_cases h1 : n = lit "Paragraph"
      · simp [h1, odtParagraph, actRuns, actWays, odtWays, lit_eq]
      by_cases h2 : n = lit "LineSeg"
      · simp [h2, actRuns, actWays, odtWays, lit_eq]
      by_cases h3 : n = lit "Text"
      · simp [h3, actRuns, actWays, odtWays, lit_eq]
      by_cases h4 : n = lit "ControlChar"
      · simp [h4, actRuns, actWays, odtWays, lit_eq]
      by_cases h5 : n = lit "TableControl"
      · simp [h5, actRuns, actWays, odtWays, lit_eq]
      by_cases h6 : n = lit "GShapeObjectControl"
      · simp [h6, actRuns, actWays, odtWays, lit_eq]
      by_cases h7 : n = lit "ShapeComponent"
      · obtain ⟨g1, g2⟩ := odt_shape as
        simp only [h7, lit_eq, List.mem_cons, List.flatMap_cons, List.flatMap_nil, List.append_nil, List.map_cons, List.map_nil, List.not_mem_nil, or_false, forall_eq,
          if_true, String.reduceEq, if_false]
        cases hv : odtShapeView as with
        | hidden => rw [hv] at g2; exact ⟨g1, g2⟩
        | words => rw [hv] at g2; exact g2.elim
        | place q => rw [hv] at g2; exact ⟨g1, g2⟩
      by_cases h8 : n = lit "FootNote"
      · simp [h8, odtNote, actRuns, actWays, odtWays, lit_eq]
      by_cases h9 : n = lit "EndNote"
      · simp [h9, odtNote, actRuns, actWays, odtWays, lit_eq]
      simp [h1, h2, h3, h4, h5, h6, h7, h8, h9, actRuns, actWays, odtWays]
    case line =>
      simp only [odtPlaces, odtView, odtWays, odtSheet, odtRule]
      by_cases h3 : n = lit "Text"
      · simp [h3, odtRule, actRuns, actWays, odtWays, lit_eq]
      by_cases h5 : n = lit "TableControl"
      · simp [h5, odtRule, actRuns, actWays, odtWays, lit_eq]
      by_cases h6 : n = lit "GShapeObjectControl"
      · simp [h6, odtRule, actRuns, actWays, odtWays, lit_eq]
      by_cases h8 : n = lit "FootNote"
      · simp [h8, odtRule, odtNote, actRuns, actWays, odtWays, lit_eq]
      by_cases h9 : n = lit "EndNote"
      · simp [h9, odtRule, odtNote, actRuns, actWays, odtWays, lit_eq]
      simp [h3, h5, h6, h8, h9, odtRule, actRuns, actWays, odtWays]
    case looseLine =>
      simp only [odtPlaces, odtView, odtWays, odtSheet, odtRule]
      by_cases h3 : n = lit "Text"
      · simp [h3, odtRule, actRuns, actWays, odtWays, lit_eq]
      by_cases h6 : n = lit "GShapeObjectControl"
      · simp [h6, odtRule, actRuns, actWays, odtWays, lit_eq]
      by_cases h8 : n = lit "FootNote"
      · simp [h8, odtRule, odtNote, actRuns, actWays, odtWays, lit_eq]
      by_cases h9 : n = lit "EndNote"
      · simp [h9, odtRule, odtNote, actRuns, actWays, odtWays, lit_eq]
      simp [h3, h6, h8, h9, odtRule, actRuns, actWays, odtWays]
    case drawing =>
      simp only [odtPlaces, odtView, odtWays, odtSheet, odtRule]
      by_cases h7 : n = lit "ShapeComponent"
      · obtain ⟨g1, g2⟩ := odt_shape as
        simp only [h7, List.mem_cons, List.flatMap_cons, List.flatMap_nil, List.append_nil, List.map_cons, List.map_nil, List.not_mem_nil, or_false, forall_eq, if_true]
        cases hv : odtShapeView as with
        | hidden => rw [hv] at g2; exact ⟨g1, g2⟩
        | words => rw [hv] at g2; exact g2.elim
        | place q => rw [hv] at g2; exact ⟨g1, g2⟩
      · simp [h7, actRuns, actWays]
    case paragraph =>
      simp only [odtPlaces, odtView, odtWays, odtSheet, odtRule]
      by_cases h1 : n = lit "LineSeg" <;> simp [h1, odtRule, actRuns, actWays, odtWays]
    case list =>
      simp only [odtPlaces, odtView, odtWays, odtSheet, odtRule]
      by_cases h1 : n = lit "Paragraph" <;> simp [h1, odtParagraph, odtRule, actRuns, actWays, odtWays]
    case table =>
      simp only [odtPlaces, odtView, odtWays, odtSheet, odtRule]
      by_cases h1 : n = lit "TableBody" <;> simp [h1, odtRule, actRuns, actWays, odtWays]
    case body =>
      simp only [odtPlaces, odtView, odtWays, odtSheet, odtRule]
      by_cases h1 : n = lit "TableRow" <;> simp [h1, odtRule, actRuns, actWays, odtWays]
    case row =>
      simp only [odtPlaces, odtView, odtWays, odtSheet, odtRule]
      by_cases h1 : n = lit "TableCell" <;> simp [h1, odtRule, actRuns, actWays, odtWays]
    case picture => simp [odtPlaces, odtView, odtWays, odtSheet, odtRule, actRuns, actWays]
    case shape =>
      simp only [odtPlaces, odtView, odtWays, odtSheet, odtRule]
      by_cases h1 : n = lit "TextboxParagraphList" <;> simp [h1, odtRule, actRuns, actWays, odtWays]
    case note =>
      simp only [odtPlaces, odtView, odtWays, odtSheet, odtRule]
      by_cases h1 : n = lit "ListHeader" <;> simp [h1, odtRule, actRuns, actWays, odtWays]

/-! ### Order -/

theorem firstText_sublist (T : Forest XNode) : (firstText T).Sublist (allTexts T) := by
  induction T with
  | nil => exact .refl _
  | node a cs sibs _ ih =>
    cases a with
    | text t => exact List.sublist_append_left _ _
    | elem n as => exact ih.trans (List.sublist_append_right _ _)

/-- Ways in which nothing is printed. -/
theorem walk_silent {M : Type} (s : Sheet M) (ok : PyStr → List (PyStr × PyStr) → Bool) (silent : M → Bool)
    (hc : ∀ m, silent m = true → s.copies m = false)
    (hr : ∀ m n as, silent m = true → ok n as = true → actRuns (s.rule m n as) = 0 ∧ ∀ m' ∈ actWays (s.rule m n as), silent m' = true)
    (T : Forest XNode) : everyElem ok T = true → ∀ m, silent m = true → printed (walk s T m) = [] := by
  induction T with
  | nil => intro _ m _; rfl
  | node a cs sibs ih1 ih2 =>
    intro ht m hm
    cases a with
    | text t =>
      simp only [everyElem] at ht
      simp [walk, printed_append, hc m hm, printed, ih2 ht m hm]
    | elem n as =>
      simp only [everyElem, Bool.and_eq_true] at ht
      obtain ⟨h1, h2⟩ := hr m n as hm ht.1.1
      simp only [walk, printed_append, printed_act, h1, ih2 ht.2 m hm, List.replicate_zero, List.flatten_nil, List.nil_append,
        List.append_nil, List.flatMap_eq_nil_iff]
      exact fun m' hm' => ih1 ht.1.2 m' (h2 m' hm')

/-- If of the ways through an element at most the first prints anything, the text is in its order. -/
theorem walk_order {M : Type} (s : Sheet M) (ok : PyStr → List (PyStr × PyStr) → Bool) (silent : M → Bool)
    (hc : ∀ m, silent m = true → s.copies m = false)
    (hr : ∀ m n as, silent m = true → ok n as = true → actRuns (s.rule m n as) = 0 ∧ ∀ m' ∈ actWays (s.rule m n as), silent m' = true)
    (ho : ∀ m n as, (actRuns (s.rule m n as) = 1 ∧ actWays (s.rule m n as) = []) ∨
      (actRuns (s.rule m n as) = 0 ∧ ∀ m' ∈ (actWays (s.rule m n as)).tail, silent m' = true))
    (T : Forest XNode) : everyElem ok T = true → ∀ m, (printed (walk s T m)).Sublist (allTexts T) := by
  induction T with
  | nil => intro _ m; exact .refl _
  | node a cs sibs ih1 ih2 =>
    intro ht m
    cases a with
    | text t =>
      simp only [everyElem] at ht
      simp only [walk, printed_append, allTexts]
      refine .append ?_ (ih2 ht m)
      split
      · simp [printed]
      · exact List.nil_sublist _
    | elem n as =>
      simp only [everyElem, Bool.and_eq_true] at ht
      simp only [walk, printed_append, allTexts, printed_act]
      refine .append ?_ (ih2 ht.2 m)
      rcases ho m n as with ⟨h1, h2⟩ | ⟨h1, h2⟩
      · rw [h1, h2]
        simpa using firstText_sublist cs
      · rw [h1]
        cases hw : actWays (s.rule m n as) with
        | nil => simp
        | cons m' ms =>
          rw [hw] at h2
          have : (ms.flatMap fun m => printed (walk s cs m)) = [] := by
            rw [List.flatMap_eq_nil_iff]
            exact fun m'' hm'' => walk_silent s ok silent hc hr cs ht.1.2 m'' (h2 m'' hm'')
          simp only [List.replicate_zero, List.flatten_nil, List.nil_append, List.flatMap_cons, this, List.append_nil]
          exact ih1 ht.1.2 m'

def htmlSilent : HtmlWay → Bool
  | .floats n => n = lit "TableControl" || n = lit "GShapeObjectControl"
  | .floatsIn n => n = lit "TableControl" || n = lit "GShapeObjectControl"
  | _ => false

theorem html_order (T : Forest XNode) (h : everyElem htmlFlows T = true) (m : HtmlWay) :
    (printed (walk htmlSheet T m)).Sublist (allTexts T) := by
  refine walk_order htmlSheet htmlFlows htmlSilent ?_ ?_ ?_ T h m
  · intro m hm; cases m <;> simp_all [htmlSilent, htmlSheet]
  · intro m n as hm hn
    cases m <;> simp only [htmlSilent, Bool.false_eq_true] at hm
    case floats name => 
      simp only [htmlSheet, htmlRule]
      split <;> simp_all [actRuns, actWays, htmlSilent]
    case floatsIn name =>
      simp only [htmlSheet, htmlRule]
      have : ¬(n = name ∧ attrValue as "inline" = lit "0") := by
        rintro ⟨rfl, h0⟩
        simp only [htmlFlows, hm, h0] at hn
        simp at hn
      rw [if_neg this]
      simp [actRuns, actWays]
  · intro m n as
    cases m <;> simp only [htmlSheet, htmlRule, htmlParagraph, htmlControlChar, htmlNumbering] <;> (repeat' split) <;>
      simp [actRuns, actWays, htmlSilent]

def odtSilent : OdtWay → Bool
  | .tables => true
  | .tablesIn => true
  | _ => false

/-- At most the first way prints anything. -/
def OneWay {M : Type} (silent : M → Bool) (a : Act M) : Prop :=
  (actRuns a = 1 ∧ actWays a = []) ∨ (actRuns a = 0 ∧ ∀ m' ∈ (actWays a).tail, silent m' = true)

theorem odt_order (T : Forest XNode) (h : everyElem odtFlows T = true) (m : OdtWay) :
    (printed (walk odtSheet T m)).Sublist (allTexts T) := by
  refine walk_order odtSheet odtFlows odtSilent ?_ ?_ ?_ T h m
  · intro m hm; cases m <;> simp_all [odtSilent, odtSheet]
  · intro m n as hm hn
    cases m <;> simp only [odtSilent, Bool.false_eq_true] at hm
    case tables => 
      simp only [odtSheet, odtRule]
      split <;> simp_all [actRuns, actWays, odtSilent]
    case tablesIn =>
      simp only [odtSheet, odtRule]
      have : ¬ n = lit "TableControl" := by simpa [odtFlows] using hn
      rw [if_neg this]
      simp [actRuns, actWays]
  · intro m n as
    have hite : ∀ (c : Prop) [Decidable c] (a b : Act OdtWay), OneWay odtSilent a → OneWay odtSilent b → OneWay odtSilent (if c then a else b) := by
      intro c _ a b ha hb; split <;> assumption
    have hs : OneWay odtSilent (odtShape as) := by
      unfold odtShape
      refine hite _ _ _ ?_ (hite _ _ _ ?_ (hite _ _ _ ?_ (hite _ _ _ ?_ ?_))) <;> simp [OneWay, actRuns, actWays]
    change OneWay odtSilent (odtRule m n as)
    cases m
    case all =>
      unfold odtRule
      refine hite _ _ _ ?_ (hite _ _ _ ?_ (hite _ _ _ ?_ (hite _ _ _ ?_ (hite _ _ _ ?_ (hite _ _ _ ?_ (hite _ _ _ hs (hite _ _ _ ?_ ?_))))))) <;>
        simp [OneWay, odtParagraph, odtNote, actRuns, actWays, odtSilent]
    case line =>
      unfold odtRule
      refine hite _ _ _ ?_ (hite _ _ _ ?_ (hite _ _ _ ?_ ?_)) <;> simp [OneWay, odtNote, actRuns, actWays]
    case shapes =>
      unfold odtRule
      refine hite _ _ _ hs ?_
      simp [OneWay, actRuns, actWays]
    case pictures => simp [odtRule, OneWay, actRuns, actWays]
    all_goals
      unfold odtRule
      refine hite _ _ _ ?_ ?_ <;> simp [OneWay, odtParagraph, actRuns, actWays, odtSilent]

/-- The sections in their order. -/
theorem sections_order {M : Type} (s : Sheet M) (ok : PyStr → List (PyStr × PyStr) → Bool) (m : M)
    (h : ∀ T, everyElem ok T = true → (printed (walk s T m)).Sublist (allTexts T)) (T : Forest XNode) :
    everyElem ok T = true → (printed (forEach (lit "SectionDef") (fun cs => walk s cs m) T)).Sublist (allTexts T) := by
  induction T with
  | nil => intro _; exact .refl _
  | node a cs sibs _ ih =>
    intro ht
    cases a with
    | text t =>
      simp only [everyElem] at ht
      exact (ih ht).trans (List.sublist_append_right _ _)
    | elem n as =>
      simp only [everyElem, Bool.and_eq_true] at ht
      simp only [forEach, printed_append, allTexts]
      refine .append ?_ (ih ht.2)
      split
      · exact h cs ht.1.2
      · exact List.nil_sublist _

/-! ### Sections -/

theorem sections_all {M P : Type} {s : Sheet M} {v : Places P} {ways : P → List M} (h : Agrees s v ways) (m : M) (p : P) (hp : ways p = [m])
    (T : Forest XNode) : (printed (forEach (lit "SectionDef") (fun cs => walk s cs m) T) ++ hiddenSections v p T).Perm (allTexts T) := by
  induction T with
  | nil => exact .refl _
  | node a cs sibs _ ih =>
    cases a with
    | text t =>
      simp only [forEach, hiddenSections, allTexts]
      refine .trans ?_ (ih.append_left _)
      rw [← List.append_assoc, ← List.append_assoc]
      exact List.perm_append_comm.append_right _
    | elem n as =>
      simp only [forEach, hiddenSections, allTexts, printed_append]
      have h1 : (printed (if n = lit "SectionDef" then walk s cs m else []) ++
          if n = lit "SectionDef" then hiddenText v cs p else allTexts cs).Perm (allTexts cs) := by
        split
        · have := walk_all h cs p
          rw [hp] at this
          simpa using this
        · exact .refl _
      refine .trans ?_ (h1.append ih)
      simp only [List.append_assoc]
      refine .append_left _ ?_
      rw [← List.append_assoc, ← List.append_assoc]
      exact List.perm_append_comm.append_right _

theorem perm_part {f g : PyStr} {a b x y : PyStr} (h1 : (a ++ x).Perm f) (h2 : (b ++ y).Perm g) : ((a ++ b) ++ (x ++ y)).Perm (f ++ g) := by
  refine .trans ?_ (h1.append h2)
  simp only [List.append_assoc]
  refine .append_left _ ?_
  rw [← List.append_assoc, ← List.append_assoc]
  exact List.perm_append_comm.append_right _

theorem lists_part (list : String) (T : Forest XNode) :
    ∃ rest, (printed (forEach (lit list) (fun cs => walk htmlSheet cs .paragraphs) T) ++ rest).Perm (allTexts T) := by
  induction T with
  | nil => exact ⟨[], .refl _⟩
  | node a cs sibs _ ih =>
    obtain ⟨rest, ih⟩ := ih
    cases a with
    | text t => exact ⟨t ++ rest, by simpa [forEach, allTexts, printed] using perm_part (a := []) (x := t) (.refl _) ih⟩
    | elem n as =>
      simp only [forEach, printed_append, allTexts]
      split
      · have := walk_all html_agrees cs .list
        simp only [htmlWays, List.flatMap_cons, List.flatMap_nil, List.append_nil] at this
        exact ⟨_, perm_part this ih⟩
      · exact ⟨allTexts cs ++ rest, perm_part (a := []) (.refl _) ih⟩

theorem descend_part (name list : String) (T : Forest XNode) :
    ∃ rest, (printed (descend (lit name) (forEach (lit list) fun cs => walk htmlSheet cs .paragraphs) T) ++ rest).Perm (textIn name T) := by
  induction T with
  | nil => exact ⟨[], .refl _⟩
  | node a cs sibs ih1 ih2 =>
    cases a with
    | text t => exact ih2
    | elem n as =>
      obtain ⟨r1, ih1⟩ := ih1
      obtain ⟨r2, ih2⟩ := ih2
      simp only [descend, printed_append, textIn]
      split
      · obtain ⟨r0, h0⟩ := lists_part list cs
        exact ⟨_, perm_part (perm_part h0 ih1) ih2⟩
      · exact ⟨_, perm_part (perm_part (a := []) (x := []) (.refl _) ih1) ih2⟩

/-! ### All text of the file -/

/-- The text events. -/
def evTexts : List XEv → PyStr
  | [] => []
  | .text t :: r => t ++ evTexts r
  | _ :: r => evTexts r

theorem evTexts_append (a b : List XEv) : evTexts (a ++ b) = evTexts a ++ evTexts b := by
  induction a with
  | nil => rfl
  | cons e a ih => cases e <;> simp [evTexts, ih]

theorem evTexts_joined (X : List XEv) : evTexts (joined X) = noNul (evTexts X) := by
  induction X with
  | nil => rfl
  | cons e X ih =>
    cases e with
    | start n as => simpa [joined, evTexts] using ih
    | stop n => simpa [joined, evTexts] using ih
    | text t =>
      simp only [joined, evTexts, noNul_append]
      rw [← ih]
      cases hj : joined X with
      | nil =>
        dsimp only
        split
        · rename_i h; simp [evTexts, h]
        · simp [evTexts]
      | cons x r =>
        cases x with
        | text u => simp [evTexts, noNul_append]
        | start n as =>
          dsimp only
          split
          · rename_i h; simp [evTexts, h]
          · simp [evTexts]
        | stop n =>
          dsimp only
          split
          · rename_i h; simp [evTexts, h]
          · simp [evTexts]

theorem evTexts_bal {X : List XEv} {T : Forest XNode} (h : BalX X T) : evTexts X = allTexts T := by
  induction h with
  | nil => rfl
  | text _ ih => simp [evTexts, allTexts, ih]
  | elem _ _ ih1 ih2 => simp [evTexts, evTexts_append, allTexts, ih1, ih2]

theorem evTexts_quiet (kids : List XEv) (h : Quieted kids) : evTexts kids = [] := by
  induction kids with
  | nil => rfl
  | cons e kids ih =>
    have i := ih fun e he => h e (by simp [he])
    have := h e (by simp)
    cases e with
    | text t => cases this
    | start n as => exact i
    | stop n => exact i

/-- The text of models. -/
def modelTexts : List (Ev ModelItem) → PyStr
  | [] => []
  | .start m :: r => (if m.model = "Text" then heardText m else []) ++ modelTexts r
  | .stop _ :: r => modelTexts r

theorem modelTexts_append (a b : List (Ev ModelItem)) : modelTexts (a ++ b) = modelTexts a ++ modelTexts b := by
  induction a with
  | nil => rfl
  | cons e a ih => cases e <;> simp [modelTexts, ih]

theorem evTexts_models {env : XmlEnv} {es : List (Ev ModelItem)} {X : List XEv} (hx : XmlOf env es X) :
    (∀ m, .start m ∈ es → Heard env m) → evTexts X = modelTexts es := by
  induction hx with
  | nil => intro _; rfl
  | @cons e es x xs hx hxs ih =>
    intro hh
    have i := ih fun m hm => hh m (by simp [hm])
    cases e with
    | stop m =>
      obtain rfl := ofList_injective hx
      simpa [evTexts, modelTexts] using i
    | start m =>
      obtain ⟨attrs, kids, hm, hk⟩ := hh m (by simp)
      obtain rfl := ofList_injective (hx.symm.trans hm)
      simp only [List.cons_append, evTexts, evTexts_append, modelTexts, i]
      congr 1
      by_cases ht : m.model = "Text"
      · rw [if_pos ht] at hk ⊢
        subst hk
        split
        · rename_i h; rw [h]; rfl
        · simp [evTexts]
      · rw [if_neg ht] at hk ⊢
        exact evTexts_quiet _ hk

theorem modelTexts_numbered : ∀ (es pre : List (Ev ModelItem)), modelTexts (numberedFrom pre es) = modelTexts es := by
  intro es
  induction es with
  | nil => intro pre; rfl
  | cons e es ih =>
    intro pre
    cases e with
    | stop m => simp only [numberedFrom, modelTexts, ih]
    | start m =>
      simp only [numberedFrom, modelTexts, ih, withId_model]
      by_cases ht : m.model = "Text"
      · have : withId pre m = m := by unfold withId; rw [ht]; rfl
        rw [this]
      · simp only [ht, if_false]

theorem modelTexts_items (F : Item → ModelItem) (f : Forest Item) : AllSound F f →
    modelTexts (eventsOf (f.map F)) = f.items.flatMap textItem := by
  induction f with
  | nil => intro _; rfl
  | node a cs sibs ih1 ih2 =>
    intro hs
    obtain ⟨s1, s2, s3⟩ := allSound_node hs
    obtain ⟨q1, q2, q3⟩ := sounds_hides s1
    simp only [Forest.map, eventsOf, List.cons_append, List.append_assoc, List.nil_append, modelTexts, modelTexts_append, ih1 s2, ih2 s3, Forest.items,
      List.flatMap_cons, List.flatMap_append, q3]
    congr 1
    cases a
    case text s sh l =>
      obtain ⟨-, s1⟩ := s1
      simp [Item.isText, textItem, s1]
    all_goals simp [Item.isText, textItem]

end Hwp
