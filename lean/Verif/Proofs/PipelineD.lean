import Verif.Proofs.PipelineC
import Verif.Props.Charsets
namespace Hwp
open Spec
set_option linter.unusedSimpArgs false

/-! ### What the passes keep, element by element -/

/-- A quantity that is the same for an element before and after the passes. -/
structure Keeps {β : Type} (φ : Item → List β) : Prop where
  ctrl : ∀ c k s, φ (.controlChar c k s) = []
  field : ∀ c t, φ (.field c t) = []
  columnSet : φ .columnSet = []
  tableRow : φ .tableRow = []
  body : ∀ r r' t, φ (.tableBody r t) = φ (.tableBody r' t)
  text : ∀ s sh l, (tokenizeByLang s).flatMap (fun t => φ (.text t.2 sh (some t.1))) = φ (.text s sh l)

theorem keeps_keptItem : Keeps keptItem := by
  refine ⟨?_, ?_, rfl, rfl, ?_, ?_⟩ <;> intros <;> simp [keptItem]

theorem keeps_textItem : Keeps textItem := by
  refine ⟨?_, ?_, rfl, rfl, ?_, ?_⟩
  · intros; rfl
  · intros; rfl
  · intros; rfl
  · intro s sh l
    have := (Props.C19_tokenize s).1
    simp only [textItem]
    rw [← List.flatMap_def] at this
    exact this

/-- Section definitions with their ids. -/
def sectItem : Item → List (Option Nat × Nat)
  | .sectionDef i t => [(i, t)]
  | _ => []

theorem keeps_sectItem : Keeps sectItem := by
  refine ⟨?_, ?_, rfl, rfl, ?_, ?_⟩ <;> intros <;> simp [sectItem]

variable {β : Type} {φ : Item → List β}

theorem inlined_keeps (hk : Keeps φ) (f : Forest Item) (h : InlineOk false f) :
    ((inlined f).items.flatMap φ).Perm (f.items.flatMap φ) := by
  refine (((inlined_perm f).1 h).flatMap_right _).trans ?_
  have : ∀ l : List Item, (noAnchors l).flatMap φ = l.flatMap φ := by
    intro l
    induction l with
    | nil => rfl
    | cons a l ih =>
      rw [noAnchors_cons]
      split
      · rename_i ha
        have : φ a = [] := by
          cases a <;> simp [isAnchor] at ha
          exact hk.ctrl _ _ _
        simp [this, ih]
      · simp [ih]
  rw [this]

theorem starts_filter (hk : Keeps φ) (es : List IEv) : (starts (es.filter notField)).flatMap φ = (starts es).flatMap φ := by
  induction es with
  | nil => rfl
  | cons e es ih =>
    by_cases hn : notField e
    · rw [List.filter_cons_of_pos hn]
      cases e <;> simp [starts, ih]
    · rw [List.filter_cons_of_neg hn, ih]
      cases e with
      | stop a => rfl
      | start a =>
        have : φ a = [] := by
          cases a <;> simp [notField, Ev.item, Item.isField, Item.isFieldEnd] at hn
          · exact hk.ctrl _ _ _
          · exact hk.field _ _
        simp [starts, this]

theorem fielded_filter (f : Forest Item) (h : FieldsPaired f) :
    (eventsOf (fielded f)).filter notField = (eventsOf f).filter notField := by
  have h1 := matchFields_fielded f h
  have h2 := matchFieldsGo_filter none (eventsOf f) [] (by simp)
  have h3 : (matchFields (.ofList (eventsOf f))).out = eventsOf (fielded f) := by rw [h1]; rfl
  rw [← h3]
  exact h2

theorem fielded_keeps (hk : Keeps φ) (f : Forest Item) (h : FieldsPaired f) :
    (fielded f).items.flatMap φ = f.items.flatMap φ := by
  rw [← starts_eventsOf, ← starts_eventsOf, ← starts_filter hk, fielded_filter f h, starts_filter hk]

theorem adopt_items (isP isC : Item → Bool) (f : Forest Item) : (adopt isP isC f).items = f.items := by
  rw [← starts_eventsOf, ← starts_eventsOf, adopt_starts isP isC _ f (Nat.le_refl _)]

theorem Forest.take_append_drop (f : Forest Item) : ∀ n, (f.take n).append (f.drop n) = f := by
  induction f with
  | nil => intro n; cases n <;> rfl
  | node a cs sibs _ ih =>
    intro n
    cases n with
    | zero => rfl
    | succ n => simp [Forest.take, Forest.drop, Forest.append, ih]

theorem groupRows_keeps (hk : Keeps φ) (ws : List Nat) : ∀ f : Forest Item, f.roots.length = ws.sum →
    (groupRows ws f).items.flatMap φ = f.items.flatMap φ := by
  induction ws with
  | nil =>
    intro f h
    cases f with
    | nil => rfl
    | node a cs sibs => simp [Forest.roots] at h
  | cons w ws ih =>
    intro f h
    simp only [List.sum_cons] at h
    have := ih (f.drop w) (by simp [Forest.roots_drop]; omega)
    simp only [groupRows, Forest.items, List.flatMap_cons, hk.tableRow, List.nil_append, List.flatMap_append, this]
    rw [← List.flatMap_append, ← Forest.items_append, Forest.take_append_drop]

theorem rowed_cases {b : Bool} {a : Item} {cs sibs g : Forest Item} (h : rowed b (.node a cs sibs) = some g) :
    ∃ cs' sibs', rowed b sibs = some sibs' ∧
      ((∃ ws t, a = .tableBody (some ws) t ∧ rowed true cs = some cs' ∧ cs.roots.length = ws.sum ∧
          g = .node (.tableBody none t) (groupRows ws cs') sibs') ∨
        (a.isTableBody = false ∧ rowed false cs = some cs' ∧ g = .node a cs' sibs')) := by
  cases b with
  | true =>
    cases a <;> simp [rowed, Option.bind_eq_some_iff] at h
    case tableCell t =>
    obtain ⟨cs', h1, sibs', h2, rfl⟩ := h
    exact ⟨cs', sibs', h2, .inr ⟨rfl, h1, rfl⟩⟩
  | false =>
    cases a
    case tableCell t => simp [rowed, Option.bind_eq_some_iff] at h
    case tableBody r t =>
      cases r with
      | none => simp [rowed, Option.bind_eq_some_iff] at h
      | some ws =>
        simp [rowed, Option.bind_eq_some_iff] at h
        obtain ⟨cs', h1, sibs', h2, h3, rfl⟩ := h
        exact ⟨cs', sibs', h2, .inl ⟨ws, t, rfl, h1, h3.1, rfl⟩⟩
    all_goals
      simp [rowed, Option.bind_eq_some_iff] at h
      obtain ⟨cs', h1, sibs', h2, rfl⟩ := h
      exact ⟨cs', sibs', h2, .inr ⟨rfl, h1, rfl⟩⟩

theorem rowed_keeps (hk : Keeps φ) (f : Forest Item) : ∀ b g, rowed b f = some g →
    g.items.flatMap φ = f.items.flatMap φ := by
  induction f with
  | nil =>
    intro b g h
    cases b <;> (simp [rowed] at h; subst h; rfl)
  | node a cs sibs ih1 ih2 =>
    intro b g h
    obtain ⟨cs', sibs', h2, ⟨ws, t, rfl, h1, h3, rfl⟩ | ⟨-, h1, rfl⟩⟩ := rowed_cases h
    · have := groupRows_keeps hk ws cs' (by rw [rowed_roots cs cs' h1, h3])
      simp only [Forest.items, List.flatMap_cons, List.flatMap_append, this, ih1 _ _ h1, ih2 _ _ h2]
      rw [hk.body none (some ws) t]
    · simp only [Forest.items, List.flatMap_cons, List.flatMap_append, ih1 _ _ h1, ih2 _ _ h2]

theorem tokens_items (sh : Nat) (ts : List (Lang × PyStr)) (g : Forest Item) :
    (ts.foldr (fun t f => .node (.text t.2 sh (some t.1)) .nil f) g).items =
      ts.map (fun t => .text t.2 sh (some t.1)) ++ g.items := by
  induction ts with
  | nil => rfl
  | cons t ts ih => simp [Forest.items, ih]

theorem tokenized_keeps (hk : Keeps φ) (f : Forest Item) (h : TextLeaves f) :
    (tokenized f).items.flatMap φ = f.items.flatMap φ := by
  induction f with
  | nil => rfl
  | node a cs sibs ih1 ih2 =>
    obtain ⟨h1, h2, h3⟩ := h
    by_cases ht : a.isText
    · rw [h1 ht]
      cases a <;> simp [Item.isText] at ht
      case text s sh l =>
      simp only [tokenized, tokens_items, List.flatMap_append, ih2 h3, Forest.items, List.nil_append, List.flatMap_cons]
      rw [List.flatMap_map, hk.text s sh l]
    · rw [tokenized_other _ _ _ (by simpa using ht)]
      simp [Forest.items, ih1 h2, ih2 h3]

theorem extract_items (f : Forest Item) : ∀ a cs f', extractSection f = some ((a, cs), f') →
    f.items.Perm (a :: (cs.items ++ f'.items)) := by
  induction f with
  | nil => intro a cs f' h; cases h
  | node a cs sibs ih1 ih2 =>
    intro b ks f' h
    simp only [extractSection] at h
    split at h
    · simp only [Option.some.injEq, Prod.mk.injEq] at h
      obtain ⟨⟨rfl, rfl⟩, rfl⟩ := h
      exact .refl _
    · split at h
      · rename_i sd cs' heq
        simp only [Option.some.injEq, Prod.mk.injEq] at h
        obtain ⟨rfl, rfl⟩ := h
        have := (ih1 _ _ _ heq).append_right sibs.items
        simp only [Forest.items]
        refine (this.cons a).trans ?_
        simp only [List.cons_append, List.append_assoc]
        exact (List.Perm.swap _ _ _).trans (List.perm_middle.symm.cons _)
      · split at h
        · rename_i sd sibs' heq
          simp only [Option.some.injEq, Prod.mk.injEq] at h
          obtain ⟨rfl, rfl⟩ := h
          have := ih2 _ _ _ heq
          simp only [Forest.items]
          refine ((this.append_left cs.items).cons a).trans ?_
          refine (List.perm_middle.cons a).trans ?_
          refine (List.Perm.swap _ _ _).trans (List.Perm.cons _ ?_)
          refine List.Perm.trans ?_ List.perm_middle.symm
          refine List.Perm.cons _ ?_
          rw [← List.append_assoc, ← List.append_assoc]
          exact List.perm_append_comm.append_right _
        · cases h

theorem columned_nil : columned .nil = .nil := by rw [columned]

theorem columned_start {a : Item} (h : startsColumns a) (cs sibs : Forest Item) :
    columned (.node a cs sibs) =
      .node .columnSet (.node a (columned cs) (columned (sibs.takeWhile (!startsColumns ·))))
        (columned (sibs.dropWhile (!startsColumns ·))) := by
  rw [columned]; simp [h]

theorem columned_other {a : Item} (h : startsColumns a = false) (cs sibs : Forest Item) :
    columned (.node a cs sibs) = .node a (columned cs) (columned sibs) := by
  rw [columned]; simp [h]

theorem columned_keeps (hk : Keeps φ) (n : Nat) : ∀ f : Forest Item, f.size ≤ n →
    (columned f).items.flatMap φ = f.items.flatMap φ := by
  induction n with
  | zero =>
    intro f hf
    cases f with
    | nil => rw [columned_nil]
    | node a cs sibs => simp [Forest.size] at hf
  | succ n ih =>
    intro f hf
    cases f with
    | nil => rw [columned_nil]
    | node a cs sibs =>
      simp only [Forest.size] at hf
      by_cases hs : startsColumns a
      · rw [columned_start hs]
        have h1 := ih cs (by omega)
        have h2 := ih (sibs.takeWhile (!startsColumns ·)) (by have := sibs.size_takeWhile (!startsColumns ·); omega)
        have h3 := ih (sibs.dropWhile (!startsColumns ·)) (by have := sibs.size_dropWhile (!startsColumns ·); omega)
        simp only [Forest.items, List.flatMap_cons, hk.columnSet, List.nil_append, List.flatMap_append, h1, h2, h3,
          List.append_assoc]
        rw [← List.flatMap_append, ← Forest.items_append, Forest.takeWhile_append_dropWhile]
      · rw [columned_other (by simpa using hs)]
        simp [Forest.items, ih cs (by omega), ih sibs (by omega)]

end Hwp
