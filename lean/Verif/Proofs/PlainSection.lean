/-
The text of a section: of its records and of the tree that is shown.
-/
import Verif.Proofs.PlainOrder
import Verif.Props.Pipeline
set_option linter.unusedSimpArgs false
set_option linter.unusedVariables false
set_option autoImplicit false
namespace Hwp
open Spec

/-- Texts and control characters are leaves. -/
def Leafy : Forest Item → Prop
  | .nil => True
  | .node a cs sibs => (isLeaf a → cs = .nil) ∧ Leafy cs ∧ Leafy sibs

theorem leafy_of_Q7 (f : Forest Item) (h : Everywhere Q7 f) : Leafy f := by
  induction f with
  | nil => trivial
  | node a cs sibs ih1 ih2 => exact ⟨fun ha => forest_nil_of_roots (h.1.2.1 ha), ih1 h.2.1, ih2 h.2.2⟩

theorem leafy_append (f g : Forest Item) : Leafy (f.append g) ↔ Leafy f ∧ Leafy g := by
  induction f with
  | nil => simp [Forest.append, Leafy]
  | node a cs sibs _ ih => simp [Forest.append, Leafy, ih, and_assoc]

theorem leafy_takeWhile (p : Item → Bool) (f : Forest Item) (h : Leafy f) : Leafy (f.takeWhile p) ∧ Leafy (f.dropWhile p) := by
  rw [← leafy_append, Forest.takeWhile_append_dropWhile]
  exact h

theorem leafy_columned (n : Nat) : ∀ f : Forest Item, f.size ≤ n → Leafy f → Leafy (columned f) := by
  induction n with
  | zero =>
    intro f hf _
    cases f with
    | nil => rw [columned_nil]; trivial
    | node a cs sibs => simp [Forest.size] at hf
  | succ n ih =>
    intro f hf h
    cases f with
    | nil => rw [columned_nil]; trivial
    | node a cs sibs =>
      simp only [Forest.size] at hf
      obtain ⟨h1, h2, h3⟩ := h
      have c1 := ih cs (by omega) h2
      have hl : isLeaf a → columned cs = .nil := by
        intro ha
        rw [h1 ha, columned_nil]
      by_cases hs : startsColumns a
      · rw [columned_start hs]
        have hw := leafy_takeWhile (!startsColumns ·) sibs h3
        exact ⟨by simp [isLeaf, Item.isText, Item.isControlChar],
          ⟨hl, c1, ih _ (by have := sibs.size_takeWhile (!startsColumns ·); omega) hw.1⟩,
          ih _ (by have := sibs.size_dropWhile (!startsColumns ·); omega) hw.2⟩
      · rw [columned_other (by simpa using hs)]
        exact ⟨hl, c1, ih sibs (by omega) h3⟩

theorem shown_plain (f : Forest Item) (h : Leafy f) : shownText f = plainOf allDefs f := by
  induction f with
  | nil => rfl
  | node a cs sibs ih1 ih2 =>
    obtain ⟨h1, h2, h3⟩ := h
    simp only [shownText, plainOf, ih1 h2, ih2 h3]
    congr 1
    cases a
    case text s sh l =>
      rw [h1 rfl]
      simp [plainNode, standIn, plainOf, textItem, Item.isParagraph]
    case controlChar c k sh =>
      rw [h1 rfl]
      simp [plainNode, standIn, plainOf, textItem, Item.isParagraph]
    all_goals simp [plainNode, standIn, textItem, Item.isParagraph, allDefs]

theorem defCount_sect (t : Nat) (f : Forest Item) : defCount t f = ((f.items.flatMap sectItem).filter fun p => p.2 == t).length := by
  induction f with
  | nil => rfl
  | node a cs sibs ih1 ih2 =>
    simp only [defCount, Forest.items, List.flatMap_cons, List.flatMap_append, List.filter_append, List.length_append, ih1, ih2]
    cases a <;> simp [sectItem, List.filter_cons]
    split <;> simp_all <;> omega

/-- No element begins. -/
def Ends {α : Type} (r : List (Ev α)) : Prop := ∀ a es, r ≠ .start a :: es

theorem eventsOf_split {α : Type} (f : Forest α) : ∀ g r r', eventsOf f ++ r = eventsOf g ++ r' → Ends r → Ends r' → f = g ∧ r = r' := by
  induction f with
  | nil =>
    intro g r r' h hr hr'
    cases g with
    | nil => exact ⟨rfl, h⟩
    | node a cs sibs => exact absurd h (hr _ _)
  | node a cs sibs ih1 ih2 =>
    intro g r r' h hr hr'
    cases g with
    | nil => exact absurd h.symm (hr' _ _)
    | node b cs' sibs' =>
      simp only [eventsOf, List.cons_append, List.append_assoc, List.nil_append, List.cons.injEq, Ev.start.injEq] at h
      obtain ⟨rfl, h⟩ := h
      obtain ⟨rfl, h2⟩ := ih1 _ _ _ h (by intro x y h; cases h) (by intro x y h; cases h)
      injection h2 with _ h2
      obtain ⟨rfl, h3⟩ := ih2 _ _ _ h2 hr hr'
      exact ⟨rfl, h3⟩

theorem eventsOf_injective {α : Type} {f g : Forest α} (h : eventsOf f = eventsOf g) : f = g :=
  (eventsOf_split f g [] [] (by simpa using h) (by intro a es h; cases h) (by intro a es h; cases h)).1

theorem section_text (sid : Option Nat) (f : Forest Item) (h : ProperSection f) (b : Forest Item)
    (hb : sectionEvents sid (.ofList (eventsOf f)) = .ofList (eventsOf b)) :
    Leafy b ∧ ∃ i t X, .sectionDef i t ∈ allItems f ∧ (defCount t f = 1 →
      recordText (insteadOf t X) f = recordText allDefs f ∧ shownText b = X ++ recordText (insteadOf t []) f) := by
  obtain ⟨f1, f6, f8, cs, i, t, h1, h2, hx, e, hk, hs, -, -, -, hfp, hl, hq⟩ := Props.pipeline_all sid f h
  have hbb : b = .node (.sectionDef (sid.or i) t) (columned (cs.append f8)) .nil := by
    rw [e] at hb
    exact eventsOf_injective (congrArg Gen.out hb.symm)
  obtain ⟨q1, q2, -⟩ := extract_Q7 _ _ _ _ hx hq
  have hly : Leafy b := by
    rw [hbb]
    refine ⟨by simp [isLeaf, Item.isText, Item.isControlChar], leafy_columned _ _ (Nat.le_refl _) ?_, trivial⟩
    rw [leafy_append]
    exact ⟨leafy_of_Q7 _ q1, leafy_of_Q7 _ q2⟩
  have hall : ∀ defs, plainOf defs (tokenized f6) = recordText defs f := by
    intro defs
    rw [tokenized_plain defs _ hl, rowed_plain defs _ _ _ h2,
      adopt_plain defs _ _ (by intro a ha; cases a <;> simp_all [Item.isTableBody, bareItem, standIn, textItem, Item.isParagraph]) _ _ (Nat.le_refl _),
      adopt_plain defs _ _ (by intro a ha; cases a <;> simp_all [Item.isListHeader, bareItem, standIn, textItem, Item.isParagraph]) _ _ (Nat.le_refl _),
      fielded_plain defs _ hfp, plain_roots, texted_plain defs h1 h.2.1]
    exact flatten_filter _ _ fun k hk h' => recordTexts_empty defs f h.2.1 k hk (by simpa using h')
  refine ⟨hly, i, t, plainOf allDefs cs, ?_, ?_⟩
  · have hi := extract_items _ _ _ _ hx
    rw [allItems_eq]
    have : (i, t) ∈ (tokenized f6).items.flatMap sectItem :=
      List.mem_flatMap.2 ⟨.sectionDef i t, hi.mem_iff.2 (by simp), by simp [sectItem]⟩
    obtain ⟨b, hb, hb'⟩ := List.mem_flatMap.1 (hs.mem_iff.1 this)
    cases b <;> simp [sectItem] at hb'
    obtain ⟨rfl, rfl⟩ := hb'
    exact hb
  · intro hc
    have hc' : defCount t (tokenized f6) = 1 := by
      rw [defCount_sect, (hs.filter _).length_eq, ← defCount_sect, hc]
    obtain ⟨-, -, x1, x2⟩ := extract_plain _ _ _ _ _ hx hc'
    rw [hall, hall] at x1
    rw [hall] at x2
    refine ⟨x1, ?_⟩
    rw [shown_plain b hly, hbb, x2]
    simp only [plainOf, List.append_nil, columned_plain allDefs _ _ (Nat.le_refl _), plain_append]
    simp [plainNode, standIn, allDefs, textItem, Item.isParagraph]

end Hwp
