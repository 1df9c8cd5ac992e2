/-
Ids of a document, and the XML of items that can be shown.
-/
import Verif.Proofs.DocTree
set_option linter.unusedSimpArgs false
set_option linter.unusedVariables false
namespace Hwp
open Spec

/-- The name of the element of an event. -/
def evName : Ev ModelItem → Ev String
  | .start m => .start m.model
  | .stop m => .stop m.model

/-! ### Numbering -/

/-- The counters tell how many elements came before. -/
def Counts (c : IdCounters) (pre : List (Ev ModelItem)) : Prop :=
  c.paragraph = countModel "Paragraph" pre ∧ c.table = countModel "TableControl" pre ∧
  c.gshape = countModel "GShapeObjectControl" pre ∧ c.shape = countModel "ShapeComponent" pre

theorem countModel_append (model : String) (a b : List (Ev ModelItem)) :
    countModel model (a ++ b) = countModel model a + countModel model b := by
  induction a with
  | nil => simp [countModel]
  | cons e a ih => cases e <;> simp [countModel, ih, Nat.add_assoc]

/-- The id of an item is not among its attributes. -/
def FreshId (m : ModelItem) : Prop := ∀ k, idNameOf m.model = some k → k ∉ m.attributes.map (·.1)

theorem numberGo_numbered : ∀ (es : List (Ev ModelItem)) (c : IdCounters) (pre : List (Ev ModelItem)), Counts c pre →
    (∀ m, .start m ∈ es → FreshId m) → numberGo c es = numberedFrom pre es := by
  intro es
  induction es with
  | nil => intro c pre _ _; rfl
  | cons e es ih =>
    intro c pre hc hf
    obtain ⟨c1, c2, c3, c4⟩ := hc
    have hf' : ∀ m, .start m ∈ es → FreshId m := fun m hm => hf m (by simp [hm])
    cases e with
    | stop m =>
      unfold numberGo numberedFrom
      rw [ih c (pre ++ [.stop m]) ⟨?_, ?_, ?_, ?_⟩ hf']
      all_goals simp only [countModel_append, countModel]; assumption
    | start m =>
      have hm := hf m (by simp)
      obtain ⟨model, attrs, ctx⟩ := m
      unfold numberGo numberedFrom withId
      dsimp only
      by_cases h1 : model = "Paragraph"
      · subst h1
        rw [if_pos rfl, show idNameOf "Paragraph" = some "paragraph_id" from rfl]
        dsimp only
        rw [setField_new _ _ _ (hm _ rfl), ← c1, ih _ (pre ++ [.start ⟨"Paragraph", attrs, ctx⟩]) ⟨?_, ?_, ?_, ?_⟩ hf']
        all_goals simp [countModel_append, countModel, c1, c2, c3, c4]
      rw [if_neg h1]
      by_cases h2 : model = "TableControl"
      · subst h2
        rw [if_pos rfl, show idNameOf "TableControl" = some "table_id" from rfl]
        dsimp only
        rw [setField_new _ _ _ (hm _ rfl), ← c2, ih _ (pre ++ [.start ⟨"TableControl", attrs, ctx⟩]) ⟨?_, ?_, ?_, ?_⟩ hf']
        all_goals simp [countModel_append, countModel, c1, c2, c3, c4]
      rw [if_neg h2]
      by_cases h3 : model = "GShapeObjectControl"
      · subst h3
        rw [if_pos rfl, show idNameOf "GShapeObjectControl" = some "gshape_id" from rfl]
        dsimp only
        rw [setField_new _ _ _ (hm _ rfl), ← c3, ih _ (pre ++ [.start ⟨"GShapeObjectControl", attrs, ctx⟩]) ⟨?_, ?_, ?_, ?_⟩ hf']
        all_goals simp [countModel_append, countModel, c1, c2, c3, c4]
      rw [if_neg h3]
      by_cases h4 : model = "ShapeComponent"
      · subst h4
        rw [if_pos rfl, show idNameOf "ShapeComponent" = some "shape_id" from rfl]
        dsimp only
        rw [setField_new _ _ _ (hm _ rfl), ← c4, ih _ (pre ++ [.start ⟨"ShapeComponent", attrs, ctx⟩]) ⟨?_, ?_, ?_, ?_⟩ hf']
        all_goals simp [countModel_append, countModel, c1, c2, c3, c4]
      rw [if_neg h4]
      have hn : idNameOf model = none := by
        cases h : idNameOf model with
        | none => rfl
        | some k => rcases idNameOf_some h with ⟨h, -⟩ | ⟨h, -⟩ | ⟨h, -⟩ | ⟨h, -⟩ <;> contradiction
      rw [hn]
      dsimp only
      rw [ih c (pre ++ [.start ⟨model, attrs, ctx⟩]) ⟨?_, ?_, ?_, ?_⟩ hf']
      all_goals simp [countModel_append, countModel, c1, c2, c3, c4, h1, h2, h3, h4]

theorem numbered_names : ∀ (es pre : List (Ev ModelItem)), (numberedFrom pre es).map evName = es.map evName := by
  intro es
  induction es with
  | nil => intro pre; rfl
  | cons e es ih =>
    intro pre
    cases e with
    | stop m => simp [numberedFrom, evName, ih]
    | start m =>
      simp only [numberedFrom, List.map_cons, ih, evName]
      congr 2
      unfold withId
      split <;> rfl

theorem atStarts_names (F : ModelItem → ModelItem) (hF : ∀ m, (F m).model = m.model) (es : List (Ev ModelItem)) :
    (atStarts F es).map evName = es.map evName := by
  induction es with
  | nil => rfl
  | cons e es ih => cases e <;> simp [atStarts, evName, ih, hF]

theorem idShows_withId (env : XmlEnv) (pre : List (Ev ModelItem)) (m : ModelItem) (h : IdShows env m) : Shows env (withId pre m) := by
  unfold IdShows at h
  unfold withId
  cases hk : idNameOf m.model with
  | none => rw [hk] at h; exact h
  | some k => rw [hk] at h; exact h.2 _

theorem numbered_shows (env : XmlEnv) : ∀ (es pre : List (Ev ModelItem)), (∀ m, .start m ∈ es → IdShows env m) →
    ∀ m, .start m ∈ numberedFrom pre es → Shows env m := by
  intro es
  induction es with
  | nil => intro pre _ m hm; cases hm
  | cons e es ih =>
    intro pre h m hm
    have h' : ∀ m, .start m ∈ es → IdShows env m := fun m hm => h m (by simp [hm])
    cases e with
    | stop a =>
      simp only [numberedFrom, List.mem_cons, reduceCtorEq, false_or] at hm
      exact ih _ h' m hm
    | start a =>
      simp only [numberedFrom, List.mem_cons, Ev.start.injEq] at hm
      rcases hm with rfl | hm
      · exact idShows_withId env pre a (h a (by simp))
      · exact ih _ h' m hm

theorem idShows_fresh {env : XmlEnv} {m : ModelItem} (h : IdShows env m) : FreshId m := by
  intro k hk
  unfold IdShows at h
  rw [hk] at h
  exact h.1

/-! ### XML -/

theorem kids_nil' : Kids [] := fun _ _ _ h => h
theorem kids_append' {a b : List XEv} (ha : Kids a) (hb : Kids b) : Kids (a ++ b) := by
  intro top st r h
  rw [List.append_assoc]
  exact ha _ _ _ (hb _ _ _ h)
theorem kids_element {n : PyStr} {attrs} {a : List XEv} (ha : Kids a) : Kids (.start n attrs :: (a ++ [.stop n])) := by
  intro top st r h
  simp only [List.cons_append, Inside, List.append_assoc, List.nil_append]
  exact ha _ _ _ ⟨rfl, h⟩

theorem oneRoot_element {n : PyStr} {attrs} {a : List XEv} (ha : Kids a) : OneRoot (.start n attrs :: (a ++ [.stop n])) := by
  simp only [OneRoot]
  exact ha _ _ _ ⟨rfl, rfl⟩

/-- Each event of the list is shown; what comes out. -/
inductive XmlOf (env : XmlEnv) : List (Ev ModelItem) → List XEv → Prop
  | nil : XmlOf env [] []
  | cons {e es x xs} : xmlOfEvent env e = .ofList x → XmlOf env es xs → XmlOf env (e :: es) (x ++ xs)

theorem xmlOf_append {env : XmlEnv} {a b : List (Ev ModelItem)} {x y : List XEv} (ha : XmlOf env a x) (hb : XmlOf env b y) :
    XmlOf env (a ++ b) (x ++ y) := by
  induction ha with
  | nil => exact hb
  | cons h _ ih => rw [List.append_assoc]; exact .cons h ih

theorem xmlOf_chain {env : XmlEnv} {a : List (Ev ModelItem)} {x : List XEv} (ha : XmlOf env a x) :
    Gen.chain (a.map (xmlOfEvent env)) = .ofList x := by
  induction ha with
  | nil => rfl
  | cons h _ ih =>
    rw [List.map_cons, Gen.chain, h]
    dsimp only [Gen.ofList]
    rw [ih]; rfl

theorem xml_forest (env : XmlEnv) (F : Forest String) : ∀ (es : List (Ev ModelItem)), es.map evName = eventsOf F →
    (∀ m, .start m ∈ es → Shows env m) →
    ∃ X, XmlOf env es X ∧ Kids X ∧ (∀ e ∈ X, NamesOk e) ∧ (∀ n cs, F = .node n cs .nil → OneRoot X) := by
  induction F with
  | nil =>
    intro es he _
    simp only [eventsOf, List.map_eq_nil_iff] at he
    subst he
    exact ⟨[], .nil, kids_nil', by simp, fun _ _ h => by cases h⟩
  | node n cs sibs ih1 ih2 =>
    intro es he hs
    simp only [eventsOf] at he
    obtain ⟨e0, r, rfl, h0, he⟩ := List.map_eq_cons_iff.1 he
    obtain ⟨e1, r1, rfl, h1, he⟩ := List.map_eq_append_iff.1 he
    obtain ⟨e2, r2, rfl, h2, h3⟩ := List.map_eq_cons_iff.1 he
    obtain ⟨m, rfl, hm⟩ : ∃ m, e0 = .start m ∧ m.model = n := by
      cases e0 <;> simp [evName] at h0
      exact ⟨_, rfl, h0⟩
    obtain ⟨m', rfl, hm'⟩ : ∃ m, e2 = .stop m ∧ m.model = n := by
      cases e2 <;> simp [evName] at h2
      exact ⟨_, rfl, h2⟩
    obtain ⟨attrs, kids, s1, s2, s3, s4⟩ := hs m (by simp)
    obtain ⟨X1, a1, a2, a3, -⟩ := ih1 e1 h1 (fun m hm => hs m (by simp [hm]))
    obtain ⟨X2, b1, b2, b3, -⟩ := ih2 r2 h3 (fun m hm => hs m (by simp [hm]))
    have hstart : xmlOfEvent env (.start m) = .ofList (.start (lit n) attrs :: kids) := by
      rw [← hm]; exact s1
    have hstop : xmlOfEvent env (.stop m') = .ofList [.stop (lit n)] := by
      rw [← hm']; rfl
    have hel : XEv.start (lit n) attrs :: ((kids ++ X1) ++ [.stop (lit n)]) ++ X2 =
        (.start (lit n) attrs :: kids) ++ (X1 ++ ([.stop (lit n)] ++ X2)) := by simp
    refine ⟨XEv.start (lit n) attrs :: ((kids ++ X1) ++ [.stop (lit n)]) ++ X2, ?_, ?_, ?_, ?_⟩
    · rw [hel]
      exact .cons hstart (xmlOf_append a1 (.cons hstop b1))
    · exact kids_append' (kids_element (kids_append' s3 a2)) b2
    · intro e he
      rw [hm] at s2
      simp only [List.cons_append, List.mem_cons, List.mem_append, List.append_assoc, List.not_mem_nil, or_false, false_or] at he
      rcases he with rfl | he | he | rfl | he
      · exact s2
      · exact s4 e he
      · exact a3 e he
      · exact s2.1
      · exact b3 e he
    · intro n' cs' h
      cases h
      simp only [eventsOf, List.map_eq_nil_iff] at h3
      subst h3
      cases b1
      rw [List.append_nil]
      exact oneRoot_element (kids_append' s3 a2)

theorem document_xml (env : XmlEnv) (n : String) (cs : Forest String) (es : List (Ev ModelItem))
    (he : es.map evName = eventsOf (.node n cs .nil)) (hs : ∀ m, .start m ∈ es → Shows env m) :
    ∃ X, modelToXml env (.ofList es) = .ofList X ∧ XmlOf env es X ∧ OneRoot X ∧ ∀ e ∈ X, NamesOk e := by
  obtain ⟨X, h1, -, h2, h3⟩ := xml_forest env _ es he hs
  refine ⟨X, ?_, h1, h3 _ _ rfl, h2⟩
  unfold modelToXml
  dsimp only [Gen.ofList]
  rw [xmlOf_chain h1]
  simp [Gen.andThen, Gen.ofList, Gen.prepend]

/-! ### Names of the events of forests -/

theorem names_eventsOf (f : Forest ModelItem) : (eventsOf f).map evName = eventsOf (f.map (·.model)) := by
  induction f with
  | nil => rfl
  | node a cs sibs ih1 ih2 => simp [eventsOf, Forest.map, evName, ih1, ih2]

theorem map_eventsOf {α β} (F : α → β) (g : Ev α → Ev β) (h1 : ∀ a, g (.start a) = .start (F a)) (h2 : ∀ a, g (.stop a) = .stop (F a))
    (f : Forest α) : (eventsOf f).map g = eventsOf (f.map F) := by
  induction f with
  | nil => rfl
  | node a cs sibs ih1 ih2 => simp [eventsOf, Forest.map, h1, h2, ih1, ih2]

theorem eventsOf_element {α} (a : α) (f : Forest α) : eventsOf (.node a f .nil) = element a (eventsOf f) := by
  simp [eventsOf, element]

end Hwp
