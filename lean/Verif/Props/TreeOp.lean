/-
Properties C08–C11: level-prefixed items, event streams and trees.
-/
import Verif.Proofs.Ancestors
set_option linter.unusedSimpArgs false
namespace Hwp.Props
open Hwp Hwp.Spec
variable {α : Type}

/-- Level sequences the code accepts: nothing is above the first item and no
item is more than one level deeper than its predecessor. -/
def ProperLevels : List (Nat × α) → Prop
  | [] => True
  | (b, _) :: rest => (∀ p ∈ rest, b ≤ p.1) ∧ StepsOk b rest

/-- The level of the first item. -/
def baseLevel : List (Nat × α) → Nat
  | [] => 0
  | (b, _) :: _ => b

/-! ### C08 -/

/-- C08: for proper levels, the events are well nested and their start events
are the items, in order, each at the depth given by its level. -/
theorem C08_prefix_event_nested (root : α) (items : List (Nat × α)) (h : ProperLevels items) :
    ∃ es, prefixEvent root (lv items) = ⟨es, none⟩ ∧ WellNested es ∧
      startDepths 0 es = items.map (fun p => (p.1 - baseLevel items, p.2)) := by
  cases items with
  | nil => exact ⟨[], rfl, rfl, rfl⟩
  | cons p items =>
    obtain ⟨b, a⟩ := p
    rw [prefixEvent_cons]
    obtain ⟨h1, h2⟩ := h
    obtain ⟨e1, e2, e3⟩ := prefixEventGo_valid root b ((b, a) :: items) []
      (by
        intro p hp
        simp only [List.mem_cons] at hp
        rcases hp with rfl | hp
        · simp
        · exact h1 p hp)
      (by exact ⟨by simp, h2⟩)
    exact ⟨_, Gen.ext rfl e1, e2, e3⟩

example : prefixEvent 'r' (lv [(3, 'a'), (4, 'b'), (5, 'c'), (4, 'd'), (3, 'e')]) =
    ⟨[.start 'a', .start 'b', .start 'c', .stop 'c', .stop 'b', .start 'd', .stop 'd', .stop 'a',
      .start 'e', .stop 'e'], none⟩ := by decide +kernel
example : ProperLevels [(3, 'a'), (4, 'b'), (5, 'c'), (4, 'd'), (3, 'e')] := by
  simp [ProperLevels, StepsOk]

/-- C08: with no level below the first one, the conversion fails exactly on
improper levels, and then with the "invalid level" exception. -/
theorem C08_prefix_event_fails_iff (root : α) (b : Nat) (a : α) (rest : List (Nat × α))
    (hb : ∀ p ∈ rest, b ≤ p.1) :
    ((prefixEvent root (lv ((b, a) :: rest))).err = none ↔ StepsOk b rest) ∧
    (¬ StepsOk b rest → (prefixEvent root (lv ((b, a) :: rest))).err = some .exception) := by
  have hb' : ∀ p ∈ (b, a) :: rest, b ≤ p.1 := by
    intro p hp
    simp only [List.mem_cons] at hp
    rcases hp with rfl | hp
    · simp
    · exact hb p hp
  have hinv : ¬ StepsOk b rest → (prefixEvent root (lv ((b, a) :: rest))).err = some .exception := by
    intro hs
    rw [prefixEvent_cons]
    apply prefixEventGo_invalid root b ((b, a) :: rest) [] hb'
    intro hc
    exact hs hc.2
  refine ⟨⟨?_, ?_⟩, hinv⟩
  · intro he
    apply Classical.byContradiction
    intro hs
    rw [hinv hs] at he
    cases he
  · intro hs
    obtain ⟨es, h1, -, -⟩ := C08_prefix_event_nested root ((b, a) :: rest) ⟨hb, hs⟩
    rw [h1]

example : (∀ p ∈ [(2, 'x')], 0 ≤ p.1) ∧ ¬ StepsOk 0 [(2, 'x')] ∧
    (prefixEvent 'r' (lv [(0, 'a'), (2, 'x')])).err = some .exception := by
  refine ⟨by simp, by simp [StepsOk], by decide +kernel⟩

/-- The guard of C08 is needed: one level below the first item the (never
started) root item gets an end event, two levels below the conversion crashes. -/
theorem C08_below_base_witness :
    prefixEvent 'r' (lv [(1, 'a'), (0, 'b')]) =
      ⟨[.start 'a', .stop 'a', .stop 'r', .start 'b'], none⟩ ∧
    (prefixEvent 'r' (lv [(2, 'a'), (0, 'b')])).err = some .indexError := by
  decide +kernel

/-! ### C09 -/

/-- C09: building a tree from the events of a tree (behind its start event)
returns the tree and leaves the following events untouched. -/
theorem C09_build_of_events (root : α) (childs : Forest α) (rest : List (Ev α)) :
    ∃ body, treeEvents root childs = .start root :: body ∧
      buildSubtree (body ++ rest) = (some (root, childs), rest) := by
  refine ⟨treeEventsMulti childs ++ [.stop root], rfl, ?_⟩
  rw [treeEventsMulti_eq, List.append_assoc]
  exact buildSubtreeGo_forest childs .nil root rest

example : buildSubtree (([.start 2, .start 3, .stop 3, .stop 2, .stop 1] : List (Ev Nat)) ++ [.start 9]) =
    (some (1, .node 2 (.node 3 .nil .nil) .nil), [.start 9]) := by decide +kernel

/-- C09 (other direction): the events of the tree built from any well nested
element are the events it was built from. -/
theorem C09_events_of_build (root : α) (es rest : List (Ev α)) (h : Nested [root] (es ++ rest))
    (a : α) (childs : Forest α) (hb : buildSubtree (es ++ rest) = (some (a, childs), rest)) :
    treeEvents a childs = .start root :: es := by
  obtain ⟨f, es', h1, es'', h2, h3⟩ := nested_decompose _ _ h
  rw [h2] at h1
  rw [h1] at hb
  have := buildSubtreeGo_forest f .nil root es''
  unfold buildSubtree at hb
  rw [this] at hb
  simp only [Prod.mk.injEq, Option.some.injEq] at hb
  obtain ⟨⟨rfl, rfl⟩, rfl⟩ := hb
  rw [treeEvents_eq]
  simp only [Forest.append, eventsOf]
  have e : es = eventsOf f ++ [.stop root] := by
    have : es ++ es'' = (eventsOf f ++ [.stop root]) ++ es'' := by rw [h1]; simp
    exact List.append_cancel_right this
  rw [e]

example : Nested [1] (([.start 2, .stop 2, .stop 1] : List (Ev Nat)) ++ []) ∧
    buildSubtree (([.start 2, .stop 2, .stop 1] : List (Ev Nat)) ++ []) = (some (1, .node 2 .nil .nil), []) := by
  decide +kernel

/-- C09: the event stream of any list of trees is well nested. -/
theorem C09_tree_events_nested (trees : Forest α) : WellNested (treeEventsMulti trees) := by
  rw [treeEventsMulti_eq]; exact wellNested_eventsOf trees

/-- C09: when the events end before the element is closed the result is `None`. -/
theorem C09_unclosed (trees : Forest α) : buildSubtree (treeEventsMulti trees) = (none, []) := by
  rw [treeEventsMulti_eq]; exact buildSubtreeGo_forest_eof trees .nil

/-! ### C10 -/

/-- C10: computing ancestors directly from levels or from the derived event
stream gives the same results and the same failures, for all inputs. -/
theorem C10_ancestors_agree (root : α) (items : List (Int × α)) :
    prefixAncestors root (prefixEvent root items) = ancestorsFromLevel root items :=
  ancestors_agree items none [root]

/-- C10: for proper levels, every item is reported once, in order, with the
chain of its enclosing items (nearest preceding item of smaller level, and so on). -/
theorem C10_ancestors_enclosing (root : α) (items : List (Nat × α)) (h : ProperLevels items) :
    ∃ out, ancestorsFromLevel root (lv items) = ⟨out, none⟩ ∧
      out.map (·.2) = items.map (·.2) ∧
      ∀ (i : Nat) (anc : List α) (a : α), out[i]? = some (anc, a) → IsAncestors root items i anc := by
  cases items with
  | nil => exact ⟨[], rfl, rfl, by simp⟩
  | cons p items =>
    obtain ⟨b, a⟩ := p
    rw [ancestorsFromLevel_cons]
    obtain ⟨h1, h2⟩ := h
    have hb' : ∀ p ∈ (b, a) :: items, b ≤ p.1 := by
      intro p hp
      simp only [List.mem_cons] at hp
      rcases hp with rfl | hp
      · simp
      · exact h1 p hp
    obtain ⟨e1, e2, e3⟩ := ancestors_valid root b ((b, a) :: items) hb' ((b, a) :: items) [] []
      rfl trivial ⟨by simp, h2⟩
    refine ⟨_, Gen.ext rfl e1, e2, ?_⟩
    intro i anc a' hi
    have := e3 i anc a' hi
    simpa using this

example : ancestorsFromLevel 'r' (lv [(3, 'a'), (4, 'b'), (5, 'c'), (4, 'd')]) =
    ⟨[(['r'], 'a'), (['r', 'a'], 'b'), (['r', 'a', 'b'], 'c'), (['r', 'a'], 'd')], none⟩ := by
  decide +kernel

/-! ### C11 -/

/-- C11: behind a start event, `iter_subevents` yields the events of the
element's content and its end event, nothing more. -/
theorem C11_iter_subevents (a : α) (content rest : List (Ev α)) (h : WellNested content) :
    iterSubevents 0 (content ++ .stop a :: rest) = (content ++ [.stop a], rest) := by
  obtain ⟨f, rfl⟩ := (wellNested_iff_forest content).1 h
  rw [iterSubevents_forest]
  simp [iterSubevents]

example : WellNested ([.start 1, .start 2, .stop 2, .stop 1] : List (Ev Nat)) := by decide

/-- C11: consecutive elements are skipped one at a time. -/
theorem C11_skip_then_next (a : α) (content rest : List (Ev α)) (h : WellNested content) :
    (iterSubevents 0 (content ++ .stop a :: rest)).2 = rest := by
  rw [C11_iter_subevents a content rest h]

end Hwp.Props
