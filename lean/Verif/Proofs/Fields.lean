import Verif.Spec.Fields
import Verif.Proofs.Events
namespace Hwp
open Spec
set_option linter.unusedSimpArgs false

theorem Gen.prepend_nil {α} (g : Gen α) : Gen.prepend [] g = g := by
  cases g; rfl

theorem Gen.prepend_prepend {α} (a b : List α) (g : Gen α) :
    Gen.prepend a (Gen.prepend b g) = Gen.prepend (a ++ b) g := by
  simp [Gen.prepend]

theorem Gen.cons_eq_prepend {α} (a : α) (g : Gen α) : Gen.cons a g = Gen.prepend [a] g := by
  simp [Gen.prepend, Gen.cons]

theorem nested_stops (S : List Item) (st : List Item) (es : List IEv) :
    Nested (S ++ st) (S.map .stop ++ es) ↔ Nested st es := by
  induction S with
  | nil => rfl
  | cons a S ih => simpa [Nested] using ih

theorem nested_starts (S : List Item) (st : List Item) (es : List IEv) :
    Nested st (S.reverse.map .start ++ es) ↔ Nested (S ++ st) es := by
  induction S generalizing es with
  | nil => rfl
  | cons a S ih =>
    simp only [List.reverse_cons, List.map_append, List.map_cons, List.map_nil, List.append_assoc]
    rw [ih]
    simp [Nested]

theorem Item.field_ne {a : Item} (h : a.isField) : a.isLineSeg = false ∧ a.isFieldEnd = false := by
  cases a <;> simp_all [Item.isField, Item.isLineSeg, Item.isFieldEnd]

theorem Item.lineSeg_ne {a : Item} (h : a.isLineSeg) : a.isField = false ∧ a.isFieldEnd = false := by
  cases a <;> simp_all [Item.isField, Item.isLineSeg, Item.isFieldEnd]

theorem Item.fieldEnd_ne {a : Item} (h : a.isFieldEnd) : a.isField = false ∧ a.isLineSeg = false := by
  cases a <;> simp_all [Item.isField, Item.isLineSeg, Item.isFieldEnd]

theorem matchFields_forest (err : Option PyErr) (f : Forest Item) :
    ∀ (inLine : Bool) (S S' : List Item) (rest : List IEv), fieldRun inLine S f = some S' →
    ∃ out, matchFieldsGo err S (eventsOf f ++ rest) = .prepend out (matchFieldsGo err S' rest) ∧
      (if inLine then ∀ st es, Nested (S' ++ st) es → Nested (S ++ st) (out ++ es)
       else ∀ st es, Nested st es → Nested st (out ++ es)) := by
  induction f with
  | nil =>
    intro inLine S S' rest h
    simp only [fieldRun, Option.some.injEq] at h
    subst h
    refine ⟨[], by simp [eventsOf, Gen.prepend_nil], ?_⟩
    cases inLine <;> simp
  | node a cs sibs ih1 ih2 =>
    intro inLine S S' rest h
    rw [fieldRun] at h
    split at h
    · -- a field
      rename_i hf
      split at h
      · rename_i hc
        obtain ⟨hl, hcs⟩ := hc
        obtain ⟨o1, e1, n1⟩ := ih1 false (a :: S) (a :: S) (.stop a :: (eventsOf sibs ++ rest)) hcs
        obtain ⟨o2, e2, n2⟩ := ih2 inLine (a :: S) S' rest h
        simp only [hl, if_true] at n2
        simp only [Bool.false_eq_true, if_false] at n1
        refine ⟨.start a :: (o1 ++ o2), ?_, ?_⟩
        · simp only [eventsOf, List.cons_append, List.append_assoc, matchFieldsGo, hf, if_true]
          rw [e1]
          simp only [matchFieldsGo, hf, if_true]
          rw [e2, Gen.prepend_prepend, Gen.cons_eq_prepend, Gen.prepend_prepend]
          rfl
        · simp only [hl, if_true]
          intro st es hn
          simp only [List.cons_append, List.append_assoc, Nested]
          apply n1
          exact n2 st es hn
      · simp at h
    · rename_i hf
      split at h
      · -- a field end
        rename_i hfe
        split at h
        · rename_i hc
          obtain ⟨hl, hcs⟩ := hc
          subst hcs
          obtain ⟨o2, e2, n2⟩ := ih2 inLine S.tail S' rest h
          simp only [hl, if_true] at n2
          have hls := (Item.fieldEnd_ne hfe).2
          cases S with
          | nil =>
            refine ⟨o2, ?_, ?_⟩
            · simp only [eventsOf, List.cons_append, List.nil_append, matchFieldsGo, hf, hls, hfe, if_true,
                Bool.false_eq_true, if_false]
              exact e2
            · simpa [hl] using n2
          | cons g S =>
            refine ⟨.stop g :: o2, ?_, ?_⟩
            · simp only [eventsOf, List.cons_append, List.nil_append, matchFieldsGo, hf, hls, hfe, if_true,
                Bool.false_eq_true, if_false]
              simp only [List.tail_cons] at e2
              rw [e2, Gen.cons_eq_prepend, Gen.prepend_prepend]
              rfl
            · simp only [hl, if_true]
              intro st es hn
              simp only [List.cons_append, Nested, true_and]
              exact n2 st es hn
        · simp at h
      · rename_i hfe
        split at h
        · simp at h
        · rename_i S1 h1
          split at h
          · simp at h
          · rename_i hc
            obtain ⟨o2, e2, n2⟩ := ih2 inLine S1 S' rest h
            by_cases hls : a.isLineSeg
            · -- a line
              rw [hls] at h1
              obtain ⟨o1, e1, n1⟩ := ih1 true S S1 (.stop a :: (eventsOf sibs ++ rest)) h1
              simp only [if_true] at n1
              refine ⟨.start a :: (S.reverse.map .start ++ (o1 ++ (S1.map .stop ++ .stop a :: o2))), ?_, ?_⟩
              · simp only [eventsOf, List.cons_append, List.append_assoc, matchFieldsGo, hf, hls, if_true,
                  Bool.false_eq_true, if_false]
                rw [e1]
                simp only [matchFieldsGo, hf, hls, if_true, Bool.false_eq_true, if_false]
                rw [e2]
                simp only [Gen.cons_eq_prepend, Gen.prepend_prepend]
                simp
              · have key : ∀ st es, Nested st (o2 ++ es) →
                    Nested st (.start a :: (S.reverse.map .start ++ (o1 ++ (S1.map .stop ++ .stop a :: o2))) ++ es) := by
                  intro st es hn
                  simp only [List.cons_append, List.append_assoc, Nested]
                  rw [nested_starts]
                  apply n1
                  rw [nested_stops]
                  simpa [Nested] using hn
                cases inLine with
                | false =>
                  simp only [Bool.false_eq_true, if_false] at n2 ⊢
                  intro st es hn
                  exact key _ _ (n2 st es hn)
                | true =>
                  simp only [if_true, true_and, Classical.not_not, ne_eq] at n2 hc ⊢
                  subst hc
                  intro st es hn
                  exact key _ _ (n2 st es hn)
            · -- another element
              simp only [Bool.not_eq_true] at hls
              rw [hls] at h1
              obtain ⟨o1, e1, n1⟩ := ih1 false S S1 (.stop a :: (eventsOf sibs ++ rest)) h1
              simp only [Bool.false_eq_true, if_false] at n1
              refine ⟨.start a :: (o1 ++ .stop a :: o2), ?_, ?_⟩
              · simp only [eventsOf, List.cons_append, List.append_assoc, matchFieldsGo, hf, hls, hfe, if_true,
                  Bool.false_eq_true, if_false]
                rw [e1]
                simp only [matchFieldsGo, hf, hls, hfe, if_true, Bool.false_eq_true, if_false]
                rw [e2]
                simp only [Gen.cons_eq_prepend, Gen.prepend_prepend]
                simp
              · have key : ∀ st es, Nested st (o2 ++ es) →
                    Nested st (.start a :: (o1 ++ .stop a :: o2) ++ es) := by
                  intro st es hn
                  simp only [List.cons_append, List.append_assoc, Nested]
                  apply n1
                  simpa [Nested] using hn
                cases inLine with
                | false =>
                  simp only [Bool.false_eq_true, if_false] at n2 ⊢
                  intro st es hn
                  exact key _ _ (n2 st es hn)
                | true =>
                  simp only [if_true, true_and, Classical.not_not, ne_eq] at n2 hc ⊢
                  subst hc
                  intro st es hn
                  exact key _ _ (n2 st es hn)

theorem matchFieldsGo_filter (err : Option PyErr) (es : List IEv) : ∀ S : List Item,
    (∀ a ∈ S, a.isField) →
    (matchFieldsGo err S es).out.filter notField = es.filter notField := by
  induction es with
  | nil => intro S _; rfl
  | cons e es ih =>
    intro S hS
    have hz1 : (S.map (Ev.stop (α := Item))).filter notField = [] := by
      simp only [List.filter_eq_nil_iff, List.mem_map]
      rintro _ ⟨a, ha, rfl⟩
      simp [notField, Ev.item, hS a ha]
    have hz2 : (S.reverse.map (Ev.start (α := Item))).filter notField = [] := by
      simp only [List.filter_eq_nil_iff, List.mem_map, List.mem_reverse]
      rintro _ ⟨a, ha, rfl⟩
      simp [notField, Ev.item, hS a ha]
    cases e with
    | start a =>
      simp only [matchFieldsGo]
      split
      · rename_i hf
        have : ∀ b ∈ a :: S, b.isField := by simpa using ⟨hf, hS⟩
        simp [Gen.cons, ih _ this, notField, Ev.item, hf]
      · split
        · rename_i hf hl
          have := Item.lineSeg_ne hl
          simp only [Gen.cons, Gen.prepend, List.filter_cons, List.filter_append, hz2, ih _ hS]
          simp
        · split
          · rename_i hfe
            simp [ih _ hS, notField, Ev.item, hfe]
          · rename_i hf _ hfe
            simp [Gen.cons, ih _ hS, notField, Ev.item, hfe, hf]
    | stop a =>
      simp only [matchFieldsGo]
      split
      · rename_i hf
        simp [ih _ hS, notField, Ev.item, hf]
      · split
        · rename_i hf hl
          have := Item.lineSeg_ne hl
          simp only [Gen.cons, Gen.prepend, List.filter_cons, List.filter_append, hz1, ih _ hS]
          simp
        · split
          · rename_i hfe
            split
            · rename_i g st
              have h' : ∀ b ∈ st, b.isField := fun b hb => hS b (by simp [hb])
              have hg := hS g (by simp)
              simp [Gen.cons, ih _ h', notField, Ev.item, hfe, hg]
            · simp [ih [] (by simp), notField, Ev.item, hfe]
          · rename_i hf _ hfe
            simp [Gen.cons, ih _ hS, notField, Ev.item, hfe, hf]

theorem matchFieldsGo_err (err : Option PyErr) (es : List IEv) : ∀ S : List Item,
    (matchFieldsGo err S es).err = err := by
  induction es with
  | nil => intro S; rfl
  | cons e es ih =>
    intro S
    cases e <;> simp only [matchFieldsGo] <;> repeat' split
    all_goals simp [Gen.cons, Gen.prepend, ih]

end Hwp
