import Verif.Spec.FieldTree
import Verif.Proofs.Fields
namespace Hwp
open Spec
set_option linter.unusedSimpArgs false

/-- The events of tokens. -/
def tokEvents : List FieldTok → List IEv
  | [] => []
  | .node a cs :: ts => .start a :: (eventsOf cs ++ .stop a :: tokEvents ts)
  | .opn a cs :: ts => .start a :: (eventsOf cs ++ tokEvents ts)
  | .cls a :: ts => .stop a :: tokEvents ts

/-- `Bal S ts S'`: reading the tokens with the fields `S` open leaves `S'` open. -/
def Bal : List Item → List FieldTok → List Item → Prop
  | S, [], S' => S = S'
  | S, .node _ _ :: ts, S' => Bal S ts S'
  | S, .opn a _ :: ts, S' => Bal (a :: S) ts S'
  | S, .cls a :: ts, S' => ∃ S0, S = a :: S0 ∧ Bal S0 ts S'

/-- Only elements. -/
def AllNodes : List FieldTok → Prop
  | [] => True
  | .node _ _ :: ts => AllNodes ts
  | _ :: _ => False

theorem Bal.append {S S' S'' : List Item} {ts us : List FieldTok} (h1 : Bal S ts S') (h2 : Bal S' us S'') :
    Bal S (ts ++ us) S'' := by
  induction ts generalizing S with
  | nil => cases h1; exact h2
  | cons t ts ih =>
    cases t with
    | node a cs => exact ih h1
    | opn a cs => exact ih h1
    | cls a => obtain ⟨S0, rfl, h⟩ := h1; exact ⟨S0, rfl, ih h⟩

theorem AllNodes.bal {ts : List FieldTok} (h : AllNodes ts) (S : List Item) : Bal S ts S := by
  induction ts with
  | nil => rfl
  | cons t ts ih =>
    cases t with
    | node a cs => exact ih h
    | opn a cs => cases h
    | cls a => cases h

theorem bal_opens (S : List Item) (S0 : List Item) : Bal S0 (S.reverse.map (.opn · .nil)) (S ++ S0) := by
  induction S generalizing S0 with
  | nil => rfl
  | cons a S ih =>
    simp only [List.reverse_cons, List.map_append]
    exact (ih S0).append rfl

theorem bal_closes (S : List Item) : Bal S (S.map .cls) [] := by
  induction S with
  | nil => rfl
  | cons a S ih => exact ⟨S, rfl, ih⟩

theorem tokEvents_append (ts us : List FieldTok) : tokEvents (ts ++ us) = tokEvents ts ++ tokEvents us := by
  induction ts with
  | nil => rfl
  | cons t ts ih => cases t <;> simp [tokEvents, ih]

theorem tokEvents_opens (S : List Item) : tokEvents (S.map (.opn · .nil)) = S.map .start := by
  induction S with
  | nil => rfl
  | cons a S ih => simp [tokEvents, eventsOf, ih]

theorem tokEvents_closes (S : List Item) : tokEvents (S.map .cls) = S.map .stop := by
  induction S with
  | nil => rfl
  | cons a S ih => simp [tokEvents, eventsOf, ih]

/-- Forests with the ends of the fields `S` between them. -/
def spread : List Item → List (Forest Item) → List IEv
  | [], t :: _ => eventsOf t
  | a :: S, t :: st => eventsOf t ++ .stop a :: spread S st
  | _, [] => []

theorem nest_events (ts : List FieldTok) : ∀ S, Bal S ts [] →
    (nest ts).length = S.length + 1 ∧ tokEvents ts = spread S (nest ts) := by
  induction ts with
  | nil =>
    intro S h
    cases h
    exact ⟨rfl, rfl⟩
  | cons t ts ih =>
    intro S h
    cases t with
    | node a cs =>
      obtain ⟨h1, h2⟩ := ih S h
      cases hn : nest ts with
      | nil => simp [hn] at h1
      | cons t st =>
        rw [hn] at h1 h2
        simp only [nest, hn]
        refine ⟨by simpa using h1, ?_⟩
        simp only [tokEvents, h2]
        cases S <;> simp [spread, eventsOf]
    | opn a cs =>
      obtain ⟨h1, h2⟩ := ih (a :: S) h
      cases hn : nest ts with
      | nil => simp [hn] at h1
      | cons t st =>
        cases st with
        | nil => simp [hn] at h1
        | cons u st =>
          rw [hn] at h1 h2
          simp only [nest, hn]
          refine ⟨by simpa using h1, ?_⟩
          simp only [tokEvents, h2]
          cases S <;> simp [spread, eventsOf, eventsOf_append]
    | cls a =>
      obtain ⟨S0, rfl, h⟩ := h
      obtain ⟨h1, h2⟩ := ih S0 h
      exact ⟨by simpa [nest] using h1, by simp [nest, tokEvents, spread, eventsOf, h2]⟩

theorem nested_events (ts : List FieldTok) (h : Bal [] ts []) : eventsOf (nested ts) = tokEvents ts := by
  obtain ⟨h1, h2⟩ := nest_events ts [] h
  cases hn : nest ts with
  | nil => simp [hn] at h1
  | cons t st => rw [h2]; simp [nested, hn, spread]

theorem matchFields_tree (err : Option PyErr) (f : Forest Item) :
    ∀ (inLine : Bool) (S S' : List Item) (rest : List IEv), fieldRun inLine S f = some S' →
    (fieldToks S f).2 = S' ∧
    matchFieldsGo err S (eventsOf f ++ rest) = .prepend (tokEvents (fieldToks S f).1) (matchFieldsGo err S' rest) ∧
      (if inLine then Bal S (fieldToks S f).1 S' else AllNodes (fieldToks S f).1) := by
  induction f with
  | nil =>
    intro inLine S S' rest h
    simp only [fieldRun, Option.some.injEq] at h
    subst h
    refine ⟨rfl, by simp [eventsOf, fieldToks, tokEvents, Gen.prepend_nil], ?_⟩
    cases inLine <;> simp [fieldToks, Bal, AllNodes]
  | node a cs sibs ih1 ih2 =>
    intro inLine S S' rest h
    simp only [fieldRun] at h
    by_cases hf : a.isField
    · simp only [hf, if_true] at h
      split at h
      · rename_i hc
        obtain ⟨hin, hc⟩ := hc
        obtain ⟨c1, c2, c3⟩ := ih1 false (a :: S) (a :: S) (.stop a :: (eventsOf sibs ++ rest)) hc
        obtain ⟨s1, s2, s3⟩ := ih2 inLine (a :: S) S' rest h
        simp only [Bool.false_eq_true, if_false] at c3
        simp only [hin, if_true] at s3 ⊢
        simp only [fieldToks, hf, if_true]
        refine ⟨s1, ?_, s3⟩
        simp only [eventsOf, List.cons_append, List.append_assoc, matchFieldsGo, hf, if_true]
        rw [c2]
        simp only [matchFieldsGo, hf, if_true]
        rw [s2, tokEvents, nested_events _ (c3.bal [])]
        simp [Gen.cons_eq_prepend, Gen.prepend_prepend]
      · cases h
    · simp only [hf, if_false, Bool.false_eq_true] at h
      by_cases he : a.isFieldEnd
      · simp only [he, if_true] at h
        split at h
        · rename_i hc
          obtain ⟨hin, rfl⟩ := hc
          obtain ⟨s1, s2, s3⟩ := ih2 inLine S.tail S' rest h
          simp only [hin, if_true] at s3 ⊢
          have hl := (Item.fieldEnd_ne he).2
          simp only [eventsOf, List.nil_append, List.cons_append, matchFieldsGo, hf, he, hl, if_true, if_false, Bool.false_eq_true]
          cases S with
          | nil =>
            simp only [fieldToks, hf, he, if_true, if_false, Bool.false_eq_true]
            exact ⟨s1, s2, s3⟩
          | cons g S =>
            simp only [fieldToks, hf, he, if_true, if_false, Bool.false_eq_true]
            refine ⟨s1, ?_, S, rfl, s3⟩
            simp only [List.tail_cons] at s2
            rw [s2]
            simp [tokEvents, Gen.cons_eq_prepend, Gen.prepend_prepend]
        · cases h
      · simp only [he, if_false, Bool.false_eq_true] at h
        cases hr : fieldRun a.isLineSeg S cs with
        | none => simp [hr] at h
        | some S1 =>
          simp only [hr] at h
          split at h
          · cases h
          · rename_i hc
            obtain ⟨c1, c2, c3⟩ := ih1 a.isLineSeg S S1 (.stop a :: (eventsOf sibs ++ rest)) hr
            obtain ⟨s1, s2, s3⟩ := ih2 inLine S1 S' rest h
            have hbal : (if inLine then Bal S (fieldToks S1 sibs).1 S' else AllNodes (fieldToks S1 sibs).1) := by
              by_cases hin : inLine
              · simp only [hin, if_true] at s3 ⊢
                have : S1 = S := by
                  simp only [hin, true_and, ne_eq, Decidable.not_not] at hc
                  exact hc
                subst this
                exact s3
              · simp only [hin, if_false, Bool.false_eq_true] at s3 ⊢
                exact s3
            simp only [fieldToks, hf, he, if_false, Bool.false_eq_true, c1]
            by_cases hl : a.isLineSeg
            · simp only [hl, if_true] at c3 ⊢
              refine ⟨s1, ?_, by cases inLine <;> simpa [Bal, AllNodes] using hbal⟩
              simp only [eventsOf, List.cons_append, List.append_assoc, matchFieldsGo, hf, hl, he, if_true, if_false, Bool.false_eq_true]
              rw [c2]
              simp only [matchFieldsGo, hf, hl, he, if_true, if_false, Bool.false_eq_true]
              rw [s2, tokEvents, nested_events]
              · simp [tokEvents_append, tokEvents_closes, Gen.cons_eq_prepend, Gen.prepend_prepend, ← List.map_reverse]
                rw [← tokEvents_opens]
              · have := ((bal_opens S []).append (by simpa using c3)).append (bal_closes S1)
                rwa [List.append_assoc] at this
            · simp only [hl, if_false, Bool.false_eq_true] at c3 ⊢
              refine ⟨s1, ?_, by cases inLine <;> simpa [Bal, AllNodes] using hbal⟩
              simp only [eventsOf, List.cons_append, List.append_assoc, matchFieldsGo, hf, hl, he, if_true, if_false, Bool.false_eq_true]
              rw [c2]
              simp only [matchFieldsGo, hf, hl, he, if_true, if_false, Bool.false_eq_true]
              rw [s2, tokEvents, nested_events _ (c3.bal [])]
              simp [Gen.cons_eq_prepend, Gen.prepend_prepend]

theorem matchFields_fielded (f : Forest Item) (h : FieldsPaired f) :
    matchFields (.ofList (eventsOf f)) = .ofList (eventsOf (fielded f)) := by
  obtain ⟨S', hS⟩ := Option.isSome_iff_exists.1 h
  obtain ⟨-, h2, h3⟩ := matchFields_tree none f false [] S' [] hS
  simp only [Bool.false_eq_true, if_false] at h3
  simp only [matchFields, Gen.ofList]
  rw [List.append_nil] at h2
  rw [h2, fielded, nested_events _ (h3.bal [])]
  simp [matchFieldsGo, Gen.prepend]

end Hwp
