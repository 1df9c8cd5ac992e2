/-
Where the text of a section definition is in the text of the records.
-/
import Verif.Proofs.PlainOrder
set_option linter.unusedSimpArgs false
set_option linter.unusedVariables false
set_option autoImplicit false
namespace Hwp
open Spec

/-- The string has its argument at one place, or not at all. -/
def AtPlace (g : PyStr → PyStr) : Prop := (∃ p q, ∀ X, g X = p ++ X ++ q) ∨ ∃ c, ∀ X, g X = c

theorem atPlace_const (c : PyStr) : AtPlace fun _ => c := .inr ⟨c, fun _ => rfl⟩

theorem atPlace_wrap {g : PyStr → PyStr} (h : AtPlace g) (a b : PyStr) : AtPlace fun X => a ++ g X ++ b := by
  rcases h with ⟨p, q, h⟩ | ⟨c, h⟩
  · exact .inl ⟨a ++ p, q ++ b, fun X => by simp [h]⟩
  · exact .inr ⟨a ++ c ++ b, fun X => by simp [h]⟩

theorem placed_place {g : PyStr → PyStr} (h : AtPlace g) (r : List PyStr) (cs : List Chunk) : ∀ l, AtPlace fun X => placed (l ++ g X :: r) cs := by
  induction cs with
  | nil => intro l; exact atPlace_const []
  | cons c cs ih =>
    intro l
    obtain ⟨s, t, v⟩ := c
    cases v with
    | text s => simpa [placed] using atPlace_wrap (ih l) s []
    | ctrl d =>
      simp only [placed]
      by_cases hk : kindOf d.code = some .extended
      · simp only [hk, if_true]
        cases l with
        | nil => simpa using atPlace_wrap h [] (placed r cs)
        | cons x l => simpa using atPlace_wrap (ih l) x []
      · simp only [hk, if_false]
        exact ih l

theorem roots_noDef (t : Nat) (X : PyStr) (f : Forest Item) (h : defCount t f = 0) : rootTexts (insteadOf t X) f = rootTexts allDefs f := by
  induction f with
  | nil => rfl
  | node a cs sibs ih1 ih2 =>
    simp only [defCount, Nat.add_eq_zero_iff] at h
    simp only [rootTexts, ih1 h.1.2, ih2 h.2]
    congr 2
    have : standIn (insteadOf t X) a = standIn allDefs a := by
      cases a <;> simp_all [standIn, insteadOf, allDefs]
    simp only [nodeText, this]

theorem roots_place (t : Nat) (f : Forest Item) (h : defCount t f = 1) :
    ∃ l a g r, (∀ X, rootTexts (insteadOf t X) f = l ++ (a, g X) :: r) ∧ AtPlace g := by
  induction f with
  | nil => simp [defCount] at h
  | node a cs sibs ih1 ih2 =>
    by_cases hd : ∃ i, a = .sectionDef i t
    · obtain ⟨i, rfl⟩ := hd
      simp only [defCount, if_true] at h
      refine ⟨[], .sectionDef i t, fun X => X, rootTexts allDefs sibs, fun X => ?_, .inl ⟨[], [], fun X => by simp⟩⟩
      simp [rootTexts, roots_noDef t X sibs (by omega), nodeText, standIn, insteadOf]
    · have hst : ∀ X, standIn (insteadOf t X) a = standIn allDefs a := by
        intro X
        cases a <;> simp_all [standIn, insteadOf, allDefs]
      have hc : defCount t cs + defCount t sibs = 1 := by
        cases a <;> simp_all [defCount]
      by_cases h0 : defCount t cs = 0
      · obtain ⟨l, b, g, r, e, hg⟩ := ih2 (by omega)
        refine ⟨(a, nodeText allDefs a (rootTexts allDefs cs)) :: l, b, g, r, fun X => ?_, hg⟩
        simp [rootTexts, e, roots_noDef t X cs h0, nodeText, hst]
      · obtain ⟨l, b, g, r, e, hg⟩ := ih1 (by omega)
        refine ⟨[], a, fun X => nodeText (insteadOf t X) a (l ++ (b, g X) :: r), rootTexts allDefs sibs, fun X => ?_, ?_⟩
        · simp [rootTexts, e, roots_noDef t X sibs (by omega)]
        · simp only [nodeText, hst]
          cases hs : standIn allDefs a with
          | some s => exact atPlace_const s
          | none =>
            dsimp only
            by_cases hp : a.isParagraph
            · simp only [hp, if_true]
              by_cases hb : b.isControl
              · have := atPlace_wrap (placed_place hg ((r.filter fun k => k.1.isControl).map (·.2))
                  (paraChunks (l.map (·.1) ++ b :: r.map (·.1))) ((l.filter fun k => k.1.isControl).map (·.2)))
                  (((l ++ r).filter fun k => !k.1.isControl).map (·.2)).flatten [10]
                simpa [List.filter_append, List.filter_cons, hb] using this
              · have := atPlace_wrap hg ((l.filter fun k => !k.1.isControl).map (·.2)).flatten
                  (((r.filter fun k => !k.1.isControl).map (·.2)).flatten ++
                    placed (((l ++ r).filter fun k => k.1.isControl).map (·.2)) (paraChunks (l.map (·.1) ++ b :: r.map (·.1))) ++ [10])
                simpa [List.filter_append, List.filter_cons, hb] using this
            · simp only [hp, Bool.false_eq_true, if_false]
              have := atPlace_wrap hg (l.map (·.2)).flatten (r.map (·.2)).flatten
              simpa using this

theorem text_place (t : Nat) (f : Forest Item) (h : defCount t f = 1) : AtPlace fun X => recordText (insteadOf t X) f := by
  obtain ⟨l, a, g, r, e, hg⟩ := roots_place t f h
  simp only [recordText, e]
  have := atPlace_wrap hg (l.map (·.2)).flatten (r.map (·.2)).flatten
  simpa using this

end Hwp
