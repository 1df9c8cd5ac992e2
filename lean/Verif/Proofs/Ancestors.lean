/- Helper lemmas: ancestors computed from levels are the enclosing items. -/
import Verif.Proofs.Events
import Verif.Spec.Grouping
set_option linter.unusedSimpArgs false
namespace Hwp
open Spec
variable {α : Type}

theorem enclosing_eq_none {levels : List Nat} {i l : Nat} (hi : levels[i]? = some l)
    (h : ∀ j m, j < i → levels[j]? = some m → l ≤ m) : enclosing levels i = none := by
  simp only [enclosing, hi, List.getLast?_eq_none_iff, List.filter_eq_nil_iff, List.mem_range]
  intro j hj
  cases hm : levels[j]? with
  | none => simp
  | some m => simp; exact h j m hj hm

theorem enclosing_eq_some {levels : List Nat} {i j l m : Nat} (hi : levels[i]? = some l)
    (hj : levels[j]? = some m) (hlt : j < i) (hml : m < l)
    (h : ∀ j' m', j < j' → j' < i → levels[j']? = some m' → l ≤ m') : enclosing levels i = some j := by
  simp only [enclosing, hi]
  have e : List.range i = List.range j ++ j :: (List.range' (j+1) (i - (j+1))) := by
    rw [List.range_eq_range', List.range_eq_range']
    have h1 : i = j + (1 + (i - (j+1))) := by omega
    conv => lhs; rw [h1]
    rw [← List.range'_append_1, ← List.range'_append_1]
    simp
  rw [e, List.filter_append, List.filter_cons_of_pos (by simp [hj, hml])]
  have e2 : (List.range' (j+1) (i - (j+1))).filter (fun j => levels[j]?.any (· < l)) = [] := by
    rw [List.filter_eq_nil_iff]
    intro j' hj'
    rw [List.mem_range'_1] at hj'
    cases hm : levels[j']? with
    | none => simp
    | some m' => simp; exact h j' m' (by omega) (by omega) hm
  rw [e2]
  simp

/-- Invariant of the stack before item `i` is processed. -/
def StackOk (root : α) (items : List (Nat × α)) (b i : Nat) : List α → Prop
  | [] => True
  | a :: st => StackOk root items b i st ∧ ∃ j, j < i ∧ items[j]? = some (b + st.length, a) ∧
      (∀ j' l x, j < j' → j' < i → items[j']? = some (l, x) → b + st.length < l) ∧
      IsAncestors root items j ((st ++ [root]).reverse)

theorem StackOk.drop {root : α} {items : List (Nat × α)} {b i : Nat} {st : List α} (n : Nat)
    (h : StackOk root items b i st) : StackOk root items b i (st.drop n) := by
  induction n generalizing st with
  | zero => simpa
  | succ n ih =>
    cases st with
    | nil => simp [StackOk]
    | cons a st => exact ih h.1

theorem StackOk.mono {root : α} {items : List (Nat × α)} {b i l : Nat} {x : α} {st : List α}
    (h : StackOk root items b i st) (hi : items[i]? = some (l, x)) (hl : b + st.length ≤ l) :
    StackOk root items b (i + 1) st := by
  induction st with
  | nil => trivial
  | cons a st ih =>
    obtain ⟨h1, j, hj, h2, h3, h4⟩ := h
    simp only [List.length_cons] at hl
    refine ⟨ih h1 (by omega), j, by omega, h2, ?_, h4⟩
    intro j' l' x' hj' hlt hx
    by_cases he : j' = i
    · subst he
      rw [hi] at hx
      injection hx with hx; injection hx with hx1 hx2
      omega
    · exact h3 j' l' x' hj' (by omega) hx

theorem StackOk.isAncestors {root : α} {items : List (Nat × α)} {b i l : Nat} {x : α} {st : List α}
    (h : StackOk root items b i st) (hi : items[i]? = some (l, x)) (hl : l = b + st.length)
    (hb : ∀ p ∈ items, b ≤ p.1) :
    IsAncestors root items i ((st ++ [root]).reverse) := by
  have hi' : (items.map (·.1))[i]? = some l := by simp [hi]
  cases st with
  | nil =>
    simp only [List.nil_append, List.reverse_cons, List.reverse_nil]
    apply IsAncestors.atTop
    apply enclosing_eq_none hi'
    intro j m _ hm
    rw [List.getElem?_map] at hm
    cases hx : items[j]? with
    | none => simp [hx] at hm
    | some p =>
      simp [hx] at hm
      have := hb p (List.mem_of_getElem? hx)
      simp at hl; omega
  | cons a st =>
    obtain ⟨h1, j, hj, h2, h3, h4⟩ := h
    simp only [List.length_cons] at hl
    have e : ((a :: st) ++ [root]).reverse = (st ++ [root]).reverse ++ [a] := by simp
    rw [e]
    refine IsAncestors.inside i j (b + st.length) a _ ?_ h2 h4
    apply enclosing_eq_some hi' (m := b + st.length) (by simp [h2]) hj (by omega)
    intro j' m' hj' hlt hm
    rw [List.getElem?_map] at hm
    cases hx : items[j']? with
    | none => simp [hx] at hm
    | some p =>
      obtain ⟨l', x'⟩ := p
      simp [hx] at hm
      have := h3 j' l' x' hj' hlt hx
      omega

theorem ancestorsFromLevelGo_step (root : α) (b : Nat) (st : List α) (l : Nat) (a : α)
    (rest : List (Int × α)) (hb : b ≤ l) (hl : l - b ≤ st.length) :
    ancestorsFromLevelGo (some (b : Int)) (st ++ [root]) (((l : Int), a) :: rest) =
      .cons ((st.drop (st.length - (l - b)) ++ [root]).reverse, a)
          (ancestorsFromLevelGo (some (b : Int)) ((a :: st.drop (st.length - (l - b))) ++ [root]) rest) := by
  have hrel : (l : Int) - (b : Int) = ((l - b : Nat) : Int) := by omega
  conv => lhs; unfold ancestorsFromLevelGo
  simp only [relLevel, hrel]
  rw [popTo_spec root st (l - b) hl]
  simp only [List.length_append, List.length_drop, List.length_cons, List.length_nil]
  rw [if_neg (by omega), if_pos (by omega)]
  rfl

theorem ancestors_valid (root : α) (b : Nat) (all : List (Nat × α)) (hball : ∀ p ∈ all, b ≤ p.1)
    (rest : List (Nat × α)) : ∀ (pre : List (Nat × α)) (st : List α),
    all = pre ++ rest → StackOk root all b pre.length st →
    (match rest with
      | [] => True
      | (l, _) :: rest => l ≤ b + st.length ∧ StepsOk l rest) →
    (ancestorsFromLevelGo (some (b : Int)) (st ++ [root]) (lv rest)).err = none ∧
    (ancestorsFromLevelGo (some (b : Int)) (st ++ [root]) (lv rest)).out.map (·.2) = rest.map (·.2) ∧
    ∀ k anc a, (ancestorsFromLevelGo (some (b : Int)) (st ++ [root]) (lv rest)).out[k]? = some (anc, a) →
      IsAncestors root all (pre.length + k) anc := by
  induction rest with
  | nil =>
    intro pre st _ _ _
    simp [lv, ancestorsFromLevelGo, Gen.done]
  | cons p rest ih =>
    obtain ⟨l, x⟩ := p
    intro pre st hall hst hs
    simp only at hs
    have hcur : all[pre.length]? = some (l, x) := by rw [hall]; simp
    have hbl : b ≤ l := hball (l, x) (List.mem_of_getElem? hcur)
    have hl : l - b ≤ st.length := by omega
    have he : lv ((l, x) :: rest) = ((l : Int), x) :: lv rest := rfl
    rw [he, ancestorsFromLevelGo_step root b st l x _ hbl hl]
    have hdl : (st.drop (st.length - (l - b))).length = l - b := by simp; omega
    have hdrop := hst.drop (st.length - (l - b))
    have hanc := hdrop.isAncestors hcur (by omega) hball
    have hpush : StackOk root all b (pre ++ [(l, x)]).length (x :: st.drop (st.length - (l - b))) := by
      simp only [List.length_append, List.length_cons, List.length_nil, Nat.zero_add]
      refine ⟨hdrop.mono hcur (by omega), pre.length, by omega, ?_, ?_, hanc⟩
      · rw [hcur, hdl]; congr 2; omega
      · intro j' l' x' h1 h2; omega
    obtain ⟨e1, e2, e3⟩ := ih (pre ++ [(l, x)]) (x :: st.drop (st.length - (l - b))) (by simp [hall])
      hpush (by
        cases rest with
        | nil => trivial
        | cons q rest =>
          obtain ⟨l', a'⟩ := q
          simp only [List.length_cons, hdl]
          obtain ⟨_, h1, h2⟩ := hs
          exact ⟨by omega, h2⟩)
    refine ⟨e1, ?_, ?_⟩
    · simp only [Gen.cons, List.map_cons, e2]
    · intro k anc a hk
      cases k with
      | zero =>
        simp only [Gen.cons, List.getElem?_cons_zero, Option.some.injEq, Prod.mk.injEq] at hk
        rw [← hk.1]; exact hanc
      | succ k =>
        simp only [Gen.cons, List.getElem?_cons_succ] at hk
        have := e3 k anc a hk
        simp only [List.length_append, List.length_cons, List.length_nil] at this
        have e : pre.length + (k + 1) = pre.length + (0 + 1) + k := by omega
        rw [e]; exact this

theorem ancestorsFromLevel_cons (root : α) (l : Nat) (a : α) (rest : List (Nat × α)) :
    ancestorsFromLevel root (lv ((l, a) :: rest)) =
      ancestorsFromLevelGo (some (l : Int)) ([] ++ [root]) (lv ((l, a) :: rest)) := by
  simp only [ancestorsFromLevel, lv, List.map_cons, ancestorsFromLevelGo, relLevel, List.nil_append,
    Int.sub_self]
  rfl

end Hwp
