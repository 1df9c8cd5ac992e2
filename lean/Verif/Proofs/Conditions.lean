/- The conditions and references of the declarations. -/
import Verif.Spec.Conditions
import Verif.Proofs.Layout
import Verif.Proofs.XmlText
set_option linter.unusedSimpArgs false
set_option linter.unusedVariables false
namespace Hwp
open Spec

/-- A bit group looked up by the code is the one of the declaration. -/
theorem group_iff (fs : Fields) (name bit : String) (k : Nat) :
    (getValue fs name >>= fun v => getBit v bit) = .ok k ↔ GroupIs fs name bit k := by
  unfold GroupIs getValue
  cases hv : fs.lookup name with
  | none => simp [bind, Except.bind]
  | some v =>
    simp only [bind, Except.bind]
    unfold getBit
    split
    · rename_i f n
      unfold FlagsDecl.get
      cases hb : f.bits.find? (fun b => b.name = bit) with
      | none =>
        simp only [reduceCtorEq, false_iff]
        rintro ⟨f', n', b, h1, h2, h3⟩
        simp only [Option.some.injEq, Value.leaf.injEq, PVal.flags.injEq] at h1
        obtain ⟨rfl, rfl⟩ := h1
        rw [hb] at h2
        simp at h2
      | some b =>
        simp only [Except.ok.injEq, bitGroup_eq, ← bitsNumber_eq]
        constructor
        · rintro rfl
          exact ⟨f, n, b, rfl, hb, rfl⟩
        · rintro ⟨f', n', b', h1, h2, rfl⟩
          simp only [Option.some.injEq, Value.leaf.injEq, PVal.flags.injEq] at h1
          obtain ⟨rfl, rfl⟩ := h1
          rw [hb] at h2
          simp only [Option.some.injEq] at h2
          rw [h2]
    · rename_i h
      simp only [reduceCtorEq, false_iff]
      rintro ⟨f', n', b, h1, h2, h3⟩
      simp only [Option.some.injEq] at h1
      exact h _ _ h1

theorem group_unique {fs : Fields} {name bit : String} {k k' : Nat} (h : GroupIs fs name bit k)
    (h' : GroupIs fs name bit k') : k = k' := by
  have h1 := (group_iff fs name bit k).2 h
  have h2 := (group_iff fs name bit k').2 h'
  rw [h1] at h2
  simpa using h2

/-- A test of a bit group. -/
theorem group_test (fs : Fields) (name bit : String) (p : Nat → Bool) (b : Bool) :
    (getValue fs name >>= fun v => getBit v bit >>= fun k => pure (p k)) = .ok b ↔
      ∃ k, GroupIs fs name bit k ∧ p k = b := by
  have := group_iff fs name bit
  rw [← bind_assoc]
  cases h : (getValue fs name >>= fun v => getBit v bit) with
  | error e =>
    simp only [bind, Except.bind, reduceCtorEq, false_iff]
    rintro ⟨k, hk, -⟩
    have := (this k).2 hk
    rw [h] at this
    simp at this
  | ok k =>
    have hk := (this k).1 h
    simp only [bind, Except.bind, pure, Except.pure, Except.ok.injEq]
    constructor
    · intro hb
      exact ⟨k, hk, hb⟩
    · rintro ⟨k', hk', hb⟩
      rw [group_unique hk hk']
      exact hb

theorem chid_true (fs : Fields) (c : String) : chidEq fs c = .ok true ↔ ChidIs fs c := by
  unfold chidEq ChidIs getValue
  cases fs.lookup "chid" with
  | none => simp [bind, Except.bind]
  | some v =>
    simp only [bind, Except.bind]
    split
    · simp [pure, Except.pure]
    · rename_i h
      simp only [pure, Except.pure, Except.ok.injEq, Bool.false_eq_true, Option.some.injEq, false_iff]
      exact h _

theorem chid_false (fs : Fields) (c : String) :
    chidEq fs c = .ok false ↔ (∃ v, fs.lookup "chid" = some v) ∧ ¬ ChidIs fs c := by
  unfold chidEq ChidIs getValue
  cases fs.lookup "chid" with
  | none => simp [bind, Except.bind]
  | some v =>
    simp only [bind, Except.bind]
    split
    · simp [pure, Except.pure]
    · rename_i h
      simp only [pure, Except.pure, Option.some.injEq, exists_eq', true_and, true_iff]
      exact h _

theorem chidIs_some {fs : Fields} {c : String} (h : ChidIs fs c) : ∃ v, fs.lookup "chid" = some v := ⟨_, h⟩

theorem cond_true (ctx : DCtx) (fs : Fields) (c : CondDecl) : c.eval ctx fs = .ok true ↔ CondHolds ctx fs c := by
  cases c with
  | flag name bit =>
    refine (group_test fs name bit (· != 0) true).trans ?_
    simp [CondHolds, Nat.pos_iff_ne_zero]
  | notFlag name bit =>
    refine (group_test fs name bit (· == 0) true).trans ?_
    simp [CondHolds]
  | chidIs c => exact chid_true fs c
  | chidIsAndFlag c name bit =>
    simp only [CondDecl.eval, CondHolds, ← chid_true]
    cases h : chidEq fs c with
    | error e => simp [bind, Except.bind]
    | ok b =>
      cases b with
      | false => simp [bind, Except.bind, pure, Except.pure]
      | true =>
        refine Iff.trans ?_ ((group_test fs name bit (· != 0) true).trans ?_)
        · rfl
        · simp [Nat.pos_iff_ne_zero]
  | parentIsGso =>
    simp only [CondDecl.eval, CondHolds]
    rcases hp : ctx.parent with _ | _ | ⟨t, fs⟩ <;> simp

theorem cond_false (ctx : DCtx) (fs : Fields) (c : CondDecl) : c.eval ctx fs = .ok false ↔ CondFails ctx fs c := by
  cases c with
  | flag name bit =>
    refine (group_test fs name bit (· != 0) false).trans ?_
    simp [CondFails]
  | notFlag name bit =>
    refine (group_test fs name bit (· == 0) false).trans ?_
    simp [CondFails, Nat.pos_iff_ne_zero]
  | chidIs c => exact chid_false fs c
  | chidIsAndFlag c name bit =>
    simp only [CondDecl.eval, CondFails, ← chid_true, ← chid_false]
    cases h : chidEq fs c with
    | error e =>
      have h2 := chid_false fs c
      rw [h] at h2
      simp only [bind, Except.bind, reduceCtorEq, false_and, or_false, false_iff] at h2 ⊢
      have h1 : ¬ ChidIs fs c := by rw [← chid_true, h]; simp
      rintro ⟨hv, -⟩
      exact h2 ⟨hv, h1⟩
    | ok b =>
      cases b with
      | false =>
        have h2 := (chid_false fs c).1 h
        simp only [bind, Except.bind, pure, Except.pure, Except.ok.injEq, Bool.false_eq_true, if_false, true_iff]
        left
        first | exact h2 | simpa using h2.1 | skip
      | true =>
        have h3 : ¬ ((∃ v, fs.lookup "chid" = some v) ∧ ¬ ChidIs fs c) := by
          rw [← chid_false, h]; simp
        refine Iff.trans ?_ ((group_test fs name bit (· != 0) false).trans ?_)
        · rfl
        · simp
  | parentIsGso =>
    simp only [CondDecl.eval, CondFails]
    rcases hp : ctx.parent with _ | _ | ⟨t, fs⟩ <;> simp

theorem number_iff (fs : Fields) (name : String) (n : Int) :
    (getValue fs name >>= getInt) = .ok n ↔ NumberIs fs name n := by
  unfold getValue NumberIs
  cases fs.lookup name with
  | none => simp [bind, Except.bind]
  | some v =>
    simp only [bind, Except.bind]
    unfold getInt
    split
    · simp
    · simp [eq_comm]
    · rename_i h1 h2
      simp only [reduceCtorEq, Option.some.injEq, false_iff, not_or, not_exists, not_and]
      exact ⟨fun h => h1 _ h, fun f k h => absurd h (h2 f k)⟩

theorem ref_iff (ctx : DCtx) (fs : Fields) (r : RefDecl) (n : Int) :
    r.eval ctx fs = .ok n ↔ RefIs ctx fs r n := by
  have test : ∀ (name bit : String) (g : Nat → Int),
      (getValue fs name >>= fun v => getBit v bit >>= fun k => pure (g k)) = Except.ok n ↔
        ∃ k, GroupIs fs name bit k ∧ n = g k := by
    intro name bit g
    have := group_iff fs name bit
    rw [← bind_assoc]
    cases h : (getValue fs name >>= fun v => getBit v bit) with
    | error e =>
      simp only [bind, Except.bind, reduceCtorEq, false_iff]
      rintro ⟨k, hk, -⟩
      have := (this k).2 hk
      rw [h] at this
      simp at this
    | ok k =>
      have hk := (this k).1 h
      simp only [bind, Except.bind, pure, Except.pure, Except.ok.injEq]
      constructor
      · intro hb
        exact ⟨k, hk, hb.symm⟩
      · rintro ⟨k', hk', hb⟩
        rw [group_unique hk hk']
        exact hb.symm
  cases r with
  | member name => exact number_iff fs name n
  | flag name bit => exact test name bit fun k => (k : Int)
  | flagMinusOne name bit => exact test name bit fun k => (k : Int) - 1
  | parentMember name =>
    simp only [RefDecl.eval, RefIs]
    rcases hp : ctx.parent with _ | _ | ⟨t, fs'⟩
    · simp
    · simp
    · simp only [number_iff]
      constructor
      · intro h; exact ⟨t, fs', rfl, h⟩
      · rintro ⟨t', c', h1, h2⟩
        simp only [Option.some.injEq, Prod.mk.injEq] at h1
        rw [h1.2]; exact h2

end Hwp
