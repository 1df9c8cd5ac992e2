/- Helper lemmas about grouping. -/
import Verif.Model.Grouping
import Verif.Proofs.Records
import Verif.Spec.Grouping
set_option linter.unusedSimpArgs false
namespace Hwp

theorem takeTree_spec (l : List Record) :
    (∀ r ∈ (takeTree l).1, r.level ≠ 0) ∧
    (match (takeTree l).2 with
     | none => l = (takeTree l).1
     | some (t, rest) => t.level = 0 ∧ l = (takeTree l).1 ++ t :: rest) := by
  induction l with
  | nil => simp [takeTree]
  | cons r rs ih =>
    unfold takeTree
    by_cases h : r.level = 0
    · simp [h]
    · simp only [h, if_false]
      obtain ⟨h1, h2⟩ := ih
      refine ⟨?_, ?_⟩
      · intro r' hr'
        simp only [List.mem_cons] at hr'
        rcases hr' with rfl | hr'
        · exact h
        · exact h1 _ hr'
      · cases h3 : (takeTree rs).2 with
        | none => simp only [h3] at h2 ⊢; rw [← h2]
        | some v =>
          obtain ⟨t, rest⟩ := v
          simp only [h3] at h2 ⊢
          refine ⟨h2.1, ?_⟩
          rw [List.cons_append, ← h2.2]

theorem groupLoop_eq (top : Record) (rs : List Record) (err : Option PyErr) :
    groupLoop top rs err = match takeTree rs with
      | (g, some (top', rest)) => .cons (top :: g) (groupLoop top' rest err)
      | (g, none) => match err with
        | none => .cons (top :: g) .done
        | some e => .raise e := by
  rw [groupLoop]
  split
  · rename_i h; simp [h]
  · rename_i h; cases err <;> simp [h]

structure GroupsOk (records : List Record) (gs : List (List Record)) : Prop where
  flat : gs.flatten = records
  nonempty : ∀ g ∈ gs, g ≠ []
  heads : ∀ g ∈ gs.tail, ∃ r t, g = r :: t ∧ r.level = 0
  inner : ∀ g ∈ gs, ∀ r ∈ g.tail, r.level ≠ 0

theorem groupLoop_ok (top : Record) (rs : List Record) :
    (groupLoop top rs none).err = none ∧ GroupsOk (top :: rs) (groupLoop top rs none).out ∧
    ∃ t gs, (groupLoop top rs none).out = (top :: t) :: gs := by
  induction hk : rs.length using Nat.strongRecOn generalizing top rs with
  | ind k ih =>
    rw [groupLoop_eq]
    obtain ⟨h1, h2⟩ := takeTree_spec rs
    rcases htt : takeTree rs with ⟨g, _ | ⟨t, rest⟩⟩
    · rw [htt] at h1 h2
      simp only at h1 h2 ⊢
      subst h2
      refine ⟨rfl, ⟨?_, ?_, ?_, ?_⟩, ?_⟩
      · simp [Gen.cons, Gen.done]
      · simp [Gen.cons, Gen.done]
      · simp [Gen.cons, Gen.done]
      · simpa [Gen.cons, Gen.done] using h1
      · exact ⟨_, _, rfl⟩
    · rw [htt] at h1 h2
      simp only at h1 h2 ⊢
      have hlt := takeTree_lt htt
      obtain ⟨e1, e2, t', gs', e3⟩ := ih _ (by omega) t rest rfl
      refine ⟨e1, ⟨?_, ?_, ?_, ?_⟩, ⟨_, _, rfl⟩⟩
      · simp only [Gen.cons, List.flatten_cons, e2.flat]
        rw [h2.2]; simp
      · intro g' hg'
        simp only [Gen.cons, List.mem_cons] at hg'
        rcases hg' with rfl | hg'
        · simp
        · exact e2.nonempty _ hg'
      · intro g' hg'
        simp only [Gen.cons, List.tail_cons] at hg'
        rw [e3] at hg'
        simp only [List.mem_cons] at hg'
        rcases hg' with rfl | hg'
        · exact ⟨t, t', rfl, h2.1⟩
        · exact e2.heads g' (by rw [e3]; exact hg')
      · intro g' hg'
        simp only [Gen.cons, List.mem_cons] at hg'
        rcases hg' with rfl | hg'
        · simpa using h1
        · exact e2.inner _ hg'

/-- With a failing source the complete groups before the failure are delivered,
then the exception is raised. -/
theorem groupLoop_err (top : Record) (rs : List Record) (e : PyErr) :
    (groupLoop top rs (some e)).err = some e ∧
    (groupLoop top rs (some e)).out = (groupLoop top rs none).out.dropLast := by
  induction hk : rs.length using Nat.strongRecOn generalizing top rs with
  | ind k ih =>
    rw [groupLoop_eq, groupLoop_eq top rs none]
    rcases htt : takeTree rs with ⟨g, _ | ⟨t, rest⟩⟩
    · simp [Gen.cons, Gen.done, Gen.raise]
    · have hlt := takeTree_lt htt
      obtain ⟨h1, h2⟩ := ih _ (by omega) t rest rfl
      simp only [Gen.cons, h1, h2, true_and]
      obtain ⟨_, _, t', gs', e3⟩ := groupLoop_ok t rest
      rw [e3]
      simp

/-! Lazy mode -/

/-- `next` calls on a running group generator: `k` calls deliver the first `k`
remaining records of the tree. -/
theorem takeRecs_running (k : Nat) (src : List Record) :
    LazySt.takeRecs ⟨src, none, true, false⟩ .running k =
      .ok ((takeTree src).1.take k,
        if (takeTree src).1.length < k then InnerSt.finished else .running,
        if (takeTree src).1.length < k then
          (match (takeTree src).2 with
           | none => ⟨[], none, true, false⟩
           | some (t, rest) => ⟨rest, some t, true, false⟩)
        else ⟨src.drop k, none, true, false⟩) := by
  induction k generalizing src with
  | zero => simp [LazySt.takeRecs]
  | succ k ih =>
    unfold LazySt.takeRecs
    cases src with
    | nil => simp [LazySt.nextRec, takeTree]
    | cons r rs =>
      by_cases hr : r.level = 0
      · simp [LazySt.nextRec, takeTree, hr]
      · simp only [LazySt.nextRec, takeTree, hr, if_false, ih]
        simp

theorem consume_spec_aux (ks : List Nat) : ∀ (t : Record) (src : List Record),
    LazySt.consume ⟨src, some t, true, false⟩ ks =
      .ok (Spec.lazyConsumer (groupLoop t src none).out ks) := by
  induction ks with
  | nil =>
    intro t src
    obtain ⟨_, _, t', gs', e3⟩ := groupLoop_ok t src
    simp [LazySt.consume, e3, Spec.lazyConsumer]
  | cons k ks ih =>
    intro t src
    rw [groupLoop_eq]
    cases k with
    | zero =>
      rcases htt : takeTree src with ⟨g, _ | ⟨t', rest⟩⟩
      · simp [LazySt.consume, LazySt.nextGroup, LazySt.takeRecs, ih, Spec.lazyConsumer, Gen.cons, Gen.done]
        rw [groupLoop_eq]; simp [htt, Gen.cons, Gen.done]
      · simp [LazySt.consume, LazySt.nextGroup, LazySt.takeRecs, ih, Spec.lazyConsumer, Gen.cons, Gen.done]
        rw [groupLoop_eq]; simp [htt, Gen.cons, Gen.done]
    | succ k =>
      simp only [LazySt.consume, LazySt.nextGroup, LazySt.takeRecs, LazySt.nextRec, takeRecs_running,
        if_true, Bool.false_eq_true, if_false]
      rcases htt : takeTree src with ⟨g, _ | ⟨t', rest⟩⟩
      · by_cases hk : g.length < k
        · simp only [hk, if_true, Gen.cons, Gen.done, Spec.lazyConsumer]
          cases ks with
          | nil => simp [LazySt.consume, Spec.lazyConsumer, hk]; rw [List.take_of_length_le (by omega)]
          | cons k' ks' =>
            simp [LazySt.consume, LazySt.nextGroup, Spec.lazyConsumer, hk]; rw [List.take_of_length_le (by omega)]
        · simp only [hk, if_false, Gen.cons, Gen.done, Spec.lazyConsumer]
          cases ks with
          | nil => simp [LazySt.consume, Spec.lazyConsumer, hk]
          | cons k' ks' => simp [LazySt.consume, LazySt.nextGroup, Spec.lazyConsumer, hk]
      · by_cases hk : g.length < k
        · simp only [hk, if_true, Gen.cons, Spec.lazyConsumer, ih]
          simp [hk]
          rw [List.take_of_length_le (by omega)]
        · simp only [hk, if_false, Gen.cons, Gen.done, Spec.lazyConsumer]
          cases ks with
          | nil => simp [LazySt.consume, Spec.lazyConsumer, hk]
          | cons k' ks' => simp [LazySt.consume, LazySt.nextGroup, Spec.lazyConsumer, hk]

theorem enclosing_same {levels : List Nat} {i l : Nat} (h1 : levels[i]? = some l)
    (h2 : levels[i + 1]? = some l) : Spec.enclosing levels (i + 1) = Spec.enclosing levels i := by
  simp [Spec.enclosing, h1, h2, List.range_succ]

theorem enclosing_deeper {levels : List Nat} {i l : Nat} (h1 : levels[i]? = some l)
    (h2 : levels[i + 1]? = some (l + 1)) : Spec.enclosing levels (i + 1) = some i := by
  simp [Spec.enclosing, h1, h2, List.range_succ]

theorem linkRecords_go (levels pre ls : List Nat) (prev : Option (Nat × Nat × Option Nat))
    (hl : levels = pre ++ ls)
    (hprev : match prev with
      | none => pre = []
      | some (i, l, p) => pre.length = i + 1 ∧ levels[i]? = some l ∧ p = Spec.enclosing levels i) :
    ∀ i, (∀ j a b, j < pre.length + i → levels[j]? = some a → levels[j + 1]? = some b →
        b = a ∨ b = a + 1) →
      (linkRecords.go pre.length prev ls)[i]?.bind (·.1) = Spec.enclosing levels (pre.length + i) := by
  induction ls generalizing pre prev with
  | nil =>
    intro i _
    have : levels[pre.length + i]? = none := by
      rw [hl]; simp
    simp [linkRecords.go, Spec.enclosing, this]
  | cons l ls ih =>
    intro i hi
    have hcur : levels[pre.length]? = some l := by rw [hl]; simp
    have key : ∀ par, par = Spec.enclosing levels pre.length →
        ∀ n, i = n + 1 →
        (linkRecords.go (pre.length + 1) (some (pre.length, l, par)) ls)[n]?.bind (·.1) =
          Spec.enclosing levels (pre.length + i) := by
      intro par hpar n hn
      have := ih (pre ++ [l]) (some (pre.length, l, par)) (by simp [hl]) (by simp [hcur, hpar]) n
        (by
          intro j a b hj
          apply hi
          simp at hj; omega)
      simp only [List.length_append, List.length_cons, List.length_nil] at this
      rw [Nat.zero_add] at this
      rw [this]; congr 1; omega
    unfold linkRecords.go
    cases prev with
    | none =>
      simp only at hprev
      cases i with
      | zero => subst hprev; simp [Spec.enclosing, hl]
      | succ n =>
        simp only [List.getElem?_cons_succ]
        exact key none (by subst hprev; simp [Spec.enclosing, hl]) n rfl
    | some v =>
      obtain ⟨pi, pl, pp⟩ := v
      obtain ⟨hlen, hpl, hpp⟩ := hprev
      rw [hlen] at hcur
      have hle : pi + 1 = pre.length := hlen.symm
      have hpar : (match some (pi, pl, pp) with
          | none => ((none, none) : Option Nat × Option Nat)
          | some (pi, pl, pp) =>
            if l = pl then (pp, some pi)
            else if l = pl + 1 then (some pi, none)
            else (none, none)).1 = Spec.enclosing levels pre.length := by
        rcases hi pi pl l (by omega) hpl hcur with h | h
        · subst h; simp only [if_true]
          rw [← hle, enclosing_same hpl hcur, hpp]
        · subst h
          rw [← hle, enclosing_deeper hpl hcur]
          simp
      cases i with
      | zero =>
        simp only [List.getElem?_cons_zero, Option.bind_some, Nat.add_zero]
        exact hpar
      | succ n =>
        simp only [List.getElem?_cons_succ]
        exact key _ hpar n rfl

end Hwp
