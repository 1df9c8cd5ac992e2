/- Helper lemmas about event streams. -/
import Verif.Spec.Events
set_option linter.unusedSimpArgs false
namespace Hwp
open Spec
variable {α : Type}

theorem nested_append_forest (f : Forest α) : ∀ (st : List α) (es : List (Ev α)),
    Nested st (eventsOf f ++ es) ↔ Nested st es := by
  induction f with
  | nil => intro st es; rfl
  | node a cs sibs ih1 ih2 =>
    intro st es
    simp only [eventsOf, List.cons_append, Nested, List.append_assoc, ih1, ih2, true_and]

theorem wellNested_eventsOf (f : Forest α) : WellNested (eventsOf f) := by
  have := (nested_append_forest f [] []).2 rfl
  simpa [WellNested] using this

/-- Structure of a nested stream with open elements: forests between the closing events. -/
theorem nested_decompose (es : List (Ev α)) : ∀ st : List α, Nested st es →
    ∃ f : Forest α, ∃ es', es = eventsOf f ++ es' ∧
      match st with
      | [] => es' = []
      | a :: st' => ∃ es'', es' = .stop a :: es'' ∧ Nested st' es'' := by
  induction hk : es.length using Nat.strongRecOn generalizing es with
  | ind k ih =>
    intro st h
    cases es with
    | nil => simp only [Nested] at h; subst h; exact ⟨.nil, [], rfl, rfl⟩
    | cons e es =>
      cases e with
      | start a =>
        simp only [Nested] at h
        obtain ⟨f, es', h1, es'', h2, h3⟩ := ih es.length (by simp at hk; omega) es rfl (a :: st) h
        have hlen : es''.length < k := by
          rw [h1, h2] at hk; simp at hk; omega
        obtain ⟨f2, es2, h4, h5⟩ := ih es''.length hlen es'' rfl st h3
        refine ⟨.node a f f2, es2, ?_, h5⟩
        rw [h1, h2, h4]
        simp [eventsOf]
      | stop b =>
        cases st with
        | nil => simp [Nested] at h
        | cons a st =>
          simp only [Nested] at h
          obtain ⟨rfl, h⟩ := h
          exact ⟨.nil, .stop b :: es, rfl, es, rfl, h⟩

theorem wellNested_iff_forest (es : List (Ev α)) :
    WellNested es ↔ ∃ f : Forest α, es = eventsOf f := by
  constructor
  · intro h
    obtain ⟨f, es', h1, h2⟩ := nested_decompose es [] h
    simp only at h2
    subst h2
    exact ⟨f, by simpa using h1⟩
  · rintro ⟨f, rfl⟩; exact wellNested_eventsOf f

theorem treeEventsMulti_eq (f : Forest α) : treeEventsMulti f = eventsOf f := by
  induction f with
  | nil => rfl
  | node a cs sibs ih1 ih2 => simp [treeEventsMulti, eventsOf, ih1, ih2]

theorem treeEvents_eq (a : α) (f : Forest α) : treeEvents a f = eventsOf (.node a f .nil) := by
  simp [treeEvents, eventsOf, treeEventsMulti_eq]

/-! build_subtree -/

/-- Append forests. -/
theorem Forest.append_nil (f : Forest α) : f.append .nil = f := by
  induction f with
  | nil => rfl
  | node a cs sibs _ ih => simp [Forest.append, ih]

theorem Forest.snoc_append (f : Forest α) (a : α) (cs g : Forest α) :
    (f.snoc a cs).append g = f.append (.node a cs g) := by
  induction f with
  | nil => rfl
  | node b ds sibs _ ih => simp [Forest.snoc, Forest.append, ih]

theorem eventsOf_append (f g : Forest α) : eventsOf (f.append g) = eventsOf f ++ eventsOf g := by
  induction f with
  | nil => rfl
  | node a cs sibs _ ih => simp [Forest.append, eventsOf, ih]

theorem buildSubtreeGo_stop (a : α) (es : List (Ev α)) (childs : Forest α) :
    (buildSubtreeGo (.stop a :: es) childs).1 = (some (a, childs), es) := by
  rw [buildSubtreeGo]

theorem buildSubtreeGo_nil (childs : Forest α) :
    (buildSubtreeGo ([] : List (Ev α)) childs).1 = (none, []) := by
  rw [buildSubtreeGo]

theorem buildSubtreeGo_start (a : α) (es : List (Ev α)) (childs : Forest α) :
    (buildSubtreeGo (.start a :: es) childs).1 =
      match (buildSubtreeGo es .nil).1 with
      | (none, es') => (none, es')
      | (some (b, cs), es') => (buildSubtreeGo es' (childs.snoc b cs)).1 := by
  rw [buildSubtreeGo]
  split
  · rename_i h; simp [h]
  · rename_i h; simp [h]

theorem buildSubtreeGo_forest (f : Forest α) : ∀ (childs : Forest α) (a : α) (rest : List (Ev α)),
    (buildSubtreeGo (eventsOf f ++ .stop a :: rest) childs).1 = (some (a, childs.append f), rest) := by
  induction f with
  | nil =>
    intro childs a rest
    simp only [eventsOf, List.nil_append]
    rw [buildSubtreeGo_stop, Forest.append_nil]
  | node b cs sibs ih1 ih2 =>
    intro childs a rest
    have e : eventsOf (.node b cs sibs) ++ .stop a :: rest =
        .start b :: (eventsOf cs ++ .stop b :: (eventsOf sibs ++ .stop a :: rest)) := by
      simp [eventsOf]
    rw [e, buildSubtreeGo_start, ih1]
    simp only [Forest.append]
    rw [ih2, Forest.snoc_append]

/-- Running out of events gives `None`. -/
theorem buildSubtreeGo_forest_eof (f : Forest α) : ∀ (childs : Forest α),
    (buildSubtreeGo (eventsOf f) childs).1 = (none, []) := by
  induction f with
  | nil => intro childs; exact buildSubtreeGo_nil childs
  | node b cs sibs ih1 ih2 =>
    intro childs
    simp only [eventsOf]
    rw [buildSubtreeGo_start, buildSubtreeGo_forest]
    simp only
    exact ih2 _

/-! iter_subevents -/

theorem iterSubevents_forest (f : Forest α) : ∀ (n : Nat) (es : List (Ev α)),
    iterSubevents n (eventsOf f ++ es) =
      (eventsOf f ++ (iterSubevents n es).1, (iterSubevents n es).2) := by
  induction f with
  | nil => intro n es; rfl
  | node a cs sibs ih1 ih2 =>
    intro n es
    simp only [eventsOf, List.cons_append, iterSubevents, List.append_assoc, ih1]
    rw [if_pos (by omega)]
    simp only [Nat.add_sub_cancel, ih2]

/-! prefix_event -/

theorem popTo_spec (root : α) (st : List α) (t : Nat) (ht : t ≤ st.length) :
    popTo ((t : Int) + 1) (st ++ [root]) =
      ((st.take (st.length - t)).map .stop, .ok (st.drop (st.length - t) ++ [root])) := by
  induction st with
  | nil =>
    simp at ht; subst ht
    simp [popTo]
  | cons a st ih =>
    by_cases h : t = (a :: st).length
    · subst h
      simp [popTo]
    · simp only [List.length_cons] at ht h
      have h1 : t ≤ st.length := by omega
      have h2 : (a :: st).length - t = (st.length - t) + 1 := by simp; omega
      rw [h2]
      simp only [List.cons_append, popTo, List.length_cons, List.length_append, List.length_nil]
      rw [if_pos (by omega), ih h1]
      simp

theorem nested_pops (n : Nat) (st : List α) (es : List (Ev α)) (hn : n ≤ st.length) :
    Nested st ((st.take n).map .stop ++ es) ↔ Nested (st.drop n) es := by
  induction n generalizing st with
  | zero => simp
  | succ n ih =>
    cases st with
    | nil => simp at hn
    | cons a st =>
      simp only [List.take_succ_cons, List.map_cons, List.cons_append, Nested, true_and,
        List.drop_succ_cons]
      exact ih st (by simpa using hn)

theorem startDepths_pops (l : List α) (d : Nat) (es : List (Ev α)) :
    startDepths d (l.map .stop ++ es) = startDepths (d - l.length) es := by
  induction l generalizing d with
  | nil => simp
  | cons a l ih =>
    simp only [List.map_cons, List.cons_append, startDepths, ih, List.length_cons]
    congr 1
    omega

/-- Items with their levels as Python integers. -/
def lv (items : List (Nat × α)) : List (Int × α) := items.map fun p => ((p.1 : Int), p.2)

theorem prefixEventGo_step (root : α) (b : Nat) (st : List α) (l : Nat) (a : α) (rest : List (Int × α))
    (hb : b ≤ l) (hl : l - b ≤ st.length) :
    prefixEventGo (some (b : Int)) (st ++ [root]) (((l : Int), a) :: rest) =
      .prepend ((st.take (st.length - (l - b))).map .stop)
        (.cons (.start a)
          (prefixEventGo (some (b : Int)) ((a :: st.drop (st.length - (l - b))) ++ [root]) rest)) := by
  have hrel : (l : Int) - (b : Int) = ((l - b : Nat) : Int) := by omega
  conv => lhs; unfold prefixEventGo
  simp only [relLevel, hrel]
  rw [popTo_spec root st (l - b) hl]
  simp only [List.length_append, List.length_drop, List.length_cons, List.length_nil]
  rw [if_neg (by omega), if_pos (by omega)]
  rfl

theorem prefixEventGo_valid (root : α) (b : Nat) (items : List (Nat × α)) : ∀ (st : List α),
    (∀ p ∈ items, b ≤ p.1) →
    (match items with
      | [] => True
      | (l, _) :: rest => l ≤ b + st.length ∧ StepsOk l rest) →
    (prefixEventGo (some (b : Int)) (st ++ [root]) (lv items)).err = none ∧
    Nested st (prefixEventGo (some (b : Int)) (st ++ [root]) (lv items)).out ∧
    startDepths st.length (prefixEventGo (some (b : Int)) (st ++ [root]) (lv items)).out =
      items.map (fun p => (p.1 - b, p.2)) := by
  induction items with
  | nil =>
    intro st _ _
    simp only [lv, List.map_nil, prefixEventGo, Gen.ofList, List.length_append, List.length_cons,
      List.length_nil, Nat.zero_add, Nat.add_sub_cancel, true_and]
    have h1 : (st ++ [root]).take st.length = st := by simp
    rw [h1]
    have h2 := nested_pops st.length st [] (Nat.le_refl _)
    have h3 := startDepths_pops st st.length []
    simp only [List.take_length, List.append_nil, List.drop_length] at h2 h3
    exact ⟨h2.2 rfl, h3⟩
  | cons p items ih =>
    obtain ⟨l, a⟩ := p
    intro st hb hs
    simp only at hs
    have hbl : b ≤ l := hb (l, a) (by simp)
    have hl : l - b ≤ st.length := by omega
    have he : lv ((l, a) :: items) = ((l : Int), a) :: lv items := rfl
    rw [he, prefixEventGo_step root b st l a _ hbl hl]
    have hdl : (st.drop (st.length - (l - b))).length = l - b := by simp; omega
    have hih := ih (a :: st.drop (st.length - (l - b))) (fun p hp => hb p (by simp [hp])) (by
      cases items with
      | nil => trivial
      | cons q items =>
        obtain ⟨l', a'⟩ := q
        simp only [List.length_cons, hdl]
        obtain ⟨_, h1, h2⟩ := hs
        exact ⟨by omega, h2⟩)
    obtain ⟨e1, e2, e3⟩ := hih
    refine ⟨e1, ?_, ?_⟩
    · simp only [Gen.prepend, Gen.cons]
      rw [nested_pops _ _ _ (by omega)]
      exact e2
    · simp only [Gen.prepend, Gen.cons]
      rw [startDepths_pops]
      have : st.length - (st.take (st.length - (l - b))).length = l - b := by
        rw [List.length_take]; omega
      rw [this]
      simp only [startDepths, List.map_cons]
      rw [← e3]
      simp only [List.length_cons, hdl]

/-- A level that jumps by more than one fails. -/
theorem prefixEventGo_jump (root : α) (b : Nat) (st : List α) (l : Nat) (a : α) (rest : List (Int × α))
    (hl : b + st.length < l) :
    prefixEventGo (some (b : Int)) (st ++ [root]) (((l : Int), a) :: rest) = ⟨[], some .exception⟩ := by
  have hrel : (l : Int) - (b : Int) = ((l - b : Nat) : Int) := by omega
  unfold prefixEventGo
  simp only [relLevel, hrel]
  have hpop : popTo (((l - b : Nat) : Int) + 1) (st ++ [root]) = ([], .ok (st ++ [root])) := by
    cases st with
    | nil =>
      simp only [List.nil_append, popTo]
      rw [if_neg]
      simp at hl ⊢; omega
    | cons c st =>
      simp only [List.cons_append, popTo]
      rw [if_neg]
      simp at hl ⊢; omega
  rw [hpop]
  simp only [List.length_append, List.length_cons, List.length_nil]
  rw [if_pos (by omega)]

theorem prefixEventGo_invalid (root : α) (b : Nat) (items : List (Nat × α)) : ∀ (st : List α),
    (∀ p ∈ items, b ≤ p.1) →
    ¬ (match items with
      | [] => True
      | (l, _) :: rest => l ≤ b + st.length ∧ StepsOk l rest) →
    (prefixEventGo (some (b : Int)) (st ++ [root]) (lv items)).err = some .exception := by
  induction items with
  | nil => intro st _ h; exact absurd trivial h
  | cons p items ih =>
    obtain ⟨l, a⟩ := p
    intro st hb hs
    simp only at hs
    have hbl : b ≤ l := hb (l, a) (by simp)
    have he : lv ((l, a) :: items) = ((l : Int), a) :: lv items := rfl
    by_cases hl : l ≤ b + st.length
    · rw [he, prefixEventGo_step root b st l a _ hbl (by omega)]
      have hdl : (st.drop (st.length - (l - b))).length = l - b := by simp; omega
      have := ih (a :: st.drop (st.length - (l - b))) (fun p hp => hb p (by simp [hp])) (by
        cases items with
        | nil => exact absurd ⟨hl, trivial⟩ hs
        | cons q items =>
          obtain ⟨l', a'⟩ := q
          simp only [List.length_cons, hdl]
          intro hc
          exact hs ⟨hl, by simp only [StepsOk]; exact ⟨by omega, hc.2⟩⟩)
      exact this
    · rw [he, prefixEventGo_jump root b st l a _ (by omega)]

theorem prefixEvent_cons (root : α) (l : Nat) (a : α) (rest : List (Nat × α)) :
    prefixEvent root (lv ((l, a) :: rest)) =
      prefixEventGo (some (l : Int)) ([] ++ [root]) (lv ((l, a) :: rest)) := by
  simp only [prefixEvent, lv, List.map_cons, prefixEventGo, relLevel, List.nil_append, Int.sub_self]
  rfl

/-! ancestors -/

theorem ancestors_pops (pops : List α) (st : List α) (err : Option PyErr) (es : List (Ev α)) :
    prefixAncestorsGo (pops ++ st) err (pops.map .stop ++ es) = prefixAncestorsGo st err es := by
  induction pops with
  | nil => rfl
  | cons a pops ih => simpa [prefixAncestorsGo] using ih

theorem popTo_shape (t : Int) (st : List α) :
    ∃ pops st', st = pops ++ st' ∧ (popTo t st).1 = pops.map .stop ∧
      ((popTo t st).2 = .ok st' ∨ (∃ e, (popTo t st).2 = .error e ∧ st' = [])) := by
  induction st with
  | nil =>
    refine ⟨[], [], rfl, ?_, ?_⟩
    · unfold popTo; split <;> rfl
    · unfold popTo; split
      · right; exact ⟨_, rfl, rfl⟩
      · left; rfl
  | cons a st ih =>
    unfold popTo
    split
    · obtain ⟨pops, st', h1, h2, h3⟩ := ih
      refine ⟨a :: pops, st', by simp [h1], by simp [h2], h3⟩
    · exact ⟨[], a :: st, rfl, rfl, .inl rfl⟩

theorem prefixAncestorsGo_prepend (pops st : List α) (g : Gen (Ev α)) :
    prefixAncestorsGo (pops ++ st) (Gen.prepend (pops.map .stop) g).err
      (Gen.prepend (pops.map .stop) g).out = prefixAncestorsGo st g.err g.out := by
  simp only [Gen.prepend]
  exact ancestors_pops pops st g.err g.out

theorem ancestors_agree (items : List (Int × α)) : ∀ (base : Option Int) (st : List α),
    prefixAncestorsGo st (prefixEventGo base st items).err (prefixEventGo base st items).out =
      ancestorsFromLevelGo base st items := by
  induction items with
  | nil =>
    intro base st
    simp only [prefixEventGo, Gen.ofList, ancestorsFromLevelGo]
    have h := ancestors_pops (st.take (st.length - 1)) (st.drop (st.length - 1)) none []
    rw [List.take_append_drop, List.append_nil] at h
    rw [h]; rfl
  | cons p items ih =>
    obtain ⟨l, a⟩ := p
    intro base st
    unfold prefixEventGo ancestorsFromLevelGo
    simp only
    obtain ⟨pops, st', h1, h2, h3⟩ := popTo_shape ((relLevel base l).1 + 1) st
    rcases hp : popTo ((relLevel base l).1 + 1) st with ⟨evs, r⟩
    rw [hp] at h2 h3
    simp only at h2 h3
    subst h2
    rcases h3 with h3 | ⟨e, h3, h4⟩
    · subst h3
      simp only
      by_cases c1 : (st'.length : Int) < (relLevel base l).1 + 1
      · simp only [c1, if_true]
        have := ancestors_pops pops st' (some .exception) []
        rw [List.append_nil, ← h1] at this
        rw [this]; rfl
      · by_cases c2 : (st'.length : Int) = (relLevel base l).1 + 1
        · rw [if_neg c1, if_neg c1, if_pos c2, if_pos c2, h1, prefixAncestorsGo_prepend]
          simp only [Gen.cons, prefixAncestorsGo, ih]
        · rw [if_neg c1, if_neg c1, if_neg c2, if_neg c2]
          have := ancestors_pops pops st' (some .assertionError) []
          rw [List.append_nil, ← h1] at this
          rw [this]; rfl
    · subst h3
      simp only
      have := ancestors_pops pops st' (some e) []
      rw [List.append_nil, ← h1] at this
      rw [this]; rfl

end Hwp
