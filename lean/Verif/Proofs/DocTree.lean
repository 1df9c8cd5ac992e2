/-
The tree of a record stream: existence, uniqueness, and the events of its models.
-/
import Verif.Proofs.DocGood
import Verif.Props.TreeOp
import Verif.Props.ModelParse
set_option linter.unusedSimpArgs false
set_option linter.unusedVariables false
namespace Hwp
open Spec

/-! ### Depths determine the forest -/

/-- Depths of the items of a forest. -/
def depthsOf {α} (d : Nat) : Forest α → List (Nat × α)
  | .nil => []
  | .node a cs sibs => (d, a) :: (depthsOf (d + 1) cs ++ depthsOf d sibs)

theorem startDepths_forest {α} (f : Forest α) : ∀ (d : Nat) (r : List (Ev α)),
    startDepths d (eventsOf f ++ r) = depthsOf d f ++ startDepths d r := by
  induction f with
  | nil => intro d r; rfl
  | node a cs sibs ih1 ih2 =>
    intro d r
    simp [eventsOf, startDepths, depthsOf, ih1, ih2]

theorem startDepths_eventsOf {α} (f : Forest α) (d : Nat) : startDepths d (eventsOf f) = depthsOf d f := by
  have := startDepths_forest f d []
  simpa [startDepths] using this

theorem depthsOf_ge {α} (f : Forest α) : ∀ d, ∀ p ∈ depthsOf d f, d ≤ p.1 := by
  induction f with
  | nil => intro d p hp; cases hp
  | node a cs sibs ih1 ih2 =>
    intro d p hp
    simp only [depthsOf, List.mem_cons, List.mem_append] at hp
    rcases hp with rfl | hp | hp
    · exact Nat.le_refl _
    · have := ih1 _ p hp; omega
    · exact ih2 _ p hp

theorem depthsOf_head {α} (f : Forest α) (d : Nat) (p : Nat × α) (hp : (depthsOf d f).head? = some p) : p.1 = d := by
  cases f with
  | nil => cases hp
  | node a cs sibs => simp [depthsOf] at hp; rw [← hp]

theorem depths_split {α} (d : Nat) : ∀ (xs ys xs' ys' : List (Nat × α)),
    (∀ p ∈ xs, d < p.1) → (∀ p ∈ xs', d < p.1) →
    (∀ p, ys.head? = some p → p.1 = d) → (∀ p, ys'.head? = some p → p.1 = d) →
    xs ++ ys = xs' ++ ys' → xs = xs' ∧ ys = ys' := by
  intro xs
  induction xs with
  | nil =>
    intro ys xs' ys' h1 h2 h3 h4 e
    cases xs' with
    | nil => exact ⟨rfl, e⟩
    | cons p xs' =>
      have := h3 p (by rw [List.nil_append] at e; rw [e]; rfl)
      have := h2 p (by simp)
      omega
  | cons x xs ih =>
    intro ys xs' ys' h1 h2 h3 h4 e
    cases xs' with
    | nil =>
      have := h4 x (by rw [List.nil_append] at e; rw [← e]; rfl)
      have := h1 x (by simp)
      omega
    | cons p xs' =>
      simp only [List.cons_append, List.cons.injEq] at e
      obtain ⟨rfl, e⟩ := e
      obtain ⟨r1, r2⟩ := ih ys xs' ys' (fun p hp => h1 p (by simp [hp])) (fun p hp => h2 p (by simp [hp])) h3 h4 e
      exact ⟨by rw [r1], r2⟩

theorem depthsOf_inj {α} (f : Forest α) : ∀ (g : Forest α) (d : Nat), depthsOf d f = depthsOf d g → f = g := by
  induction f with
  | nil =>
    intro g d h
    cases g with
    | nil => rfl
    | node => cases h
  | node a cs sibs ih1 ih2 =>
    intro g d h
    cases g with
    | nil => cases h
    | node b ds sibs' =>
      simp only [depthsOf, List.cons.injEq, Prod.mk.injEq, true_and] at h
      obtain ⟨rfl, h⟩ := h
      obtain ⟨h1, h2⟩ := depths_split d _ _ _ _ (fun p hp => depthsOf_ge cs _ p hp) (fun p hp => depthsOf_ge ds _ p hp)
        (fun p hp => depthsOf_head _ _ _ hp) (fun p hp => depthsOf_head _ _ _ hp) h
      rw [ih1 _ _ h1, ih2 _ _ h2]

theorem depthsOf_map {α β} (F : α → β) (f : Forest α) : ∀ d, depthsOf d (f.map F) = (depthsOf d f).map fun p => (p.1, F p.2) := by
  induction f with
  | nil => intro d; rfl
  | node a cs sibs ih1 ih2 => intro d; simp [Forest.map, depthsOf, ih1, ih2]

theorem depthsOf_steps {α} (f : Forest α) : ∀ (d prev : Nat) (r : List (Nat × α)), d ≤ prev + 1 →
    (∀ q, d ≤ q + 1 → StepsOk q r) → StepsOk prev (depthsOf d f ++ r) := by
  induction f with
  | nil => intro d prev r h1 h2; exact h2 prev h1
  | node a cs sibs ih1 ih2 =>
    intro d prev r h1 h2
    simp only [depthsOf, List.cons_append, List.append_assoc, StepsOk]
    refine ⟨h1, ih1 _ _ _ (by omega) ?_⟩
    intro q hq
    exact ih2 _ _ _ (by omega) h2

theorem properLevels_depths {α} (f : Forest α) : Props.ProperLevels (depthsOf 0 f) := by
  cases f with
  | nil => trivial
  | node a cs sibs =>
    refine ⟨fun p _ => Nat.zero_le _, ?_⟩
    have h2 := depthsOf_steps sibs 0
    have := depthsOf_steps cs 1 0 (depthsOf 0 sibs) (by omega) (fun q hq => by
      have := depthsOf_steps sibs 0 q [] (by omega) (fun _ _ => trivial)
      simpa using this)
    exact this

/-! ### Events of the models -/

theorem prefixEventErr_none {α} : ∀ (items : List (Int × α)) (base : Option Int) (stack : List α),
    prefixEventErr none base stack items = prefixEventGo base stack items := by
  intro items
  induction items with
  | nil => intro base stack; rfl
  | cons p items ih =>
    intro base stack
    obtain ⟨l, a⟩ := p
    unfold prefixEventErr prefixEventGo
    simp only [ih]
    rcases popTo ((relLevel base l).1 + 1) stack with ⟨x, y⟩
    cases y <;> rfl

theorem prefixEvent_depths {α} (root : α) (f : Forest α) : prefixEvent root (lv (depthsOf 0 f)) = .ofList (eventsOf f) := by
  obtain ⟨es, h1, h2, h3⟩ := Props.C08_prefix_event_nested root (depthsOf 0 f) (properLevels_depths f)
  rw [h1]
  obtain ⟨g, rfl⟩ := (wellNested_iff_forest es).1 h2
  have hb : Props.baseLevel (depthsOf 0 f) = 0 := by cases f <;> rfl
  rw [hb, startDepths_eventsOf] at h3
  simp only [Nat.sub_zero] at h3
  have : depthsOf 0 g = depthsOf 0 f := by rw [h3]; simp
  rw [depthsOf_inj _ _ _ this]
  rfl

theorem streamTree_depths {rd : ModelReader Fields} {s : Bytes} {f : Forest (Nat × PModel Fields)} (h : StreamTree rd s f) :
    depthsOf 0 f = (streamModels rd s).out.mapIdx fun i m => (m.record.level, i, m) := by
  rw [← startDepths_eventsOf]; exact h.depths

/-- The events of the models of a stream are those of its tree. -/
theorem modelEvents_tree {α} (root : α) (F : Nat → PModel Fields → α) {rd : ModelReader Fields} {s : Bytes}
    {f : Forest (Nat × PModel Fields)} (h : StreamTree rd s f) :
    modelEvents root F (streamModels rd s) = .ofList (eventsOf (f.map fun p => F p.1 p.2)) := by
  have hd := depthsOf_map (fun p : Nat × PModel Fields => F p.1 p.2) f 0
  rw [streamTree_depths h] at hd
  have := prefixEvent_depths root (f.map fun p => F p.1 p.2)
  rw [hd] at this
  rw [← this]
  unfold modelEvents prefixEvent
  rw [h.models, prefixEventErr_none]
  congr 1
  unfold lv
  apply List.ext_getElem
  · simp
  · intro i h1 h2; simp

/-! ### Existence -/

theorem popTo_length {α β} (t : Int) : ∀ (s : List α) (s' : List β), s.length = s'.length →
    ((∃ e, (popTo t s).2 = .error e) ∧ (∃ e, (popTo t s').2 = .error e)) ∨
    ∃ r r', (popTo t s).2 = .ok r ∧ (popTo t s').2 = .ok r' ∧ r.length = r'.length := by
  intro s
  induction s with
  | nil =>
    intro s' h
    cases s' with
    | cons => cases h
    | nil =>
      unfold popTo
      split
      · exact Or.inl ⟨⟨_, rfl⟩, ⟨_, rfl⟩⟩
      · exact Or.inr ⟨_, _, rfl, rfl, rfl⟩
  | cons a s ih =>
    intro s' h
    cases s' with
    | nil => cases h
    | cons b s' =>
      unfold popTo
      by_cases hc : t < ((a :: s).length : Int)
      · rw [if_pos hc, if_pos (by rw [← h]; exact hc)]
        exact ih s' (by simpa using h)
      · rw [if_neg hc, if_neg (by rw [← h]; exact hc)]
        exact Or.inr ⟨_, _, rfl, rfl, h⟩

theorem parse_prefix {α} (rd : ModelReader Fields) (F : Record → α) : ∀ (rs : List Record) (base : Option Int)
    (st : List (PFrame Fields)) (st' : List α), st.length = st'.length →
    (parseModelsGo rd none base st rs).err = none →
    (prefixEventGo base st' (rs.map fun r => ((r.level : Int), F r))).err = none := by
  intro rs
  induction rs with
  | nil => intro base st st' _ _; rfl
  | cons r rs ih =>
    intro base st st' hl h
    unfold parseModelsGo at h
    simp only [List.map_cons]
    unfold prefixEventGo
    dsimp only
    rcases popTo_length ((relLevel base r.level).1 + 1) st st' hl with ⟨⟨e, he⟩, -⟩ | ⟨q, q', h1, h2, h3⟩
    · rcases hp : popTo ((relLevel base r.level).1 + 1) st with ⟨x, y⟩
      rw [hp] at h he
      dsimp only at he
      subst he
      cases h
    · rcases hp : popTo ((relLevel base r.level).1 + 1) st with ⟨x, y⟩
      rcases hp' : popTo ((relLevel base r.level).1 + 1) st' with ⟨x', y'⟩
      rw [hp] at h h1
      rw [hp'] at h2
      dsimp only at h1 h2
      subst h1 h2
      dsimp only at h ⊢
      by_cases c1 : (q.length : Int) < (relLevel base r.level).1 + 1
      · rw [if_pos c1] at h; cases h
      · rw [if_neg c1] at h
        rw [if_neg (by rw [← h3]; exact c1)]
        by_cases c2 : (q.length : Int) = (relLevel base r.level).1 + 1
        · rw [if_pos c2] at h
          rw [if_pos (by rw [← h3]; exact c2)]
          cases q with
          | nil => cases h
          | cons parent q =>
            dsimp only at h
            cases hr : resolveModel rd parent r with
            | error e => rw [hr] at h; cases h
            | ok v =>
              rw [hr] at h
              exact ih _ _ _ (by simp at h3 ⊢; omega) h
        · rw [if_neg c2] at h; cases h

theorem streamTree_exists (rd : ModelReader Fields) (s : Bytes) (h1 : (readRecords s).err = none)
    (h2 : ∀ r, (readRecords s).out[0]? = some r → r.level = 0) (h3 : (streamModels rd s).err = none) :
    ∃ f, StreamTree rd s f := by
  have e := Props.C65_models_of_stream rd s h1 h2
  rw [e] at h3
  have hrec : (parseModels rd (readRecords s)).out.map PModel.record = (readRecords s).out :=
    ((Props.C64_order rd (readRecords s)).2 h3).1
  obtain ⟨f, hf⟩ : ∃ f : Forest (Nat × PModel Fields), depthsOf 0 f =
      (parseModels rd (readRecords s)).out.mapIdx fun i m => (m.record.level, i, m) := by
    have hp : (prefixEvent () (((readRecords s).out.map fun r => (r.level, ())).map fun p => ((p.1 : Int), p.2))).err = none := by
      unfold parseModels at h3
      rw [h1] at h3
      have := parse_prefix rd (fun _ => ()) _ none _ [()] rfl h3
      rw [List.map_map]
      exact this
    have hsteps : Props.ProperLevels ((parseModels rd (readRecords s)).out.mapIdx fun i m => (m.record.level, i, m)) := by
      cases hm : (parseModels rd (readRecords s)).out with
      | nil => trivial
      | cons m ms =>
        rw [hm] at hrec
        rw [← hrec] at hp h2
        have h0 : m.record.level = 0 := h2 _ rfl
        rw [List.mapIdx_cons]
        refine ⟨fun p _ => by simp only [h0]; exact Nat.zero_le _, ?_⟩
        have := (Props.C08_prefix_event_fails_iff () m.record.level () (ms.map fun m => (m.record.level, ()))
          (fun p _ => by simp only [h0]; exact Nat.zero_le _)).1.1 (by
            rw [← hp]; congr 2; simp [lv])
        have key : ∀ (ms : List (PModel Fields)) (F : Nat → PModel Fields → Nat × PModel Fields) (l : Nat),
            StepsOk l (ms.map fun m => (m.record.level, ())) → StepsOk l (ms.mapIdx fun i m => (m.record.level, F i m)) := by
          intro ms
          induction ms with
          | nil => intro F l _; trivial
          | cons m ms ih =>
            intro F l h
            rw [List.mapIdx_cons]
            exact ⟨h.1, ih (fun i m => F (i + 1) m) _ h.2⟩
        exact key ms (fun i m => (i + 1, m)) _ this
    obtain ⟨es, g1, g2, g3⟩ := Props.C08_prefix_event_nested (0, ⟨⟨0, 0, 0, [], 0⟩, "", [], none⟩) _ hsteps
    obtain ⟨f, rfl⟩ := (wellNested_iff_forest es).1 g2
    refine ⟨f, ?_⟩
    rw [startDepths_eventsOf] at g3
    rw [g3]
    have hb : Props.baseLevel ((parseModels rd (readRecords s)).out.mapIdx fun i m => (m.record.level, i, m)) = 0 := by
      cases hm : (parseModels rd (readRecords s)).out with
      | nil => rfl
      | cons m ms =>
        rw [hm] at hrec
        rw [← hrec] at h2
        rw [List.mapIdx_cons]
        exact h2 _ rfl
    rw [hb]
    simp
  exact ⟨f, h1, h2, by rw [e]; exact h3, by rw [startDepths_eventsOf, hf, e]⟩

theorem streamTree_unique {rd : ModelReader Fields} {s : Bytes} {f g : Forest (Nat × PModel Fields)}
    (h1 : StreamTree rd s f) (h2 : StreamTree rd s g) : f = g :=
  depthsOf_inj f g 0 (by rw [streamTree_depths h1, streamTree_depths h2])

end Hwp
