/- Proofs: which items come out of the passes, whatever the input is. -/
import Verif.Spec.Document
import Verif.Proofs.Texts
set_option linter.unusedSimpArgs false
set_option linter.unusedVariables false
namespace Hwp
open Spec

/-- All items of the events. -/
def AllIn {α} (P : α → Prop) (es : List (Ev α)) : Prop := ∀ e ∈ es, P e.item

theorem allIn_nil {α} (P : α → Prop) : AllIn P [] := by simp [AllIn]
theorem allIn_cons {α} {P : α → Prop} {e : Ev α} {es} : AllIn P (e :: es) ↔ P e.item ∧ AllIn P es := by simp [AllIn]
theorem allIn_append {α} {P : α → Prop} {es fs : List (Ev α)} : AllIn P (es ++ fs) ↔ AllIn P es ∧ AllIn P fs := by
  simp only [AllIn, List.mem_append]
  exact ⟨fun h => ⟨fun e he => h e (.inl he), fun e he => h e (.inr he)⟩, fun h e he => he.elim (h.1 e) (h.2 e)⟩

theorem prepend_out {α} (as : List α) (g : Gen α) : (Gen.prepend as g).out = as ++ g.out := rfl
theorem cons_out {α} (a : α) (g : Gen α) : (Gen.cons a g).out = a :: g.out := rfl
theorem raise_out {α} (e : PyErr) : (Gen.raise e : Gen α).out = [] := rfl
theorem ofList_out {α} (l : List α) : (Gen.ofList l : Gen α).out = l := rfl

theorem andThen_allIn {α} {P : α → Prop} {a b : Gen (Ev α)} (ha : AllIn P a.out) (hb : AllIn P b.out) :
    AllIn P (a.andThen b).out := by
  unfold Gen.andThen
  cases a.err with
  | some e => exact ha
  | none => exact allIn_append.2 ⟨ha, hb⟩

theorem chain_allIn {α} {P : α → Prop} : ∀ {gs : List (Gen (Ev α))}, (∀ g ∈ gs, AllIn P g.out) → AllIn P (Gen.chain gs).out
  | [], _ => allIn_nil _
  | g :: gs, h => by
    unfold Gen.chain
    cases g.err with
    | some e => exact h g (by simp)
    | none => exact allIn_append.2 ⟨h g (by simp), chain_allIn fun g' hg => h g' (by simp [hg])⟩

theorem wrap_allIn {α} {P : α → Prop} {w : α} {g : Gen (Ev α)} (hw : P w) (hg : AllIn P g.out) :
    AllIn P (wrapModelevents w g).out := by
  unfold wrapModelevents
  rw [cons_out, allIn_cons]
  exact ⟨hw, andThen_allIn hg (by rw [ofList_out, allIn_cons]; exact ⟨hw, allIn_nil _⟩)⟩

/-! ### Texts -/

theorem shapeLoop_shape {α σ : Type} (ss se : Nat) (shape : σ) (err : Option PyErr) (cur : RChunk α)
    (rest : List (RChunk α)) : ∀ p ∈ (shapeLoop ss se shape err cur rest).1, p.attr.1 = shape := by
  fun_induction shapeLoop ss se shape err cur rest <;> intro p hp <;> simp only [List.mem_cons, List.not_mem_nil, or_false] at hp <;>
    first
      | (rcases hp with rfl | hp
         · rfl
         · rename_i ih; exact ih p hp)
      | (subst hp; rfl)
      | (simp_all; done)

theorem shapesLoop_shape {α σ : Type} (err : Option PyErr) (serr : Option PyErr) :
    ∀ (shapes : List ((Nat × Nat) × σ)) (cur : RChunk α) (rest : List (RChunk α)),
    ∀ p ∈ (shapesLoop err cur rest serr shapes).out, p.attr.1 ∈ shapes.map (·.2)
  | [], cur, rest => by simp [shapesLoop]
  | ((ss, se), shape) :: shapes, cur, rest => by
    intro p hp
    have h1 := shapeLoop_shape ss se shape err cur rest
    unfold shapesLoop at hp
    cases hs : shapeLoop ss se shape err cur rest with
    | mk out en =>
      rw [hs] at hp h1
      cases en with
      | ret => simp only at hp; simp [h1 p hp]
      | raised e => simp only at hp; simp [h1 p hp]
      | brk c r =>
        simp only [prepend_out, List.mem_append] at hp
        rcases hp with hp | hp
        · simp [h1 p hp]
        · have := shapesLoop_shape err serr shapes c r p hp
          simp only [List.map_cons, List.mem_cons]
          exact .inr this

theorem splitAndShape_shape {α σ : Type} (chunks : Gen (RChunk α)) (shapes : Gen ((Nat × Nat) × σ)) :
    ∀ p ∈ (splitAndShape chunks shapes).out, p.attr.1 ∈ shapes.out.map (·.2) := by
  unfold splitAndShape
  cases chunks.out with
  | nil => simp
  | cons c rest => exact shapesLoop_shape _ _ _ _ _

theorem rangedGo_snd {σ : Type} : ∀ (l : List (Nat × σ)) (last : Nat × σ),
    (makeRangedShapesGo last l).map (·.2) = (last :: l).map (·.2)
  | [], last => rfl
  | a :: l, last => by simp [makeRangedShapesGo, rangedGo_snd l a]

theorem ranged_snd {σ : Type} (l : List (Nat × σ)) : ∀ x ∈ (makeRangedShapes l).out.map (·.2), x ∈ l.map (·.2) := by
  cases l with
  | nil => simp [makeRangedShapes, Gen.raise]
  | cons a l =>
    intro x hx
    rw [makeRangedShapes, ofList_out, rangedGo_snd] at hx
    exact hx

theorem lineGo_shape {α σ : Type} [DecidableEq σ] (err : Option PyErr) : ∀ (cs : List (RChunk (σ × α))) (prev : σ) (line : List (RChunk α)),
    ∀ l ∈ (lineSegmentedGo err prev line cs).out, l.1 = prev ∨ l.1 ∈ cs.map (·.attr.1)
  | [], prev, line => by
    unfold lineSegmentedGo
    cases err <;> simp [Gen.ofList, Gen.raise]
  | c :: cs, prev, line => by
    intro l hl
    unfold lineSegmentedGo at hl
    split at hl
    · rw [cons_out, List.mem_cons] at hl
      rcases hl with rfl | hl
      · exact .inl rfl
      · rcases lineGo_shape err cs _ _ l hl with h | h
        · simp [h]
        · simp only [List.map_cons, List.mem_cons]; exact .inr (.inr h)
    · rcases lineGo_shape err cs _ _ l hl with h | h
      · exact .inl h
      · simp only [List.map_cons, List.mem_cons]; exact .inr (.inr h)

theorem lines_shape {α σ : Type} [DecidableEq σ] (chunks : Gen (RChunk α)) (shapes : Gen ((Nat × Nat) × σ)) :
    ∀ l ∈ (lineSegmented chunks shapes).out, l.1 ∈ shapes.out.map (·.2) := by
  intro l hl
  have h := splitAndShape_shape chunks shapes
  unfold lineSegmented groupLines at hl
  cases hs : (splitAndShape chunks shapes).out with
  | nil => rw [hs] at hl; simp at hl
  | cons c cs =>
    rw [hs] at hl h
    rcases lineGo_shape _ _ _ _ l hl with e | e
    · rw [e]; exact h c (by simp)
    · obtain ⟨p, hp, e⟩ := List.mem_map.1 e
      rw [← e]; exact h p (by simp [hp])

/-- The line segments of a paragraph are found in a record. -/
def PartsIn (I : List Item) (p : ParaParts) : Prop := ∀ ls t, p.linesegs = some (ls, t) → .paraLineSeg ls t ∈ I

theorem textChunk_in (I : List Item) (c : RChunk (Nat × Unit)) : AllIn (Derived I) (textChunkEvents c).out := by
  unfold textChunkEvents
  cases c.val with
  | text s => simp [AllIn, Gen.ofList, Ev.item, Derived]
  | ctrl d =>
    cases hk : ctrlKind d.code with
    | none => simp [AllIn, Gen.raise, hk]
    | some k => simp [AllIn, Gen.ofList, Ev.item, Derived, hk, kindOf_eq]

theorem paraLineSegs_in (I : List Item) (p : ParaParts) (h : PartsIn I p) :
    ∀ l ∈ (paraLineSegs p.linesegs).map (·.2), Derived I (.lineSeg l) := by
  intro l hl
  unfold paraLineSegs at hl
  cases hp : p.linesegs with
  | none => rw [hp] at hl; simp at hl; subst hl; simp [Derived]
  | some q =>
    obtain ⟨ls, t⟩ := q
    rw [hp] at hl
    simp only [List.mem_map, List.mem_mapIdx] at hl
    obtain ⟨a, ⟨i, hi, rfl⟩, rfl⟩ := hl
    exact ⟨ls, h ls t hp, hi⟩

theorem merge_in (I : List Item) (p : ParaParts) (h : PartsIn I p) : AllIn (Derived I) (mergeParagraph p).out := by
  unfold mergeParagraph
  cases p.charshapes with
  | none => exact allIn_nil _
  | some cs =>
    simp only
    refine andThen_allIn (chain_allIn ?_) (allIn_nil _)
    intro g hg
    obtain ⟨l, hl, rfl⟩ := List.mem_map.1 hg
    refine wrap_allIn ?_ (chain_allIn ?_)
    · exact paraLineSegs_in I p h _ (ranged_snd _ _ (lines_shape _ _ l hl))
    · intro g hg
      obtain ⟨c, -, rfl⟩ := List.mem_map.1 hg
      exact textChunk_in I c

/-- Input items of the passes are records. -/
def Rec (I : List Item) (a : Item) : Prop := a ∈ I ∧ madeByPasses a = false

theorem makeTexts_in (I : List Item) (err : Option PyErr) : ∀ (es : List IEv) (stack : List ParaParts),
    AllIn (Rec I) es → (∀ p ∈ stack, PartsIn I p) → AllIn (Derived I) (makeTextsGo err stack es).out := by
  intro es
  induction es with
  | nil => intro stack _ _; simp [makeTextsGo, allIn_nil]
  | cons e es ih =>
    intro stack h hs
    rw [allIn_cons] at h
    obtain ⟨hr, h⟩ := h
    have hdef : ∀ (a : Item), Rec I a → isTextRecord a = false → Derived I a := by
      rintro a ⟨h1, h2⟩ h3
      cases a <;> simp_all [madeByPasses, isTextRecord, Derived]
      · exact ⟨_, h1⟩
      · exact ⟨_, h1⟩
    cases e with
    | start a =>
      cases a
      case paragraph n t =>
        rw [makeTextsGo, cons_out, allIn_cons]
        exact ⟨hr.1, ih _ h (by intro p hp; rcases List.mem_cons.1 hp with rfl | hp
                                · intro ls t e; simp at e
                                · exact hs p hp)⟩
      case paraText cs t =>
        cases stack with
        | nil => simp [makeTextsGo, raise_out, allIn_nil]
        | cons p st =>
          rw [makeTextsGo]
          exact ih _ h (by intro q hq; rcases List.mem_cons.1 hq with rfl | hq
                           · intro ls t e; exact hs p (by simp) ls t e
                           · exact hs q (by simp [hq]))
      case paraCharShape cs t =>
        cases stack with
        | nil => simp [makeTextsGo, raise_out, allIn_nil]
        | cons p st =>
          rw [makeTextsGo]
          exact ih _ h (by intro q hq; rcases List.mem_cons.1 hq with rfl | hq
                           · intro ls t e; exact hs p (by simp) ls t e
                           · exact hs q (by simp [hq]))
      case paraLineSeg l t =>
        cases stack with
        | nil => simp [makeTextsGo, raise_out, allIn_nil]
        | cons p st =>
          rw [makeTextsGo]
          exact ih _ h (by intro q hq; rcases List.mem_cons.1 hq with rfl | hq
                           · intro ls t' e
                             simp only [Option.some.injEq, Prod.mk.injEq] at e
                             obtain ⟨rfl, rfl⟩ := e
                             exact hr.1
                           · exact hs q (by simp [hq]))
      case paraRangeTag t =>
        cases stack with
        | nil => simp [makeTextsGo, raise_out, allIn_nil]
        | cons p st => rw [makeTextsGo]; exact ih _ h hs
      all_goals
        rw [makeTextsGo_other_start _ _ _ _ rfl rfl]
        rw [cons_out, allIn_cons]
        exact ⟨hdef _ hr rfl, ih _ h hs⟩
    | stop a =>
      cases a
      case paragraph n t =>
        cases stack with
        | nil => simp [makeTextsGo, raise_out, allIn_nil]
        | cons p st =>
          rw [makeTextsGo]
          refine andThen_allIn (merge_in I p (hs p (by simp))) ?_
          rw [cons_out, allIn_cons]
          exact ⟨hr.1, ih _ h (fun q hq => hs q (by simp [hq]))⟩
      case paraText cs t => rw [makeTextsGo]; exact ih _ h hs
      case paraCharShape cs t => rw [makeTextsGo]; exact ih _ h hs
      case paraLineSeg cs t => rw [makeTextsGo]; exact ih _ h hs
      case paraRangeTag t => rw [makeTextsGo]; exact ih _ h hs
      all_goals
        rw [makeTextsGo_other_stop _ _ _ _ rfl rfl]
        rw [cons_out, allIn_cons]
        exact ⟨hdef _ hr rfl, ih _ h hs⟩

/-! ### Trees and the other passes -/

theorem tree_snoc {α} : ∀ (f : Forest α) (a : α) (cs : Forest α),
    treeEventsMulti (f.snoc a cs) = treeEventsMulti f ++ (.start a :: (treeEventsMulti cs ++ [.stop a]))
  | .nil, a, cs => by simp [Forest.snoc, treeEventsMulti]
  | .node x ys sibs, a, cs => by simp [Forest.snoc, treeEventsMulti, tree_snoc sibs a cs]

theorem buildSubtree_in {α} {P : α → Prop} (n : Nat) : ∀ (es : List (Ev α)) (childs : Forest α) a cs rest,
    es.length = n → (buildSubtreeGo es childs).1 = (some (a, cs), rest) → AllIn P es → AllIn P (treeEventsMulti childs) →
    P a ∧ AllIn P (treeEventsMulti cs) ∧ AllIn P rest := by
  induction n using Nat.strongRecOn with
  | ind n ih =>
    intro es childs a cs rest hn h hp hc
    match es, hn with
    | [], _ => rw [buildSubtreeGo] at h; simp at h
    | .stop b :: es, hn =>
      rw [buildSubtreeGo] at h; simp at h
      obtain ⟨⟨rfl, rfl⟩, rfl⟩ := h
      rw [allIn_cons] at hp
      exact ⟨hp.1, hc, hp.2⟩
    | .start b :: es, hn =>
      rw [buildSubtreeGo] at h
      simp only [List.length_cons] at hn
      rw [allIn_cons] at hp
      split at h
      · simp at h
      · rename_i a' cs' es' hlt heq
        have h1 := ih es.length (by omega) es .nil a' cs' es' rfl (by rw [heq]) hp.2 (allIn_nil _)
        split at h
        rename_i r hr heq2
        simp at h
        have h0 := buildSubtreeGo_size _ es .nil a' cs' es' rfl (by rw [heq])
        have hl : es'.length < n := by simp [Forest.size] at h0; omega
        refine ih es'.length hl es' (childs.snoc a' cs') a cs rest rfl (by rw [heq2]; exact h) h1.2.2 ?_
        rw [tree_snoc, allIn_append, allIn_cons, allIn_append, allIn_cons]
        exact ⟨hc, h1.1, h1.2.1, h1.1, allIn_nil _⟩

theorem buildSubtree_all {α} {P : α → Prop} {es : List (Ev α)} {a cs rest} (h : buildSubtree es = (some (a, cs), rest))
    (hp : AllIn P es) : P a ∧ AllIn P (treeEventsMulti cs) ∧ AllIn P rest :=
  buildSubtree_in es.length es .nil a cs rest rfl h hp (allIn_nil _)

def StackIn (P : Item → Prop) (st : CtlStack) : Prop :=
  ∀ q ∈ st, ∀ l, q = some l → ∀ p ∈ l, P p.1 ∧ AllIn P (treeEventsMulti p.2)

theorem inline_in {P : Item → Prop} (err : Option PyErr) (st : CtlStack) (es : List IEv)
    (h : AllIn P es) (hs : StackIn P st) : AllIn P (inlineGo err st es).out := by
  fun_induction inlineGo err st es
  all_goals try simp only [allIn_cons] at h
  all_goals try simp only [cons_out, prepend_out, raise_out, allIn_cons, allIn_append, allIn_nil, and_true, true_and]
  case case2 ih => exact ⟨h.1, ih h.2 (by
    intro q hq l e; rcases List.mem_cons.1 hq with rfl | hq
    · simp at e
    · exact hs q hq l e)⟩
  case case3 => exact h.1
  case case4 ih => exact ⟨h.1, ih h.2 fun q hq => hs q (by simp [hq])⟩
  case case8 c cs q st ih =>
    have h1 := hs _ (List.mem_cons_self) _ rfl
    have h2 := h1 (c, cs) (by simp)
    refine ⟨h2.1, ih ?_ ?_⟩
    · rw [allIn_append, allIn_cons]; exact ⟨h2.2, h2.1, h.2⟩
    · intro q' hq l e
      rcases List.mem_cons.1 hq with rfl | hq
      · simp only [Option.some.injEq] at e; subst e; exact fun p hp => h1 p (by simp [hp])
      · exact hs q' (by simp [hq]) l e
  case case9 ih => exact ⟨⟨h.1, h.1⟩, ih h.2 hs⟩
  case case10 ih => exact ih h.2 hs
  case case15 hb _ _ ih =>
    have h1 := buildSubtree_all hb h.2
    refine ih h1.2.2 ?_
    intro q' hq l e
    rcases List.mem_cons.1 hq with rfl | hq
    · simp only [Option.some.injEq] at e; subst e
      intro p hp
      rcases List.mem_append.1 hp with hp | hp
      · rename_i q _ _
        cases q with
        | none => simp at hp
        | some l => exact hs _ (List.mem_cons_self) l rfl p hp
      · simp only [List.mem_singleton] at hp; subst hp; exact ⟨h1.1, h1.2.1⟩
    · exact hs q' (by simp [hq]) l e
  case case16 ih => exact ⟨h.1, ih h.2 hs⟩
  case case17 ih => exact ⟨h.1, ih h.2 hs⟩

theorem matchFields_in {P : Item → Prop} (err : Option PyErr) : ∀ (es : List IEv) (st : List Item),
    AllIn P es → (∀ a ∈ st, P a) → AllIn P (matchFieldsGo err st es).out
  | [], st, _, _ => by simp [matchFieldsGo, allIn_nil]
  | .start a :: es, st, h, hs => by
    rw [allIn_cons] at h
    unfold matchFieldsGo
    have h0 := matchFields_in err es st h.2 hs
    split
    · rw [cons_out, allIn_cons]
      refine ⟨h.1, matchFields_in err es _ h.2 ?_⟩
      intro b hb
      rcases List.mem_cons.1 hb with rfl | hb
      · exact h.1
      · exact hs b hb
    · split
      · rw [cons_out, prepend_out, allIn_cons, allIn_append]
        refine ⟨h.1, ?_, h0⟩
        intro e he
        obtain ⟨b, hb, rfl⟩ := List.mem_map.1 he
        exact hs b (List.mem_reverse.1 hb)
      · split
        · exact h0
        · rw [cons_out, allIn_cons]; exact ⟨h.1, h0⟩
  | .stop a :: es, st, h, hs => by
    rw [allIn_cons] at h
    unfold matchFieldsGo
    have h0 := matchFields_in err es st h.2 hs
    split
    · exact h0
    · split
      · rw [prepend_out, cons_out, allIn_append, allIn_cons]
        refine ⟨?_, h.1, h0⟩
        intro e he
        obtain ⟨b, hb, rfl⟩ := List.mem_map.1 he
        exact hs b hb
      · split
        · cases st with
          | nil => exact h0
          | cons f st =>
            simp only [cons_out, allIn_cons]
            exact ⟨hs f (by simp), matchFields_in err es st h.2 fun b hb => hs b (by simp [hb])⟩
        · rw [cons_out, allIn_cons]; exact ⟨h.1, h0⟩

theorem listHeader_in {P : Item → Prop} (isParent isChild : Item → Bool) (err : Option PyErr) :
    ∀ (es : List IEv) (st : List (Int × Item)) (lv : Int),
    AllIn P es → (∀ a ∈ st, P a.2) → AllIn P (listHeaderGo isParent isChild err st lv es).out
  | [], st, lv, _, _ => by simp [listHeaderGo, allIn_nil]
  | .start a :: es, st, lv, h, hs => by
    rw [allIn_cons] at h
    have key : ∀ (cl : List IEv) (st' : List (Int × Item)), AllIn P cl → (∀ a ∈ st', P a.2) →
        AllIn P (Gen.prepend cl (.cons (.start a) (listHeaderGo isParent isChild err
          (if isParent a then (lv + 1, a) :: st' else st') (lv + 1) es))).out := by
      intro cl st' hcl hst
      rw [prepend_out, cons_out, allIn_append, allIn_cons]
      refine ⟨hcl, h.1, listHeader_in isParent isChild err es _ _ h.2 ?_⟩
      split
      · intro b hb
        rcases List.mem_cons.1 hb with rfl | hb
        · exact h.1
        · exact hst b hb
      · exact hst
    unfold listHeaderGo
    cases st with
    | nil => exact key [] [] (allIn_nil _) (by simp)
    | cons x st =>
      obtain ⟨l, lh⟩ := x
      simp only
      split
      · exact key _ _ (allIn_cons.2 ⟨hs (l, lh) (by simp), allIn_nil _⟩) (fun b hb => hs b (by simp [hb]))
      · exact key _ _ (allIn_nil _) hs
  | .stop a :: es, st, lv, h, hs => by
    rw [allIn_cons] at h
    have key : ∀ (cl : List IEv) (st' : List (Int × Item)), AllIn P cl → (∀ a ∈ st', P a.2) →
        AllIn P (Gen.prepend cl (if isParent a then listHeaderGo isParent isChild err st' (lv - 1) es
          else .cons (.stop a) (listHeaderGo isParent isChild err st' (lv - 1) es))).out := by
      intro cl st' hcl hst
      rw [prepend_out, allIn_append]
      refine ⟨hcl, ?_⟩
      have h0 := listHeader_in isParent isChild err es st' (lv - 1) h.2 hst
      split
      · exact h0
      · rw [cons_out, allIn_cons]; exact ⟨h.1, h0⟩
    unfold listHeaderGo
    cases st with
    | nil => exact key [] [] (allIn_nil _) (by simp)
    | cons x st =>
      obtain ⟨l, lh⟩ := x
      simp only
      split
      · exact key _ _ (allIn_cons.2 ⟨hs (l, lh) (by simp), allIn_nil _⟩) (fun b hb => hs b (by simp [hb]))
      · exact key _ _ (allIn_nil _) hs

theorem tableBody_in {P : Item → Prop} (hrow : P .tableRow) (hbody : ∀ r t, P (.tableBody r t) → P (.tableBody none t))
    (err : Option PyErr) (st : List (List RowMark)) (es : List IEv) (h : AllIn P es) :
    AllIn P (tableBodyGo err st es).out := by
  fun_induction tableBodyGo err st es
  all_goals try simp only [allIn_cons] at h
  all_goals try simp only [cons_out, prepend_out, raise_out, allIn_cons, allIn_append, allIn_nil, and_true, true_and]
  case case3 ih => exact ⟨hbody _ _ h.1, ih h.2⟩
  case case4 => exact hbody _ _ h.1
  case case5 ih => exact ⟨hbody _ _ h.1, ih h.2⟩
  case case8 ih =>
    refine ⟨?_, h.1, ih h.2⟩
    split
    · exact allIn_cons.2 ⟨hrow, allIn_nil _⟩
    · exact allIn_nil _
  case case10 => exact h.1
  case case11 ih =>
    refine ⟨h.1, ?_, ih h.2⟩
    split
    · exact allIn_cons.2 ⟨hrow, allIn_nil _⟩
    · exact allIn_nil _
  case case12 ih => exact ⟨h.1, ih h.2⟩

theorem tokenize_in {P : Item → Prop} (htext : ∀ s n l, P (.text s n l)) (err : Option PyErr) (es : List IEv) (h : AllIn P es) :
    AllIn P (tokenizeTextGo err es).out := by
  fun_induction tokenizeTextGo err es
  all_goals try simp only [allIn_cons] at h
  all_goals try simp only [cons_out, prepend_out, raise_out, allIn_cons, allIn_append, allIn_nil, and_true, true_and]
  case case2 ih =>
    refine ⟨?_, ih h.2⟩
    intro e he
    simp only [List.mem_flatten, List.mem_map] at he
    obtain ⟨_, ⟨t, _, rfl⟩, he⟩ := he
    simp only [List.mem_cons, List.not_mem_nil, or_false] at he
    rcases he with rfl | rfl <;> exact htext _ _ _
  case case3 ih => exact ih h.2
  case case4 ih => exact ⟨h.1, ih h.2⟩

/-- The item, if there is one. -/
def OptP {α} (P : α → Prop) (o : Option α) : Prop := ∀ a, o = some a → P a

theorem allIn_some {α} {P : α → Prop} {es : List (Ev α)} (h : AllIn P es) : AllIn (OptP P) (es.map Ev.some) := by
  intro e he
  obtain ⟨e', he', rfl⟩ := List.mem_map.1 he
  have := h e' he'
  cases e' <;> (intro a ha; simp only [Ev.some, Ev.item, Option.some.injEq] at ha; subst ha; exact this)

theorem wrapSection_in {P : Item → Prop} (hsec : ∀ i j t, P (.sectionDef i t) → P (.sectionDef j t)) (sid : Option Nat)
    (err : Option PyErr) : ∀ (es buf : List IEv), AllIn P es → AllIn P buf →
    AllIn (OptP P) (wrapSectionGo sid err buf es).out
  | [], buf, _, _ => by
    unfold wrapSectionGo
    cases err with
    | some e => simp [raise_out, allIn_nil]
    | none => simp [ofList_out, AllIn, OptP, Ev.item]
  | .start a :: es, buf, h, hb => by
    rw [allIn_cons] at h
    unfold wrapSectionGo
    split
    · cases hB : buildSubtree es with
      | mk o rest =>
        cases o with
        | none => simp [raise_out, allIn_nil]
        | some q =>
          obtain ⟨c, cs⟩ := q
          have h1 := buildSubtree_all hB h.2
          have hc : P (setSectId sid c) := by
            cases c <;> first | exact h1.1 | exact hsec _ _ _ h1.1
          simp only [prepend_out, allIn_append]
          refine ⟨allIn_some ?_, ?_⟩
          · rw [allIn_cons, allIn_append, allIn_append]
            exact ⟨hc, ⟨h1.2.1, hb⟩, h1.2.2⟩
          · cases err with
            | some e => simp [raise_out, allIn_nil]
            | none =>
              simp only [ofList_out, allIn_cons]
              refine ⟨?_, allIn_nil _⟩
              intro a ha
              simp only [Ev.item, Option.some.injEq] at ha
              exact ha ▸ hc
    · exact wrapSection_in hsec sid err es _ h.2 (allIn_append.2 ⟨hb, allIn_cons.2 ⟨h.1, allIn_nil _⟩⟩)
  | .stop a :: es, buf, h, hb => by
    rw [allIn_cons] at h
    unfold wrapSectionGo
    exact wrapSection_in hsec sid err es _ h.2 (allIn_append.2 ⟨hb, allIn_cons.2 ⟨h.1, allIn_nil _⟩⟩)

theorem wrapColumns_in {P : Item → Prop} (hcol : P .columnSet) (err : Option PyErr) (st : List Item)
    (es : List (Ev (Option Item))) (h : AllIn (OptP P) es) : AllIn P (wrapColumnsGo err st es).out := by
  fun_induction wrapColumnsGo err st es
  all_goals try simp only [allIn_cons] at h
  all_goals try simp only [cons_out, prepend_out, raise_out, allIn_cons, allIn_append, allIn_nil, and_true, true_and]
  all_goals first
    | exact ⟨⟨hcol, hcol, h.1 _ rfl⟩, ‹_ → _› h.2⟩
    | exact ⟨⟨hcol, h.1 _ rfl⟩, ‹_ → _› h.2⟩
    | exact ⟨h.1 _ rfl, ‹_ → _› h.2⟩
    | exact hcol

/-- Whatever a section is, every item of its events is derived from its records. -/
theorem section_in (I : List Item) (sid : Option Nat) (g : Gen IEv) (h : AllIn (Rec I) g.out) :
    AllIn (Derived I) (sectionEvents sid g).out := by
  unfold sectionEvents
  refine wrapColumns_in trivial _ _ _ ?_
  refine wrapSection_in (fun i j t h => h) _ _ _ _ ?_ (allIn_nil _)
  refine tokenize_in (fun _ _ _ => trivial) _ _ ?_
  refine tableBody_in trivial (fun _ _ h => h) _ _ _ ?_
  refine listHeader_in _ _ _ _ _ _ ?_ (by simp)
  refine listHeader_in _ _ _ _ _ _ ?_ (by simp)
  refine matchFields_in _ _ _ ?_ (by simp)
  refine inline_in _ _ _ ?_ (by simp [StackIn])
  exact makeTexts_in I _ _ _ h (by simp)

end Hwp
