import Verif.Spec.Inline
import Verif.Proofs.Restructure
namespace Hwp
open Spec
set_option linter.unusedSimpArgs false

theorem inlineGo_nil (err : Option PyErr) (st : CtlStack) : inlineGo err st [] = ⟨[], err⟩ := by
  rw [inlineGo]

theorem inlineGo_start_para (err : Option PyErr) (st : CtlStack) (a : Item) (h : a.isParagraph) (es : List IEv) :
    inlineGo err st (.start a :: es) = .cons (.start a) (inlineGo err (none :: st) es) := by
  cases a <;> simp [Item.isParagraph] at h
  rw [inlineGo]

theorem inlineGo_stop_para (err : Option PyErr) (q) (st : CtlStack) (a : Item) (h : a.isParagraph) (es : List IEv) :
    inlineGo err (q :: st) (.stop a :: es) = .cons (.stop a) (inlineGo err st es) := by
  cases a <;> simp [Item.isParagraph] at h
  rw [inlineGo]

theorem inlineGo_start_other (err : Option PyErr) (st : CtlStack) (a : Item) (es : List IEv)
    (h1 : a.isParagraph = false) (h2 : a.isControlChar = false) (h3 : a.isControl = false) :
    inlineGo err st (.start a :: es) = .cons (.start a) (inlineGo err st es) := by
  cases a <;> simp [Item.isParagraph, Item.isControlChar, Item.isControl] at h1 h2 h3 <;>
    (rw [inlineGo.eq_def]; simp [Item.isControl])

theorem inlineGo_stop_other (err : Option PyErr) (st : CtlStack) (a : Item) (es : List IEv)
    (h1 : a.isParagraph = false) (h2 : a.isControlChar = false) :
    inlineGo err st (.stop a :: es) = .cons (.stop a) (inlineGo err st es) := by
  cases a <;> simp [Item.isParagraph, Item.isControlChar] at h1 h2 <;> (rw [inlineGo] <;> simp)

theorem inlineGo_control (err : Option PyErr) (q) (st : CtlStack) (a : Item) (cs : Forest Item) (rest : List IEv)
    (h : a.isControl) :
    inlineGo err (q :: st) (.start a :: (eventsOf cs ++ .stop a :: rest)) =
      inlineGo err (some (q.getD [] ++ [(a, cs)]) :: st) rest := by
  have hb : buildSubtree (eventsOf cs ++ .stop a :: rest) = (some (a, cs), rest) := by
    simp [buildSubtree, buildSubtreeGo_forest, Forest.append]
  cases a <;> simp [Item.isControl] at h <;>
    (rw [inlineGo] <;> simp only [Item.isControl, if_true, reduceCtorEq, imp_self, implies_true, not_false_iff]) <;>
    (split <;> rename_i heq <;> rw [hb] at heq <;> simp at heq <;> obtain ⟨⟨rfl, rfl⟩, rfl⟩ := heq <;> rfl)

theorem inlineGo_anchor (err : Option PyErr) (c k q) (st : CtlStack) (a : Item) (es : List IEv) (h : isAnchor a) :
    inlineGo err (some ((c, k) :: q) :: st) (.start a :: es) =
      .cons (.start c) (inlineGo err (some q :: st) (eventsOf k ++ .stop c :: es)) := by
  cases a <;> simp [isAnchor] at h
  rename_i code kind shape
  cases kind <;> simp at h
  rw [inlineGo]
  simp [treeEventsMulti_eq]

theorem inlineGo_cc (err : Option PyErr) (st : CtlStack) (a : Item) (es : List IEv) (h : a.isControlChar)
    (h' : isAnchor a = false) :
    inlineGo err st (.start a :: es) = .prepend [.start a, .stop a] (inlineGo err st es) := by
  cases a <;> simp [Item.isControlChar] at h
  rename_i code kind shape
  have hk : kind ≠ .extended := by rintro rfl; simp [isAnchor] at h'
  rw [inlineGo.eq_def]
  simp [hk]

theorem inlineGo_stop_cc (err : Option PyErr) (st : CtlStack) (a : Item) (es : List IEv) (h : a.isControlChar) :
    inlineGo err st (.stop a :: es) = inlineGo err st es := by
  cases a <;> simp [Item.isControlChar] at h
  rw [inlineGo]

/-- A stored control is inlined as `inlined` says. -/
def GoodTree (t : Item × Forest Item) : Prop :=
  t.1.isControl ∧ ∀ err st rest, inlineGo err st (eventsOf t.2 ++ rest) =
    .prepend (eventsOf (inlined t.2)) (inlineGo err st rest)

/-- Controls with inlined contents. -/
def inl (q : List (Item × Forest Item)) : List (Item × Forest Item) := q.map fun t => (t.1, inlined t.2)

theorem placeIn_rest (f : Forest Item) : ∀ q, lineAnchors f ≤ q.length →
    (placeIn q f).2 = q.drop (lineAnchors f) := by
  induction f with
  | nil => intro q _; simp [placeIn, lineAnchors]
  | node a cs sibs _ ih =>
    intro q h
    simp only [lineAnchors] at h ⊢
    by_cases ha : isAnchor a
    · simp only [ha, if_true] at h ⊢
      cases q with
      | nil => simp at h
      | cons t q =>
        obtain ⟨c, k⟩ := t
        simp only [List.length_cons] at h
        simp only [placeIn, ha]
        rw [ih q (by omega), show 1 + lineAnchors sibs = lineAnchors sibs + 1 by omega]
        rfl
    · simp only [ha, if_false, Bool.false_eq_true, Nat.zero_add] at h ⊢
      cases q with
      | nil => simp only [placeIn, ha]; exact ih [] (by simpa using h)
      | cons t q => simp only [placeIn, ha]; exact ih _ h

theorem Item.control_ne {a : Item} (h : a.isControl) :
    a.isParagraph = false ∧ a.isControlChar = false ∧ a.isLineSeg = false ∧ isAnchor a = false := by
  cases a <;> simp_all [Item.isControl, Item.isParagraph, Item.isControlChar, Item.isLineSeg, isAnchor]

theorem Item.text_ne {a : Item} (h : a.isText) :
    a.isParagraph = false ∧ a.isControlChar = false ∧ a.isControl = false ∧ isAnchor a = false := by
  cases a <;> simp_all [Item.isText, Item.isParagraph, Item.isControlChar, Item.isControl, isAnchor]

theorem Item.lineSeg_ne2 {a : Item} (h : a.isLineSeg) :
    a.isParagraph = false ∧ a.isControlChar = false ∧ a.isControl = false := by
  cases a <;> simp_all [Item.isLineSeg, Item.isParagraph, Item.isControlChar, Item.isControl]

theorem placeIn_anchor (a cs sibs c k q) (h : isAnchor a = true) :
    placeIn ((c, k) :: q) (.node a cs sibs) = (.node c k (placeIn q sibs).1, (placeIn q sibs).2) := by
  simp [placeIn, h]

theorem placeIn_other (a cs sibs q) (h : isAnchor a = false) :
    placeIn q (.node a cs sibs) = (.node a cs (placeIn q sibs).1, (placeIn q sibs).2) := by
  cases q <;> simp [placeIn, h]

theorem inline_line (err : Option PyErr) (st : CtlStack) (f : Forest Item) : PlainLine f →
    ∀ (q : Option (List (Item × Forest Item))) (rest : List IEv), (∀ t ∈ q.getD [], GoodTree t) →
    lineAnchors f ≤ (q.getD []).length →
    ∃ q' : Option (List (Item × Forest Item)), q'.getD [] = (q.getD []).drop (lineAnchors f) ∧
      inlineGo err (q :: st) (eventsOf f ++ rest) =
        .prepend (eventsOf (placeIn (inl (q.getD [])) f).1) (inlineGo err (q' :: st) rest) := by
  induction f with
  | nil => intro _ q rest _ _; exact ⟨q, by simp [lineAnchors], by simp [eventsOf, placeIn, Gen.prepend_nil]⟩
  | node a cs sibs _ ih =>
    rintro ⟨hk, rfl, hpl⟩ q rest hg hlen
    simp only [lineAnchors] at hlen ⊢
    have ih := ih hpl
    by_cases ha : isAnchor a
    · simp only [ha, if_true] at hlen ⊢
      have hcc : a.isControlChar := by
        cases a <;> simp_all [isAnchor, Item.isControlChar]
      cases q with
      | none => simp at hlen
      | some q =>
        cases q with
        | nil => simp at hlen
        | cons t q =>
          obtain ⟨c, k⟩ := t
          have hgt := hg (c, k) (by simp)
          simp only [Option.getD_some, List.length_cons] at hlen
          obtain ⟨q', e1, e2⟩ := ih (some q) rest (fun t ht => hg t (by simp at ht ⊢; exact Or.inr ht)) (by simp; omega)
          refine ⟨q', ?_, ?_⟩
          · rw [e1, show 1 + lineAnchors sibs = lineAnchors sibs + 1 by omega]; rfl
          · have hcn := Item.control_ne hgt.1
            simp only [eventsOf, List.cons_append, List.nil_append]
            rw [inlineGo_anchor _ _ _ _ _ _ _ ha, hgt.2, inlineGo_stop_other _ _ _ _ hcn.1 hcn.2.1,
              inlineGo_stop_cc _ _ _ _ hcc, e2]
            simp only [Option.getD_some, inl, List.map_cons]
            rw [placeIn_anchor _ _ _ _ _ _ ha]
            simp [eventsOf, Gen.cons_eq_prepend, Gen.prepend_prepend]
    · simp only [ha, if_false, Bool.false_eq_true, Nat.zero_add] at hlen ⊢
      simp only [Bool.not_eq_true] at ha
      obtain ⟨q', e1, e2⟩ := ih q rest hg hlen
      refine ⟨q', e1, ?_⟩
      simp only [eventsOf, List.cons_append, List.nil_append]
      rw [placeIn_other _ _ _ _ ha]
      rcases hk with hk | hk
      · have hn := Item.text_ne hk
        rw [inlineGo_start_other _ _ _ _ hn.1 hn.2.1 hn.2.2.1, inlineGo_stop_other _ _ _ _ hn.1 hn.2.1, e2]
        simp [eventsOf, Gen.cons_eq_prepend, Gen.prepend_prepend]
      · rw [inlineGo_cc _ _ _ _ hk ha, inlineGo_stop_cc _ _ _ _ hk, e2]
        simp [eventsOf, Gen.cons_eq_prepend, Gen.prepend_prepend]

theorem plainLine_inlined (f : Forest Item) (h : PlainLine f) : inlined f = f := by
  induction f with
  | nil => rfl
  | node a cs sibs _ ih =>
    obtain ⟨hk, rfl, hp⟩ := h
    have hpar : a.isParagraph = false := by
      rcases hk with hk | hk
      · exact (Item.text_ne hk).1
      · cases a <;> simp_all [Item.isControlChar, Item.isParagraph]
    simp [inlined, hpar, ih hp]

theorem onlyLines_controls (f : Forest Item) (h : ∀ b ∈ f.roots, b.isLineSeg) : topControls f = [] := by
  induction f with
  | nil => rfl
  | node a cs sibs _ ih =>
    have := Item.lineSeg_ne2 (h a (by simp [Forest.roots]))
    simp [topControls, this, ih (fun b hb => h b (by simp [Forest.roots, hb]))]

theorem inl_append (a b : List (Item × Forest Item)) : inl (a ++ b) = inl a ++ inl b := by simp [inl]

theorem topControls_inlined (f : Forest Item) : topControls (inlined f) = inl (topControls f) := by
  induction f with
  | nil => rfl
  | node a cs sibs _ ih =>
    by_cases hp : a.isParagraph
    · have hc : a.isControl = false := by cases a <;> simp_all [Item.isParagraph, Item.isControl]
      simp [inlined, hp, topControls, hc, ih]
    · by_cases hc : a.isControl
      · simp [inlined, hp, topControls, hc, ih, inl]
      · simp [inlined, hp, topControls, hc, ih]

theorem inline_forest (f : Forest Item) :
    (InlineOk false f → ∀ err st rest, inlineGo err st (eventsOf f ++ rest) =
      .prepend (eventsOf (inlined f)) (inlineGo err st rest)) ∧
    (InlineOk true f → ∀ err st q rest, (∀ t ∈ q.getD [], GoodTree t) →
      anchorCount f ≤ (q.getD [] ++ topControls f).length → ∃ q',
      inlineGo err (q :: st) (eventsOf f ++ rest) =
        .prepend (eventsOf (placeLines (inl (q.getD [] ++ topControls f)) (withoutControls (inlined f))).1)
          (inlineGo err (q' :: st) rest)) := by
  induction f with
  | nil =>
    refine ⟨?_, ?_⟩
    · intro _ err st rest; simp [eventsOf, inlined, Gen.prepend_nil]
    · intro _ err st q rest _ _
      exact ⟨q, by simp [eventsOf, inlined, withoutControls, placeLines, Gen.prepend_nil]⟩
  | node a cs sibs ih1 ih2 =>
    have hpara : a.isParagraph → InlineOk true cs → anchorCount cs = (topControls cs).length →
        ∀ err st rest, inlineGo err st (.start a :: (eventsOf cs ++ .stop a :: rest)) =
          .prepend (.start a :: (eventsOf (placeLines (topControls (inlined cs)) (withoutControls (inlined cs))).1
            ++ [.stop a])) (inlineGo err st rest) := by
      intro hp h1 hcnt err st rest
      obtain ⟨q', e⟩ := ih1.2 h1 err st none (.stop a :: rest) (by simp) (by simp; omega)
      rw [inlineGo_start_para _ _ _ hp, e, inlineGo_stop_para _ _ _ _ hp, topControls_inlined]
      simp [Gen.cons_eq_prepend, Gen.prepend_prepend]
    refine ⟨?_, ?_⟩
    · intro h err st rest
      simp only [InlineOk] at h
      split at h
      · rename_i hp
        obtain ⟨h1, hcnt, h2⟩ := h
        simp only [eventsOf, List.cons_append, List.append_assoc, inlined, hp, if_true]
        rw [hpara hp h1 hcnt, ih2.1 h2]
        simp [Gen.prepend_prepend]
      · rename_i hp
        split at h
        · simp at h
        · rename_i hc
          split at h
          · simp at h
          · obtain ⟨hcc, h1, h2⟩ := h
            simp only [Bool.not_eq_true] at hp hc
            simp only [eventsOf, List.cons_append, List.append_assoc, inlined, hp, if_false, Bool.false_eq_true]
            rw [inlineGo_start_other _ _ _ _ hp hcc hc, ih1.1 h1, inlineGo_stop_other _ _ _ _ hp hcc, ih2.1 h2]
            simp [eventsOf, Gen.cons_eq_prepend, Gen.prepend_prepend]
    · intro h err st q rest hg hlen
      simp only [InlineOk] at h
      split at h
      · rename_i hp
        obtain ⟨h1, hcnt, h2⟩ := h
        have hls : a.isLineSeg = false := by cases a <;> simp_all [Item.isParagraph, Item.isLineSeg]
        have hc : a.isControl = false := by cases a <;> simp_all [Item.isParagraph, Item.isControl]
        simp only [anchorCount, hls, topControls, hc, Bool.false_eq_true, if_false, Nat.zero_add] at hlen
        obtain ⟨q', e⟩ := ih2.2 h2 err st q rest hg hlen
        refine ⟨q', ?_⟩
        simp only [eventsOf, List.cons_append, List.append_assoc, inlined, hp, if_true, withoutControls, hc,
          Bool.false_eq_true, if_false, placeLines, hls, topControls]
        rw [hpara hp h1 hcnt, e]
        simp [eventsOf, Gen.prepend_prepend]
      · rename_i hp
        simp only [Bool.not_eq_true] at hp
        split at h
        · rename_i hc
          obtain ⟨-, h1, h2⟩ := h
          have hn := Item.control_ne hc
          have hgood : GoodTree (a, cs) := ⟨hc, ih1.1 h1⟩
          simp only [anchorCount, hn.2.2.1, topControls, hc, if_true, Bool.false_eq_true, if_false,
            Nat.zero_add] at hlen
          obtain ⟨q', e⟩ := ih2.2 h2 err st (some (q.getD [] ++ [(a, cs)])) rest
            (by
              intro t ht
              simp only [Option.getD_some, List.mem_append, List.mem_singleton] at ht
              rcases ht with ht | rfl
              · exact hg t ht
              · exact hgood)
            (by simpa using hlen)
          refine ⟨q', ?_⟩
          simp only [eventsOf, List.cons_append, List.append_assoc]
          rw [inlineGo_control _ _ _ _ _ _ hc, e]
          simp [inlined, hp, withoutControls, hc, topControls]
        · rename_i hc
          simp only [Bool.not_eq_true] at hc
          split at h
          · rename_i hls
            obtain ⟨-, hpl, hol, h2⟩ := h
            have hn := Item.lineSeg_ne2 hls
            have htc := onlyLines_controls sibs hol
            simp only [anchorCount, hls, topControls, hc, if_true, Bool.false_eq_true, if_false, htc,
              List.append_nil] at hlen
            obtain ⟨q1, e1, e2⟩ := inline_line err st cs hpl q (.stop a :: (eventsOf sibs ++ rest)) hg (by omega)
            obtain ⟨q', e⟩ := ih2.2 h2 err st q1 rest
              (by
                intro t ht
                rw [e1] at ht
                exact hg t (List.mem_of_mem_drop ht))
              (by rw [htc, List.append_nil, e1, List.length_drop]; omega)
            refine ⟨q', ?_⟩
            simp only [eventsOf, List.cons_append, List.append_assoc]
            rw [inlineGo_start_other _ _ _ _ hn.1 hn.2.1 hn.2.2, e2, inlineGo_stop_other _ _ _ _ hn.1 hn.2.1, e]
            simp only [inlined, hp, Bool.false_eq_true, if_false, withoutControls, hc, placeLines, hls, if_true,
              topControls, htc, List.append_nil, plainLine_inlined cs hpl]
            rw [placeIn_rest _ _ (by simp [inl]; omega), e1]
            simp [eventsOf, Gen.cons_eq_prepend, Gen.prepend_prepend, inl, List.map_drop]
          · rename_i hls
            simp only [Bool.not_eq_true] at hls
            obtain ⟨hcc, h1, h2⟩ := h
            simp only [anchorCount, hls, topControls, hc, Bool.false_eq_true, if_false, Nat.zero_add] at hlen
            obtain ⟨q', e⟩ := ih2.2 h2 err st q rest hg hlen
            refine ⟨q', ?_⟩
            simp only [eventsOf, List.cons_append, List.append_assoc, inlined, hp, if_false, Bool.false_eq_true,
              withoutControls, hc, placeLines, hls, topControls]
            rw [inlineGo_start_other _ _ _ _ hp hcc hc, ih1.1 h1, inlineGo_stop_other _ _ _ _ hp hcc, e]
            simp [eventsOf, Gen.cons_eq_prepend, Gen.prepend_prepend]

/-! ### Nothing is lost -/

/-- All items of a forest in document order. -/
def Forest.items {α} : Forest α → List α
  | .nil => []
  | .node a cs sibs => a :: (cs.items ++ sibs.items)

theorem starts_eventsOf {α} (f : Forest α) : starts (eventsOf f) = f.items := by
  induction f with
  | nil => rfl
  | node a cs sibs ih1 ih2 => simp [eventsOf, starts, starts_append, Forest.items, ih1, ih2]

def itemsQ (q : List (Item × Forest Item)) : List Item := q.flatMap fun t => t.1 :: t.2.items

/-- Items that are not anchors. -/
def noAnchors (l : List Item) : List Item := l.filter fun a => !isAnchor a

theorem noAnchors_append (a b : List Item) : noAnchors (a ++ b) = noAnchors a ++ noAnchors b := by
  simp [noAnchors]

theorem noAnchors_cons (a : Item) (l : List Item) :
    noAnchors (a :: l) = if isAnchor a then noAnchors l else a :: noAnchors l := by
  cases h : isAnchor a <;> simp [noAnchors, h]

theorem placeIn_perm (f : Forest Item) : ∀ q, PlainLine f → lineAnchors f ≤ q.length →
    ((placeIn q f).1.items ++ itemsQ (placeIn q f).2).Perm (noAnchors f.items ++ itemsQ q) := by
  induction f with
  | nil => intro q _ _; simp [placeIn, Forest.items, noAnchors]
  | node a cs sibs _ ih =>
    rintro q ⟨hk, rfl, hp⟩ hlen
    simp only [lineAnchors] at hlen
    by_cases ha : isAnchor a
    · cases q with
      | nil => simp [ha] at hlen
      | cons t q =>
        obtain ⟨c, k⟩ := t
        simp only [ha, if_true, List.length_cons] at hlen
        rw [placeIn_anchor _ _ _ _ _ _ ha]
        have := ih q hp (by omega)
        simp only [Forest.items, List.nil_append, noAnchors_cons, ha, if_true, itemsQ, List.flatMap_cons,
          List.cons_append, List.append_assoc] at this ⊢
        refine List.Perm.trans ?_ List.perm_middle.symm
        refine List.Perm.cons _ ?_
        refine List.Perm.trans (this.append_left k.items) ?_
        rw [← List.append_assoc, ← List.append_assoc]
        exact List.Perm.append_right _ List.perm_append_comm
    · simp only [Bool.not_eq_true] at ha
      simp only [ha, Bool.false_eq_true, if_false, Nat.zero_add] at hlen
      rw [placeIn_other _ _ _ _ ha]
      have := ih q hp hlen
      simp only [Forest.items, List.nil_append, noAnchors_cons, ha, Bool.false_eq_true, if_false, List.cons_append]
      exact this.cons _

/-- Lines are plain and the other trees have no anchors. -/
def LinesForm : Forest Item → Prop
  | .nil => True
  | .node a cs sibs =>
    (if a.isLineSeg then PlainLine cs else noAnchors cs.items = cs.items ∧ isAnchor a = false) ∧ LinesForm sibs

theorem placeLines_perm (f : Forest Item) : ∀ q, LinesForm f → anchorCount f ≤ q.length →
    ((placeLines q f).1.items ++ itemsQ (placeLines q f).2).Perm (noAnchors f.items ++ itemsQ q) ∧
    (placeLines q f).2 = q.drop (anchorCount f) := by
  induction f with
  | nil => intro q _ _; simp [placeLines, Forest.items, noAnchors, anchorCount]
  | node a cs sibs _ ih =>
    rintro q ⟨hl, hf⟩ hlen
    simp only [anchorCount] at hlen ⊢
    split at hl
    · rename_i hls
      have han : isAnchor a = false := by cases a <;> simp_all [Item.isLineSeg, isAnchor]
      simp only [hls, if_true] at hlen
      simp only [placeLines, hls, if_true]
      have h1 := placeIn_perm cs q hl (by omega)
      have h1' := placeIn_rest cs q (by omega)
      have h2 := ih (placeIn q cs).2 hf (by rw [h1', List.length_drop]; omega)
      constructor
      · simp only [Forest.items, noAnchors_cons, han, Bool.false_eq_true, if_false, noAnchors_append,
          List.cons_append, List.append_assoc]
        refine List.Perm.cons _ ?_
        refine (h2.1.append_left _).trans ?_
        -- P ++ (S ++ Q1) ~ C ++ (S ++ Q) from P ++ Q1 ~ C ++ Q
        have e1 : ((placeIn q cs).1.items ++ (noAnchors sibs.items ++ itemsQ (placeIn q cs).2)).Perm
            (noAnchors sibs.items ++ ((placeIn q cs).1.items ++ itemsQ (placeIn q cs).2)) := by
          rw [← List.append_assoc, ← List.append_assoc]
          exact List.Perm.append_right _ List.perm_append_comm
        have e2 : (noAnchors sibs.items ++ (noAnchors cs.items ++ itemsQ q)).Perm
            (noAnchors cs.items ++ (noAnchors sibs.items ++ itemsQ q)) := by
          rw [← List.append_assoc, ← List.append_assoc]
          exact List.Perm.append_right _ List.perm_append_comm
        exact e1.trans ((h1.append_left _).trans e2)
      · rw [h2.2, h1', List.drop_drop]
    · rename_i hls
      simp only [hls, Bool.false_eq_true, if_false, Nat.zero_add] at hlen
      simp only [placeLines, hls, Bool.false_eq_true, if_false, Nat.zero_add]
      have h2 := ih q hf hlen
      refine ⟨?_, h2.2⟩
      simp only [Forest.items, noAnchors_cons, hl.2, Bool.false_eq_true, if_false, noAnchors_append,
        List.cons_append, List.append_assoc, hl.1]
      exact (h2.1.append_left _).cons _

theorem withoutControls_perm (g : Forest Item) :
    ((withoutControls g).items ++ itemsQ (topControls g)).Perm g.items := by
  induction g with
  | nil => simp [withoutControls, topControls, itemsQ, Forest.items]
  | node a cs sibs _ ih =>
    simp only [withoutControls, topControls]
    split
    · simp only [itemsQ, List.flatMap_cons, List.cons_append, Forest.items] at ih ⊢
      refine List.perm_middle.trans (List.Perm.cons _ ?_)
      have e1 : ((withoutControls sibs).items ++ (cs.items ++ itemsQ (topControls sibs))).Perm
          (cs.items ++ ((withoutControls sibs).items ++ itemsQ (topControls sibs))) := by
        rw [← List.append_assoc, ← List.append_assoc]
        exact List.Perm.append_right _ List.perm_append_comm
      exact e1.trans (ih.append_left _)
    · simp only [Forest.items, List.cons_append, List.append_assoc]
      exact (ih.append_left _).cons _

theorem anchorCount_withoutControls (g : Forest Item) : anchorCount (withoutControls g) = anchorCount g := by
  induction g with
  | nil => rfl
  | node a cs sibs _ ih =>
    simp only [withoutControls]
    split
    · rename_i h
      have := Item.control_ne h
      simp [anchorCount, this, ih]
    · simp [anchorCount, ih]

theorem linesForm_withoutControls (g : Forest Item) (h : LinesForm g) : LinesForm (withoutControls g) := by
  induction g with
  | nil => trivial
  | node a cs sibs _ ih =>
    simp only [withoutControls]
    split
    · exact ih h.2
    · exact ⟨h.1, ih h.2⟩

theorem anchorCount_inlined (f : Forest Item) (h : InlineOk true f) : anchorCount (inlined f) = anchorCount f := by
  induction f with
  | nil => rfl
  | node a cs sibs _ ih =>
    simp only [InlineOk] at h
    split at h
    · rename_i hp
      have hls : a.isLineSeg = false := by cases a <;> simp_all [Item.isParagraph, Item.isLineSeg]
      simp [inlined, hp, anchorCount, hls, ih h.2.2]
    · rename_i hp
      split at h
      · rename_i hc
        have := Item.control_ne hc
        simp [inlined, hp, anchorCount, this, ih h.2.2]
      · split at h
        · rename_i hls
          simp [inlined, hp, anchorCount, hls, ih h.2.2.2, plainLine_inlined cs h.2.1]
        · rename_i hls
          simp [inlined, hp, anchorCount, hls, ih h.2.2]

theorem perm_noAnchors {a b : List Item} (h : a.Perm b) : (noAnchors a).Perm (noAnchors b) := h.filter _

theorem noAnchors_idem (l : List Item) : noAnchors (noAnchors l) = noAnchors l := by
  simp [noAnchors]

theorem noAnchors_of_perm {a b : List Item} (h : a.Perm (noAnchors b)) : noAnchors a = a := by
  simp only [noAnchors, List.filter_eq_self]
  intro x hx
  have := (h.mem_iff).1 hx
  simp only [noAnchors, List.mem_filter] at this
  exact this.2

theorem inlined_perm (f : Forest Item) :
    (InlineOk false f → (inlined f).items.Perm (noAnchors f.items)) ∧
    (InlineOk true f → (noAnchors (inlined f).items).Perm (noAnchors f.items) ∧ LinesForm (inlined f)) := by
  induction f with
  | nil => simp [inlined, Forest.items, noAnchors, LinesForm]
  | node a cs sibs ih1 ih2 =>
    have hpara : a.isParagraph → InlineOk true cs → anchorCount cs = (topControls cs).length →
        (placeLines (topControls (inlined cs)) (withoutControls (inlined cs))).1.items.Perm (noAnchors cs.items) := by
      intro hp h1 hcnt
      obtain ⟨p1, p2⟩ := ih1.2 h1
      have hlen : anchorCount (withoutControls (inlined cs)) = (topControls (inlined cs)).length := by
        rw [anchorCount_withoutControls, anchorCount_inlined cs h1, hcnt, topControls_inlined]
        simp [inl]
      obtain ⟨q1, q2⟩ := placeLines_perm (withoutControls (inlined cs)) (topControls (inlined cs))
        (linesForm_withoutControls _ p2) (by omega)
      rw [q2, hlen, List.drop_length] at q1
      simp only [itemsQ, List.flatMap_nil, List.append_nil] at q1
      refine q1.trans ?_
      refine List.Perm.trans ?_ p1
      have hw := perm_noAnchors (withoutControls_perm (inlined cs))
      rw [noAnchors_append] at hw
      refine List.Perm.trans ?_ hw
      have hq : noAnchors (itemsQ (topControls (inlined cs))) = itemsQ (topControls (inlined cs)) := by
        have : ∀ g : Forest Item, LinesForm g → noAnchors (itemsQ (topControls g)) = itemsQ (topControls g) := by
          intro g hg
          induction g with
          | nil => rfl
          | node b ds ss _ ih =>
            simp only [topControls]
            split
            · rename_i hb
              have hn := Item.control_ne hb
              have hg1 := hg.1
              simp only [hn.2.2.1, Bool.false_eq_true, if_false] at hg1
              simp only [itemsQ, List.flatMap_cons, noAnchors_append, noAnchors_cons, hg1.2, Bool.false_eq_true,
                if_false, hg1.1]
              have := ih hg.2
              simp only [itemsQ] at this
              rw [this]
            · exact ih hg.2
        exact this _ p2
      rw [hq]
      exact List.Perm.refl _
    refine ⟨?_, ?_⟩
    · intro h
      simp only [InlineOk] at h
      split at h
      · rename_i hp
        have han : isAnchor a = false := by cases a <;> simp_all [Item.isParagraph, isAnchor]
        simp only [inlined, hp, if_true, Forest.items, noAnchors_cons, han, Bool.false_eq_true, if_false,
          noAnchors_append]
        exact ((hpara hp h.1 h.2.1).append (ih2.1 h.2.2)).cons _
      · rename_i hp
        split at h
        · simp at h
        · split at h
          · simp at h
          · have han : isAnchor a = false := by
              have := h.1
              cases a <;> simp_all [isAnchor, Item.isControlChar]
            simp only [inlined, hp, if_false, Forest.items, noAnchors_cons, han, Bool.false_eq_true,
              noAnchors_append]
            exact ((ih1.1 h.2.1).append (ih2.1 h.2.2)).cons _
    · intro h
      simp only [InlineOk] at h
      split at h
      · rename_i hp
        have han : isAnchor a = false := by cases a <;> simp_all [Item.isParagraph, isAnchor]
        have hls : a.isLineSeg = false := by cases a <;> simp_all [Item.isParagraph, Item.isLineSeg]
        have hpp := hpara hp h.1 h.2.1
        have hid := noAnchors_of_perm hpp
        simp only [inlined, hp, if_true, Forest.items, noAnchors_cons, han, Bool.false_eq_true, if_false,
          noAnchors_append, LinesForm, hls, hid, true_and]
        exact ⟨(hpp.append (ih2.2 h.2.2).1).cons _, (ih2.2 h.2.2).2⟩
      · rename_i hp
        split at h
        · rename_i hc
          have hn := Item.control_ne hc
          have hpp := ih1.1 h.2.1
          have hid := noAnchors_of_perm hpp
          simp only [inlined, hp, if_false, Forest.items, noAnchors_cons, hn, Bool.false_eq_true,
            noAnchors_append, LinesForm, hid, true_and]
          exact ⟨(hpp.append (ih2.2 h.2.2).1).cons _, (ih2.2 h.2.2).2⟩
        · split at h
          · rename_i hls
            have han : isAnchor a = false := by cases a <;> simp_all [Item.isLineSeg, isAnchor]
            simp only [inlined, hp, if_false, Forest.items, noAnchors_cons, han, Bool.false_eq_true,
              noAnchors_append, LinesForm, hls, if_true, plainLine_inlined cs h.2.1]
            exact ⟨((List.Perm.refl _).append (ih2.2 h.2.2.2).1).cons _, h.2.1, (ih2.2 h.2.2.2).2⟩
          · rename_i hls
            have han : isAnchor a = false := by
              have := h.1
              cases a <;> simp_all [isAnchor, Item.isControlChar]
            have hpp := ih1.1 h.2.1
            have hid := noAnchors_of_perm hpp
            simp only [inlined, hp, if_false, Forest.items, noAnchors_cons, han, Bool.false_eq_true,
              noAnchors_append, LinesForm, hls, hid, true_and]
            exact ⟨(hpp.append (ih2.2 h.2.2).1).cons _, (ih2.2 h.2.2).2⟩

end Hwp
