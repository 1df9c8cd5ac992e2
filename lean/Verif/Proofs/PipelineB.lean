import Verif.Proofs.PipelineA
namespace Hwp
open Spec
set_option linter.unusedSimpArgs false

/-! ### The invariant up to field matching -/

/-- Neither moved nor counted by the table passes. -/
def harmless : Item → Bool
  | .paragraph _ _ | .tableBody _ _ | .tableCell _ => false
  | _ => true

theorem siblingsOk_harmless (l : List Item) (h : ∀ a ∈ l, harmless a) : ∀ c, SiblingsOk 0 c l := by
  induction l with
  | nil => intro _; rfl
  | cons a l ih =>
    have ha := h a (by simp)
    have ih := ih (fun b hb => h b (by simp [hb]))
    intro c
    cases a <;> first | (simp [harmless] at ha; done) | exact ⟨rfl, ih _⟩

theorem siblingsOk_append (l m : List Item) (hm : ∀ a ∈ m, harmless a) : ∀ n c, SiblingsOk n c l →
    SiblingsOk n c (l ++ m) := by
  induction l with
  | nil => intro n c h; cases h; exact siblingsOk_harmless m hm c
  | cons a l ih =>
    intro n c h
    cases a
    case tableBody rc t =>
      cases rc with
      | none => cases h
      | some ws => exact ⟨h.1, h.2.1, ih _ _ h.2.2⟩
    all_goals exact ⟨h.1, ih _ _ h.2⟩

/-- Texts and control characters: elements without children. -/
def isLeaf (a : Item) : Bool := a.isText || a.isControlChar

/-- The invariant of the passes up to field matching. -/
def Q (a : Item) (rs : List Item) : Prop :=
  a ≠ .columnSet ∧ a ≠ .tableRow ∧ (isLeaf a → rs = []) ∧ (a.isTableBody → rs = []) ∧
  (a.isParagraph ∨ a.isLineSeg → ∀ b ∈ rs, harmless b) ∧ SiblingsOk 0 false rs

theorem IsPiece.harmless {a : Item} (h : IsPiece a) : harmless a := by
  rcases h with ⟨s, sh, rfl⟩ | ⟨c, k, sh, -, rfl⟩ <;> rfl

theorem leaves_Q (l : List Item) (h : ∀ a ∈ l, IsPiece a) : Everywhere Q (leaves l) := by
  induction l with
  | nil => trivial
  | cons a l ih =>
    refine ⟨?_, trivial, ih (fun b hb => h b (by simp [hb]))⟩
    rcases h a (by simp) with ⟨s, sh, rfl⟩ | ⟨c, k, sh, -, rfl⟩ <;>
      simp [Q, Forest.roots, isLeaf, Item.isControlChar, Item.isText, Item.isTableBody, Item.isParagraph, Item.isLineSeg, SiblingsOk]

theorem lineForest_Q (items : List (LineId × List Item)) (h : ∀ l ∈ items, ∀ a ∈ l.2, IsPiece a) :
    Everywhere Q (lineForest items) := by
  induction items with
  | nil => trivial
  | cons l ls ih =>
    have hl := h l (by simp)
    refine ⟨?_, leaves_Q _ hl, ih (fun l hl => h l (by simp [hl]))⟩
    rw [leaves_roots]
    have hh : ∀ b ∈ l.2, harmless b := fun b hb => (hl b hb).harmless
    exact ⟨by simp, by simp, by simp [isLeaf, Item.isControlChar, Item.isText], by simp [Item.isTableBody], fun _ => hh, siblingsOk_harmless _ hh _⟩

theorem texted_Q {f f' : Forest Item} (h : Texted f f') : Everywhere NodeOk f → Everywhere Q f' := by
  induction h with
  | nil => intro _; trivial
  | record _ _ ih => intro hf; exact ih hf.2.2
  | @paragraph a cs cs' L sibs sibs' hp ht hL hs ih1 ih2 =>
    intro hf
    obtain ⟨⟨h1, h2, h3⟩, h4, h5⟩ := hf
    rw [if_pos hp] at h3
    obtain ⟨items, rfl, hi, -, -⟩ := linesOf_items _ _ hL
    refine ⟨?_, ?_, ih2 h5⟩
    · have hh : ∀ b ∈ (cs'.append (lineForest items)).roots, harmless b := by
        intro b hb
        rw [Forest.roots_append, List.mem_append] at hb
        rcases hb with hb | hb
        · rw [texted_roots ht] at hb
          have hb' := List.mem_filter.1 hb
          have := h3.1 b hb'.1
          have hn := hb'.2
          cases b <;> simp_all [inParagraph, harmless, isTextRecord, Item.isControl]
        · rw [lineForest_roots] at hb
          obtain ⟨x, -, rfl⟩ := List.mem_map.1 hb
          rfl
      refine ⟨?_, ?_, ?_, ?_, fun _ => hh, siblingsOk_harmless _ hh _⟩
      all_goals cases a <;> simp_all [Item.isParagraph, isLeaf, Item.isControlChar, Item.isText, Item.isTableBody]
    · rw [everywhere_append]
      exact ⟨ih1 h4, lineForest_Q items hi⟩
  | @other a cs cs' sibs sibs' ht hp hc hs ih1 ih2 =>
    intro hf
    obtain ⟨⟨h1, h2, h3⟩, h4, h5⟩ := hf
    simp only [hp, Bool.false_eq_true, if_false] at h3
    have hr : cs'.roots = cs.roots := by
      rw [texted_roots hc]
      apply List.filter_eq_self.2
      intro b hb
      simp [(h3.1 b hb).1]
    refine ⟨?_, ih1 h4, ih2 h5⟩
    rw [hr]
    refine ⟨?_, ?_, ?_, fun hb => h2 (.inr hb), ?_, h3.2⟩
    all_goals cases a <;> simp_all [madeByPasses, isLeaf, Item.isControlChar, Item.isText, Item.isParagraph, Item.isLineSeg]

/-! ### Inlining -/

/-- A control to be placed. -/
def GoodQ (t : Item × Forest Item) : Prop := Q t.1 t.2.roots ∧ Everywhere Q t.2 ∧ harmless t.1

theorem topControls_good (f : Forest Item) (h : Everywhere Q f) : ∀ t ∈ topControls f, GoodQ t := by
  induction f with
  | nil => simp [topControls]
  | node a cs sibs _ ih =>
    have ih := ih h.2.2
    simp only [topControls]
    split
    · rename_i hc
      intro t ht
      rcases List.mem_cons.1 ht with rfl | ht
      · exact ⟨h.1, h.2.1, by cases a <;> simp_all [Item.isControl, harmless]⟩
      · exact ih t ht
    · exact ih

theorem withoutControls_Q (f : Forest Item) (h : Everywhere Q f) :
    Everywhere Q (withoutControls f) ∧ (withoutControls f).roots = f.roots.filter (!·.isControl) := by
  induction f with
  | nil => exact ⟨trivial, rfl⟩
  | node a cs sibs _ ih =>
    have ih := ih h.2.2
    simp only [withoutControls]
    split
    · rename_i hc; exact ⟨ih.1, by simp [Forest.roots, hc, ih.2]⟩
    · rename_i hc; exact ⟨⟨h.1, h.2.1, ih.1⟩, by simp [Forest.roots, hc, ih.2]⟩

theorem placeIn_Q (f : Forest Item) : ∀ q, (∀ t ∈ q, GoodQ t) → Everywhere Q f → (∀ a ∈ f.roots, harmless a) →
    Everywhere Q (placeIn q f).1 ∧ (∀ a ∈ (placeIn q f).1.roots, harmless a) ∧ ∀ t ∈ (placeIn q f).2, GoodQ t := by
  induction f with
  | nil => intro q hq _ _; exact ⟨trivial, by simp [placeIn, Forest.roots], hq⟩
  | node a cs sibs _ ih =>
    intro q hq hf hr
    have hr' : ∀ b ∈ sibs.roots, harmless b := fun b hb => hr b (by simp [Forest.roots, hb])
    have ha := hr a (by simp [Forest.roots])
    have keep : ∀ q, (∀ t ∈ q, GoodQ t) → Everywhere Q (.node a cs (placeIn q sibs).1) ∧
        (∀ b ∈ (Forest.node a cs (placeIn q sibs).1).roots, harmless b) ∧ ∀ t ∈ (placeIn q sibs).2, GoodQ t := by
      intro q hq
      obtain ⟨i1, i2, i3⟩ := ih q hq hf.2.2 hr'
      refine ⟨⟨hf.1, hf.2.1, i1⟩, ?_, i3⟩
      intro b hb
      rcases List.mem_cons.1 hb with rfl | hb
      · exact ha
      · exact i2 b hb
    by_cases hb : isAnchor a
    · cases q with
      | nil => simpa [placeIn, hb] using keep [] hq
      | cons t q =>
        obtain ⟨c, k⟩ := t
        rw [placeIn_anchor _ _ _ _ _ _ hb]
        obtain ⟨i1, i2, i3⟩ := ih q (fun t ht => hq t (by simp [ht])) hf.2.2 hr'
        obtain ⟨g1, g2, g3⟩ := hq (c, k) (by simp)
        refine ⟨⟨g1, g2, i1⟩, ?_, i3⟩
        intro b hb
        rcases List.mem_cons.1 hb with rfl | hb
        · exact g3
        · exact i2 b hb
    · rw [placeIn_other _ _ _ _ (by simpa using hb)]
      exact keep q hq

theorem placeLines_Q (f : Forest Item) : ∀ q, (∀ t ∈ q, GoodQ t) → Everywhere Q f →
    Everywhere Q (placeLines q f).1 ∧ (placeLines q f).1.roots = f.roots := by
  induction f with
  | nil => intro q _ _; exact ⟨trivial, rfl⟩
  | node a cs sibs _ ih =>
    intro q hq hf
    simp only [placeLines]
    split
    · rename_i hl
      have hh := hf.1.2.2.2.2.1 (.inr hl)
      obtain ⟨p1, p2, p3⟩ := placeIn_Q cs q hq hf.2.1 hh
      obtain ⟨i1, i2⟩ := ih _ p3 hf.2.2
      refine ⟨⟨?_, p1, i1⟩, by simp [Forest.roots, i2]⟩
      refine ⟨hf.1.1, hf.1.2.1, ?_, ?_, fun _ => p2, siblingsOk_harmless _ p2 _⟩
      all_goals cases a <;> simp_all [isLeaf, Item.isControlChar, Item.isText, Item.isTableBody, Item.isLineSeg]
    · obtain ⟨i1, i2⟩ := ih q hq hf.2.2
      exact ⟨⟨hf.1, hf.2.1, i1⟩, by simp [Forest.roots, i2]⟩

theorem inlined_Q (f : Forest Item) (h : Everywhere Q f) :
    Everywhere Q (inlined f) ∧ (inlined f).roots = f.roots := by
  induction f with
  | nil => exact ⟨trivial, rfl⟩
  | node a cs sibs ih1 ih2 =>
    obtain ⟨c1, c2⟩ := ih1 h.2.1
    obtain ⟨s1, s2⟩ := ih2 h.2.2
    simp only [inlined]
    split
    · rename_i hp
      obtain ⟨w1, w2⟩ := withoutControls_Q _ c1
      obtain ⟨p1, p2⟩ := placeLines_Q _ _ (topControls_good _ c1) w1
      refine ⟨⟨?_, p1, s1⟩, by simp [Forest.roots, s2]⟩
      have hh : ∀ b ∈ (placeLines (topControls (inlined cs)) (withoutControls (inlined cs))).1.roots, harmless b := by
        intro b hb
        rw [p2, w2, c2] at hb
        exact h.1.2.2.2.2.1 (.inl hp) b (List.mem_filter.1 hb).1
      refine ⟨h.1.1, h.1.2.1, ?_, ?_, fun _ => hh, siblingsOk_harmless _ hh _⟩
      all_goals cases a <;> simp_all [isLeaf, Item.isControlChar, Item.isText, Item.isTableBody, Item.isParagraph]
    · refine ⟨⟨?_, c1, s1⟩, by simp [Forest.roots, s2]⟩
      rw [c2]; exact h.1

/-! ### Fields -/

theorem field_harmless {a : Item} (h : a.isField) : harmless a := by
  cases a <;> simp_all [Item.isField, harmless]

theorem lineSeg_not {a : Item} (h : a.isLineSeg) : isLeaf a = false ∧ a.isTableBody = false := by
  cases a <;> simp_all [Item.isLineSeg, isLeaf, Item.isControlChar, Item.isText, Item.isTableBody]

/-- Tokens of a line (or of siblings). -/
def TokOk : FieldTok → Prop
  | .node a cs => Q a cs.roots ∧ Everywhere Q cs
  | .opn a cs => a.isField ∧ SiblingsOk 0 false cs.roots ∧ Everywhere Q cs
  | .cls _ => True

def tokItem : FieldTok → Option Item
  | .node a _ => some a
  | .opn a _ => some a
  | .cls _ => none

/-- Trees inside a line. -/
def LineGood (t : Forest Item) : Prop := Everywhere Q t ∧ ∀ b ∈ t.roots, harmless b

theorem field_Q (a : Item) (h : a.isField) (rs : List Item) (hs : SiblingsOk 0 false rs) : Q a rs := by
  cases a <;> simp [Item.isField] at h
  exact ⟨by simp, by simp, by simp [isLeaf, Item.isControlChar, Item.isText], by simp [Item.isTableBody],
    by simp [Item.isParagraph, Item.isLineSeg], hs⟩

theorem nest_good (ts : List FieldTok) (h : ∀ t ∈ ts, TokOk t) (hh : ∀ t ∈ ts, ∀ a, tokItem t = some a → harmless a) :
    ∀ t ∈ nest ts, LineGood t := by
  induction ts with
  | nil =>
    intro t ht
    simp only [nest, List.mem_singleton] at ht
    subst ht
    exact ⟨trivial, by simp [Forest.roots]⟩
  | cons tk ts ih =>
    have ih := ih (fun t ht => h t (by simp [ht])) (fun t ht => hh t (by simp [ht]))
    have h1 := h tk (by simp)
    have h2 := hh tk (by simp)
    cases tk with
    | node a cs =>
      simp only [nest]
      cases hn : nest ts with
      | nil => simp
      | cons t st =>
        rw [hn] at ih
        intro u hu
        rcases List.mem_cons.1 hu with rfl | hu
        · have ht := ih t (by simp)
          refine ⟨⟨h1.1, h1.2, ht.1⟩, ?_⟩
          intro b hb
          rcases List.mem_cons.1 hb with rfl | hb
          · exact h2 _ rfl
          · exact ht.2 b hb
        · exact ih u (by simp [hu])
    | opn a cs =>
      simp only [nest]
      cases hn : nest ts with
      | nil => simp
      | cons t st =>
        cases st with
        | nil => rw [hn] at ih; exact ih
        | cons v st =>
          rw [hn] at ih
          intro u hu
          rcases List.mem_cons.1 hu with rfl | hu
          · have ht := ih t (by simp)
            have hv := ih v (by simp)
            refine ⟨⟨?_, ?_, hv.1⟩, ?_⟩
            · rw [Forest.roots_append]
              exact field_Q a h1.1 _ (siblingsOk_append _ _ ht.2 _ _ h1.2.1)
            · rw [everywhere_append]; exact ⟨h1.2.2, ht.1⟩
            · intro b hb
              rcases List.mem_cons.1 hb with rfl | hb
              · exact h2 _ rfl
              · exact hv.2 b hb
          · exact ih u (by simp [hu])
    | cls a =>
      simp only [nest]
      intro u hu
      rcases List.mem_cons.1 hu with rfl | hu
      · exact ⟨trivial, by simp [Forest.roots]⟩
      · exact ih u hu

theorem nested_good (ts : List FieldTok) (h : ∀ t ∈ ts, TokOk t) (hh : ∀ t ∈ ts, ∀ a, tokItem t = some a → harmless a) :
    LineGood (nested ts) := by
  have := nest_good ts h hh
  unfold nested
  cases hn : nest ts with
  | nil => exact ⟨trivial, by simp [Forest.roots]⟩
  | cons t st => exact this t (by simp [hn])

theorem nest_nodes (ts : List FieldTok) (hn : AllNodes ts) (h : ∀ t ∈ ts, TokOk t) :
    nest ts = [nested ts] ∧ Everywhere Q (nested ts) ∧ (nested ts).roots = ts.filterMap tokItem := by
  induction ts with
  | nil => exact ⟨rfl, trivial, rfl⟩
  | cons t ts ih =>
    cases t with
    | node a cs =>
      obtain ⟨i1, i2, i3⟩ := ih hn (fun t ht => h t (by simp [ht]))
      have e : nest (.node a cs :: ts) = [.node a cs (nested ts)] := by simp only [nest]; rw [i1]
      have e' : nested (.node a cs :: ts) = .node a cs (nested ts) := by
        simp only [nested, e]; simp [List.headD]
      rw [e', e]
      have := h (.node a cs) (by simp)
      exact ⟨rfl, ⟨this.1, this.2, i2⟩, by simp [Forest.roots, tokItem, i3]⟩
    | opn a cs => cases hn
    | cls a => cases hn

theorem fieldToks_ok (f : Forest Item) : ∀ inLine S S', fieldRun inLine S f = some S' → Everywhere Q f →
    (inLine = true → ∀ a ∈ f.roots, harmless a) → (∀ a ∈ S, a.isField) →
    (∀ t ∈ (fieldToks S f).1, TokOk t) ∧ (∀ a ∈ S', a.isField) ∧
    (inLine = true → ∀ t ∈ (fieldToks S f).1, ∀ a, tokItem t = some a → harmless a) ∧
    (inLine = false → (fieldToks S f).1.filterMap tokItem = f.roots) := by
  induction f with
  | nil =>
    intro inLine S S' h _ _ hS
    simp only [fieldRun, Option.some.injEq] at h
    subst h
    exact ⟨by simp [fieldToks], hS, by simp [fieldToks], by simp [fieldToks, Forest.roots]⟩
  | node a cs sibs ih1 ih2 =>
    intro inLine S S' h hq hr hS
    have hr' : inLine = true → ∀ b ∈ sibs.roots, harmless b :=
      fun hi b hb => hr hi b (by simp [Forest.roots, hb])
    have hra : inLine = true → harmless a := fun hi => hr hi a (by simp [Forest.roots])
    simp only [fieldRun] at h
    by_cases hf : a.isField
    · simp only [hf, if_true] at h
      split at h
      · rename_i hc
        obtain ⟨hin, hc⟩ := hc
        have hS' : ∀ b ∈ a :: S, b.isField := by
          intro b hb
          rcases List.mem_cons.1 hb with rfl | hb
          · exact hf
          · exact hS b hb
        obtain ⟨c1, c2, -, c4⟩ := ih1 false (a :: S) (a :: S) hc hq.2.1 (by simp) hS'
        obtain ⟨s1, s2, s3, s4⟩ := ih2 inLine (a :: S) S' h hq.2.2 hr' hS'
        obtain ⟨-, -, m3⟩ := matchFields_tree none cs false (a :: S) (a :: S) [] hc
        obtain ⟨-, n2, n3⟩ := nest_nodes _ (by simpa using m3) c1
        simp only [fieldToks, hf, if_true]
        refine ⟨?_, s2, ?_, by simp [hin]⟩
        · intro t ht
          rcases List.mem_cons.1 ht with rfl | ht
          · refine ⟨hf, ?_, n2⟩
            rw [n3, c4 rfl]; exact hq.1.2.2.2.2.2
          · exact s1 t ht
        · intro hi t ht b hb
          rcases List.mem_cons.1 ht with rfl | ht
          · simp only [tokItem, Option.some.injEq] at hb; subst hb; exact hra hi
          · exact s3 hi t ht b hb
      · cases h
    · simp only [hf, if_false, Bool.false_eq_true] at h
      by_cases he : a.isFieldEnd
      · simp only [he, if_true] at h
        split at h
        · rename_i hc
          obtain ⟨hin, rfl⟩ := hc
          obtain ⟨s1, s2, s3, s4⟩ := ih2 inLine S.tail S' h hq.2.2 hr' (fun b hb => hS b (List.mem_of_mem_tail hb))
          cases S with
          | nil =>
            simp only [fieldToks, hf, he, if_true, if_false, Bool.false_eq_true]
            exact ⟨s1, s2, s3, by simp [hin]⟩
          | cons g S =>
            simp only [fieldToks, hf, he, if_true, if_false, Bool.false_eq_true]
            refine ⟨?_, s2, ?_, by simp [hin]⟩
            · intro t ht
              rcases List.mem_cons.1 ht with rfl | ht
              · trivial
              · exact s1 t ht
            · intro hi t ht b hb
              rcases List.mem_cons.1 ht with rfl | ht
              · cases hb
              · exact s3 hi t ht b hb
        · cases h
      · simp only [he, if_false, Bool.false_eq_true] at h
        cases hr0 : fieldRun a.isLineSeg S cs with
        | none => simp [hr0] at h
        | some S1 =>
          simp only [hr0] at h
          split at h
          · cases h
          · have hcs : a.isLineSeg = true → ∀ b ∈ cs.roots, harmless b := fun hl => hq.1.2.2.2.2.1 (.inr hl)
            obtain ⟨c1, c2, c3, c4⟩ := ih1 a.isLineSeg S S1 hr0 hq.2.1 hcs hS
            obtain ⟨s1, s2, s3, s4⟩ := ih2 inLine S1 S' h hq.2.2 hr' c2
            obtain ⟨m1, -, m3⟩ := matchFields_tree none cs a.isLineSeg S S1 [] hr0
            have fin : ∀ k : Forest Item, Q a k.roots → Everywhere Q k →
                (∀ t ∈ .node a k :: (fieldToks S1 sibs).1, TokOk t) ∧ (∀ b ∈ S', b.isField) ∧
                (inLine = true → ∀ t ∈ .node a k :: (fieldToks S1 sibs).1, ∀ b, tokItem t = some b → harmless b) ∧
                (inLine = false → (.node a k :: (fieldToks S1 sibs).1).filterMap tokItem = a :: sibs.roots) := by
              intro k hk1 hk2
              refine ⟨?_, s2, ?_, ?_⟩
              · intro t ht
                rcases List.mem_cons.1 ht with rfl | ht
                · exact ⟨hk1, hk2⟩
                · exact s1 t ht
              · intro hi t ht b hb
                rcases List.mem_cons.1 ht with rfl | ht
                · simp only [tokItem, Option.some.injEq] at hb; subst hb; exact hra hi
                · exact s3 hi t ht b hb
              · intro hi
                simp [tokItem, s4 hi]
            simp only [fieldToks, hf, he, if_false, Bool.false_eq_true, m1, Forest.roots]
            by_cases hl : a.isLineSeg
            · simp only [hl, if_true] at c3 m3 ⊢
              have hg : LineGood (nested (S.reverse.map (.opn · .nil) ++ (fieldToks S cs).1 ++ S1.map .cls)) := by
                apply nested_good
                · intro t ht
                  simp only [List.mem_append, List.mem_map, List.mem_reverse] at ht
                  rcases ht with (⟨g, hg, rfl⟩ | ht) | ⟨g, hg, rfl⟩
                  · exact ⟨hS g hg, rfl, trivial⟩
                  · exact c1 t ht
                  · trivial
                · intro t ht b hb
                  simp only [List.mem_append, List.mem_map, List.mem_reverse] at ht
                  rcases ht with (⟨g, hg, rfl⟩ | ht) | ⟨g, hg, rfl⟩
                  · simp only [tokItem, Option.some.injEq] at hb
                    subst hb
                    exact field_harmless (hS g hg)
                  · exact c3 trivial t ht b hb
                  · cases hb
              have hn := lineSeg_not hl
              exact fin _ ⟨hq.1.1, hq.1.2.1, by simp [hn.1], by simp [hn.2], fun _ => hg.2, siblingsOk_harmless _ hg.2 _⟩ hg.1
            · simp only [hl, if_false, Bool.false_eq_true] at m3 ⊢
              have hl' : a.isLineSeg = false := by simpa using hl
              obtain ⟨-, n2, n3⟩ := nest_nodes _ m3 c1
              refine fin _ ?_ n2
              rw [n3, c4 hl']; exact hq.1

theorem fielded_Q (f : Forest Item) (h : FieldsPaired f) (hq : Everywhere Q f) :
    Everywhere Q (fielded f) ∧ (fielded f).roots = f.roots := by
  obtain ⟨S', hS⟩ := Option.isSome_iff_exists.1 h
  obtain ⟨c1, -, -, c4⟩ := fieldToks_ok f false [] S' hS hq (by simp) (by simp)
  obtain ⟨-, -, m3⟩ := matchFields_tree none f false [] S' [] hS
  obtain ⟨-, n2, n3⟩ := nest_nodes _ (by simpa using m3) c1
  exact ⟨n2, by rw [fielded, n3, c4 rfl]⟩

end Hwp
