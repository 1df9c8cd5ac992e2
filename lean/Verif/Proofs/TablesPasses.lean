/-
The tables of a section through the passes.
-/
import Verif.Spec.Tables
import Verif.Props.Pipeline
set_option autoImplicit false
set_option linter.unusedSimpArgs false
set_option linter.unusedVariables false
namespace Hwp
open Spec

/-! ### What is found below the table controls -/

def isTable : Item → Bool
  | .tableControl _ => true
  | _ => false

/-- Something of the children of each table control. -/
def gather {β : Type} (φ : Forest Item → β) : Forest Item → List β
  | .nil => []
  | .node a cs sibs => (if isTable a then [φ cs] else []) ++ gather φ cs ++ gather φ sibs

theorem gather_append {β : Type} (φ : Forest Item → β) (f g : Forest Item) : gather φ (f.append g) = gather φ f ++ gather φ g := by
  induction f with
  | nil => rfl
  | node a cs sibs _ ih => simp [Forest.append, gather, ih]

theorem gather_map {β γ : Type} (φ : Forest Item → β) (ψ : β → γ) (f : Forest Item) : gather (fun g => ψ (φ g)) f = (gather φ f).map ψ := by
  induction f with
  | nil => rfl
  | node a cs sibs ih1 ih2 => simp only [gather, ih1, ih2, List.map_append]; split <;> rfl

/-! ### Text -/

theorem gather_leaves {β : Type} (φ : Forest Item → β) (l : List Item) (h : ∀ a ∈ l, IsPiece a) : gather φ (leaves l) = [] := by
  induction l with
  | nil => rfl
  | cons a l ih =>
    have ha : isTable a = false := by rcases h a (by simp) with ⟨s, sh, rfl⟩ | ⟨c, k, sh, -, rfl⟩ <;> rfl
    simp [leaves, gather, ha, ih fun b hb => h b (by simp [hb])]

theorem gather_lineForest {β : Type} (φ : Forest Item → β) (items : List (LineId × List Item)) (h : ∀ l ∈ items, ∀ a ∈ l.2, IsPiece a) :
    gather φ (lineForest items) = [] := by
  induction items with
  | nil => rfl
  | cons l ls ih => simp [lineForest, gather, isTable, gather_leaves φ l.2 (h l (by simp)), ih fun l hl => h l (by simp [hl])]

theorem texted_gather {f f' : Forest Item} (h : Texted f f') : Everywhere NodeOk f → gather Forest.roots f' = gather Forest.roots f := by
  induction h with
  | nil => intro _; rfl
  | @record a sibs sibs' ha _ ih =>
    intro hf
    have hn : isTable a = false := by cases a <;> simp_all [isTextRecord, isTable]
    simp [gather, hn, ih hf.2.2]
  | @paragraph a cs cs' L sibs sibs' ha h1 h2 h3 ih1 ih2 =>
    intro hf
    have hn : isTable a = false := by cases a <;> simp_all [Item.isParagraph, isTable]
    obtain ⟨items, rfl, h4, -⟩ := linesOf_items _ _ h2
    simp [gather, hn, gather_append, gather_lineForest _ items h4, ih1 hf.2.1, ih2 hf.2.2]
  | @other a cs cs' sibs sibs' ha hb h1 h3 ih1 ih2 =>
    intro hf
    simp only [gather, ih1 hf.2.1, ih2 hf.2.2]
    have : isTable a = true → cs'.roots = cs.roots := by
      intro ht
      have := hf.1.2.2
      rw [if_neg (by cases a <;> simp_all [isTable, Item.isParagraph])] at this
      rw [texted_roots h1, List.filter_eq_self]
      intro b hb
      simp [(this.1 b hb).1]
    split
    · rename_i ht; rw [this ht]
    · rfl

/-! ### Controls -/

def gatherQ {β : Type} (φ : Forest Item → β) (q : List (Item × Forest Item)) : List β :=
  q.flatMap fun t => (if isTable t.1 then [φ t.2] else []) ++ gather φ t.2

theorem anchor_not_table {a : Item} (h : isAnchor a) : isTable a = false := by cases a <;> simp_all [isAnchor, isTable]

theorem placeIn_gather {β : Type} (φ : Forest Item → β) (f : Forest Item) : ∀ q, PlainLine f → gather φ f = [] →
    gather φ (placeIn q f).1 ++ gatherQ φ (placeIn q f).2 = gatherQ φ q := by
  induction f with
  | nil => intro q _ _; rfl
  | node a cs sibs _ ih =>
    rintro q ⟨hk, rfl, hp⟩ hg
    simp only [gather, List.append_eq_nil_iff] at hg
    by_cases ha : isAnchor a
    · cases q with
      | nil =>
        have e : placeIn [] (.node a .nil sibs) = (.node a .nil (placeIn [] sibs).1, (placeIn [] sibs).2) := by simp [placeIn, ha]
        rw [e]
        simp only [gather, hg.1, List.nil_append, List.append_nil]
        exact ih [] hp hg.2
      | cons t q =>
        obtain ⟨c, k⟩ := t
        rw [placeIn_anchor _ _ _ _ _ _ ha]
        simp only [gather, List.append_assoc, ih q hp hg.2]
        simp [gatherQ]
    · rw [placeIn_other _ _ _ _ (by simpa using ha)]
      simp only [gather, hg.1, List.nil_append, List.append_nil]
      exact ih q hp hg.2

theorem plain_gather {β : Type} (φ : Forest Item → β) (f : Forest Item) (h : PlainLine f) : gather φ f = [] := by
  induction f with
  | nil => rfl
  | node a cs sibs _ ih =>
    obtain ⟨hk, rfl, hp⟩ := h
    have : isTable a = false := by rcases hk with hk | hk <;> cases a <;> simp_all [Item.isText, Item.isControlChar, isTable]
    simp [gather, this, ih hp]

theorem placeLines_roots (f : Forest Item) : ∀ q, (placeLines q f).1.roots = f.roots := by
  induction f with
  | nil => intro q; rfl
  | node a cs sibs _ ih =>
    intro q
    simp only [placeLines]
    split <;> simp [Forest.roots, ih]

theorem placeLines_gather {β : Type} (φ : Forest Item → β) (f : Forest Item) : ∀ q, LinesForm f →
    (gather φ (placeLines q f).1 ++ gatherQ φ (placeLines q f).2).Perm (gather φ f ++ gatherQ φ q) := by
  induction f with
  | nil => intro q _; exact .refl _
  | node a cs sibs _ ih =>
    rintro q ⟨h1, h2⟩
    simp only [placeLines]
    split
    · rename_i hl
      rw [if_pos hl] at h1
      have ht : isTable a = false := by cases a <;> simp_all [Item.isLineSeg, isTable]
      have h0 := plain_gather φ cs h1
      simp only [gather, ht, Bool.false_eq_true, if_false, List.nil_append, h0]
      have := placeIn_gather φ cs q h1 h0
      rw [← this, List.append_assoc]
      refine ((ih (placeIn q cs).2 h2).append_left _).trans ?_
      rw [← List.append_assoc, ← List.append_assoc]
      exact List.perm_append_comm.append_right _
    · simp only [gather, List.append_assoc]
      exact ((ih q h2).append_left _).append_left _

theorem withoutControls_gather {β : Type} (φ : Forest Item → β) (f : Forest Item) :
    (gather φ (withoutControls f) ++ gatherQ φ (topControls f)).Perm (gather φ f) := by
  induction f with
  | nil => exact .refl _
  | node a cs sibs _ ih =>
    simp only [withoutControls, topControls]
    split
    · simp only [gatherQ, List.flatMap_cons, gather] at ih ⊢
      refine .trans ?_ (ih.append_left _)
      generalize (if isTable a = true then [φ cs] else []) ++ gather φ cs = A
      rw [← List.append_assoc, ← List.append_assoc]
      exact List.perm_append_comm.append_right _
    · simp only [gather, List.append_assoc] at ih ⊢
      exact (ih.append_left _).append_left _

theorem inlined_gather (f : Forest Item) : ∀ b, InlineOk b f → (gather Forest.roots (inlined f)).Perm (gather Forest.roots f) ∧
    (inlined f).roots = f.roots := by
  induction f with
  | nil => intro b _; exact ⟨.refl _, rfl⟩
  | node a cs sibs ih1 ih2 =>
    intro b h
    simp only [InlineOk] at h
    split at h
    · rename_i hp
      obtain ⟨h1, hcnt, h2⟩ := h
      have hn : isTable a = false := by cases a <;> simp_all [Item.isParagraph, isTable]
      have p2 := ((inlined_perm cs).2 h1).2
      have hlen : anchorCount (withoutControls (inlined cs)) = (topControls (inlined cs)).length := by
        rw [anchorCount_withoutControls, anchorCount_inlined cs h1, hcnt, topControls_inlined]
        simp [inl]
      have q2 := (placeLines_perm (withoutControls (inlined cs)) (topControls (inlined cs)) (linesForm_withoutControls _ p2) (by omega)).2
      have q1 := placeLines_gather Forest.roots (withoutControls (inlined cs)) (topControls (inlined cs)) (linesForm_withoutControls _ p2)
      rw [q2, hlen, List.drop_length] at q1
      simp only [gatherQ, List.flatMap_nil, List.append_nil] at q1
      simp only [inlined, hp, if_true, gather, hn, Bool.false_eq_true, if_false, List.nil_append, Forest.roots]
      exact ⟨((q1.trans (withoutControls_gather _ _)).trans (ih1 _ h1).1).append (ih2 _ h2).1, by rw [(ih2 _ h2).2]⟩
    · rename_i hp
      have key : ∀ b' : Bool, InlineOk b' cs → InlineOk b sibs → (gather Forest.roots (inlined (.node a cs sibs))).Perm (gather Forest.roots (.node a cs sibs)) ∧
          (inlined (.node a cs sibs)).roots = (Forest.node a cs sibs).roots := by
        intro b' h1 h2
        simp only [inlined, hp, if_false, gather, Forest.roots, Bool.false_eq_true, (ih1 _ h1).2, (ih2 _ h2).2, and_true]
        exact ((ih1 _ h1).1.append_left _).append (ih2 _ h2).1
      split at h
      · exact key false h.2.1 h.2.2
      · split at h
        · obtain ⟨-, h1, -, h2⟩ := h
          simp only [inlined, hp, if_false, gather, Forest.roots, Bool.false_eq_true, (ih2 _ h2).2, and_true, plainLine_inlined _ h1]
          exact (ih2 _ h2).1.append_left _
        · exact key false h.2.1 h.2.2

/-! ### Fields -/

def gatherTok {β : Type} (φ : Forest Item → β) : FieldTok → List β
  | .node a cs => (if isTable a then [φ cs] else []) ++ gather φ cs
  | .opn _ cs => gather φ cs
  | .cls _ => []

theorem field_not_table {a : Item} (h : a.isField) : isTable a = false := by cases a <;> simp_all [Item.isField, isTable]

theorem nest_gather {β : Type} (φ : Forest Item → β) (ts : List FieldTok) (ho : ∀ a cs, .opn a cs ∈ ts → a.isField) : ∀ S, Bal S ts [] →
    (nest ts).flatMap (gather φ) = ts.flatMap (gatherTok φ) := by
  induction ts with
  | nil => intro S _; rfl
  | cons t ts ih =>
    intro S h
    have ih := ih fun a cs hm => ho a cs (by simp [hm])
    cases t with
    | node a cs =>
      obtain ⟨h1, -⟩ := nest_events ts S h
      have ih := ih S h
      cases hn : nest ts with
      | nil => simp [hn] at h1
      | cons t st =>
        rw [hn] at ih
        simp only [nest, hn, List.flatMap_cons, gather, gatherTok, ← ih, List.append_assoc]
    | opn a cs =>
      obtain ⟨h1, -⟩ := nest_events ts (a :: S) h
      have ih := ih (a :: S) h
      cases hn : nest ts with
      | nil => simp [hn] at h1
      | cons t st =>
        cases st with
        | nil => simp [hn] at h1
        | cons u st =>
          rw [hn] at ih
          simp only [nest, hn, List.flatMap_cons, gather, gatherTok, ← ih, List.append_assoc, gather_append,
            field_not_table (ho a cs (by simp)), Bool.false_eq_true, if_false, List.nil_append]
    | cls a =>
      obtain ⟨S0, rfl, h⟩ := h
      simp only [nest, List.flatMap_cons, gather, gatherTok, List.nil_append]
      exact ih S0 h

theorem nested_gather {β : Type} (φ : Forest Item → β) (ts : List FieldTok) (ho : ∀ a cs, .opn a cs ∈ ts → a.isField) (h : Bal [] ts []) :
    gather φ (nested ts) = ts.flatMap (gatherTok φ) := by
  rw [← nest_gather φ ts ho [] h]
  obtain ⟨h1, -⟩ := nest_events ts [] h
  cases hn : nest ts with
  | nil => simp [hn] at h1
  | cons t st =>
    rw [hn] at h1
    cases st with
    | nil => simp [nested, hn, List.headD]
    | cons => simp at h1

theorem gatherTok_opens {β : Type} (φ : Forest Item → β) (S : List Item) : (S.map fun a => FieldTok.opn a .nil).flatMap (gatherTok φ) = [] := by
  induction S with
  | nil => rfl
  | cons a S ih => simp [gatherTok, gather]

theorem gatherTok_closes {β : Type} (φ : Forest Item → β) (S : List Item) : (S.map FieldTok.cls).flatMap (gatherTok φ) = [] := by
  induction S with
  | nil => rfl
  | cons a S ih => simp [gatherTok, gather]

theorem fieldToks_gather (f : Forest Item) : ∀ inLine S S', fieldRun inLine S f = some S' → Everywhere Q f →
    (inLine = true → ∀ a ∈ f.roots, harmless a) → (∀ a ∈ S, a.isField) →
    (fieldToks S f).1.flatMap (gatherTok Forest.roots) = gather Forest.roots f := by
  induction f with
  | nil => intro inLine S S' _ _ _ _; rfl
  | node a cs sibs ih1 ih2 =>
    intro inLine S S' h hq hr hS
    have hr' : inLine = true → ∀ b ∈ sibs.roots, harmless b := fun hi b hb => hr hi b (by simp [Forest.roots, hb])
    simp only [fieldRun] at h
    by_cases hf : a.isField
    · simp only [hf, if_true] at h
      split at h
      · rename_i hc
        obtain ⟨hin, hc⟩ := hc
        have hS' : ∀ b ∈ a :: S, b.isField := by
          intro b hb
          rcases List.mem_cons.1 hb with rfl | hb
          · exact hf
          · exact hS b hb
        obtain ⟨c1, -⟩ := fieldToks_ok cs false (a :: S) (a :: S) hc hq.2.1 (by simp) hS'
        obtain ⟨-, -, m3⟩ := matchFields_tree none cs false (a :: S) (a :: S) [] hc
        have m3 : AllNodes (fieldToks (a :: S) cs).1 := by simpa using m3
        simp only [fieldToks, hf, if_true, List.flatMap_cons, gatherTok, gather, field_not_table hf, Bool.false_eq_true, if_false, List.nil_append]
        rw [nested_gather _ _ (fun b ds hm => (c1 _ hm).1) (m3.bal []), ih1 false (a :: S) (a :: S) hc hq.2.1 (by simp) hS',
          ih2 inLine (a :: S) S' h hq.2.2 hr' hS']
      · cases h
    · simp only [hf, if_false, Bool.false_eq_true] at h
      by_cases he : a.isFieldEnd
      · simp only [he, if_true] at h
        split at h
        · rename_i hc
          obtain ⟨hin, rfl⟩ := hc
          have := ih2 inLine S.tail S' h hq.2.2 hr' (fun b hb => hS b (List.mem_of_mem_tail hb))
          have ht : isTable a = false := by cases a <;> simp_all [Item.isFieldEnd, isTable]
          cases S with
          | nil =>
            simp only [fieldToks, hf, he, if_true, if_false, Bool.false_eq_true, gather, ht, List.nil_append]
            exact this
          | cons g S =>
            simp only [fieldToks, hf, he, if_true, if_false, Bool.false_eq_true, gather, ht, List.nil_append, List.flatMap_cons, gatherTok]
            exact this
        · cases h
      · simp only [he, if_false, Bool.false_eq_true] at h
        cases hr0 : fieldRun a.isLineSeg S cs with
        | none => simp [hr0] at h
        | some S1 =>
          simp only [hr0] at h
          split at h
          · cases h
          · have hcs : a.isLineSeg = true → ∀ b ∈ cs.roots, harmless b := fun hl => hq.1.2.2.2.2.1 (.inr hl)
            obtain ⟨c1, c2, c3, c4⟩ := fieldToks_ok cs a.isLineSeg S S1 hr0 hq.2.1 hcs hS
            obtain ⟨m1, -, m3⟩ := matchFields_tree none cs a.isLineSeg S S1 [] hr0
            have i1 := ih1 a.isLineSeg S S1 hr0 hq.2.1 hcs hS
            have i2 := ih2 inLine S1 S' h hq.2.2 hr' c2
            have hopn : ∀ b ds, FieldTok.opn b ds ∈ (fieldToks S cs).1 → b.isField := fun b ds hm => (c1 _ hm).1
            simp only [fieldToks, hf, he, if_false, Bool.false_eq_true, m1]
            by_cases hl : a.isLineSeg
            · have ht : isTable a = false := by cases a <;> simp_all [Item.isLineSeg, isTable]
              simp only [hl, if_true] at m3 ⊢
              simp only [List.flatMap_cons, gatherTok, ht, Bool.false_eq_true, if_false, List.nil_append, gather]
              rw [nested_gather _ _ ?_ ?_]
              · simp only [List.flatMap_append, gatherTok_opens, gatherTok_closes, List.nil_append, List.append_nil, i1, i2]
              · intro b ds hm
                simp only [List.mem_append, List.mem_map, List.mem_reverse, FieldTok.opn.injEq, reduceCtorEq, and_false, exists_false, or_false] at hm
                rcases hm with ⟨g, hg, rfl, -⟩ | hm
                · exact hS _ hg
                · exact hopn b ds hm
              · have := bal_opens S []
                rw [List.append_nil] at this
                exact (this.append m3).append (bal_closes S1)
            · simp only [hl, if_false, Bool.false_eq_true] at m3 ⊢
              obtain ⟨-, n2, n3⟩ := nest_nodes _ m3 c1
              simp only [List.flatMap_cons, gatherTok, gather]
              rw [nested_gather _ _ hopn (m3.bal []), i1, i2, n3, c4 (by simpa using hl)]

theorem fielded_gather (f : Forest Item) (h : FieldsPaired f) (hq : Everywhere Q f) : gather Forest.roots (fielded f) = gather Forest.roots f := by
  obtain ⟨S', hS⟩ := Option.isSome_iff_exists.1 h
  obtain ⟨c1, -⟩ := fieldToks_ok f false [] S' hS hq (by simp) (by simp)
  obtain ⟨-, -, m3⟩ := matchFields_tree none f false [] S' [] hS
  have m3 : AllNodes (fieldToks [] f).1 := by simpa using m3
  rw [fielded, nested_gather _ _ (fun b ds hm => (c1 _ hm).1) (m3.bal [])]
  exact fieldToks_gather f false [] S' hS hq (by simp) (by simp)

end Hwp
