/-
The definitions of pages stay directly below the definition of their section.
-/
import Verif.Props.Pipeline
import Verif.Proofs.InfoDoc
import Verif.Spec.PageSetup
set_option linter.unusedSimpArgs false
set_option linter.unusedVariables false
set_option autoImplicit false
namespace Hwp
open Spec

theorem field_notSection {a : Item} (h : a.isField = true) : a.isSectionDef = false := by
  cases a <;> simp_all [Item.isField, Item.isSectionDef]

theorem line_notSection {a : Item} (h : a.isLineSeg = true) : a.isSectionDef = false := by
  cases a <;> simp_all [Item.isLineSeg, Item.isSectionDef]

theorem takeWhile_holds {α : Type} (p : α → Bool) (l : List α) : ∀ a ∈ l.takeWhile p, p a = true := by
  induction l with
  | nil => simp
  | cons x l ih =>
    simp only [List.takeWhile_cons]
    split
    · next h =>
      intro a ha
      rcases List.mem_cons.1 ha with rfl | ha
      · exact h
      · exact ih a ha
    · simp

theorem and_left {b c : Bool} : (b && c) = true → b = true := by cases b <;> simp

/-- The items that satisfy this, or are placed, are directly below definitions of sections, before paragraphs that begin columns. -/
def Below (pg : Item → Bool) : Bool → Forest Item → Prop
  | _, .nil => True
  | b, .node a cs sibs => (pg a = true → b = true) ∧ Below pg a.isSectionDef cs ∧ Below pg (b && !startsColumns a) sibs

section
variable {pg : Item → Bool}

theorem Below.mono {f : Forest Item} : ∀ {b b' : Bool}, (b = true → b' = true) → Below pg b f → Below pg b' f := by
  induction f with
  | nil => intro _ _ _ _; trivial
  | node a cs sibs _ ih =>
    intro b b' hb h
    refine ⟨fun e => hb (h.1 e), h.2.1, ih ?_ h.2.2⟩
    cases b <;> cases b' <;> simp_all

theorem Below.any {f : Forest Item} (h : Below pg false f) (b : Bool) : Below pg b f := h.mono (by simp)

theorem below_append {f g : Forest Item} : ∀ {b : Bool}, Below pg b f → Below pg false g → Below pg b (f.append g) := by
  induction f with
  | nil => intro b _ h; exact h.any b
  | node a cs sibs _ ih => intro b h h2; exact ⟨h.1, h.2.1, ih h.2.2 h2⟩

theorem below_takeWhile (p : Item → Bool) {f : Forest Item} : ∀ {b : Bool}, Below pg b f → Below pg b (f.takeWhile p) := by
  induction f with
  | nil => intro _ _; trivial
  | node a cs sibs _ ih =>
    intro b h
    simp only [Forest.takeWhile]
    split
    · exact ⟨h.1, h.2.1, ih h.2.2⟩
    · trivial

theorem below_dropWhile (p : Item → Bool) {f : Forest Item} : ∀ {b : Bool}, Below pg b f → Below pg b (f.dropWhile p) := by
  induction f with
  | nil => intro _ _; trivial
  | node a cs sibs _ ih =>
    intro b h
    simp only [Forest.dropWhile]
    split
    · exact ih (h.2.2.mono (by cases b <;> simp))
    · exact h

/-- Trees that are not such items are right everywhere. -/
theorem below_roots {f : Forest Item} : ∀ {b : Bool}, Below pg b f → (∀ a ∈ f.roots, pg a = false) → Below pg false f := by
  induction f with
  | nil => intro _ _ _; trivial
  | node a cs sibs _ ih =>
    intro b h hr
    refine ⟨fun e => ?_, h.2.1, ?_⟩
    · rw [hr a (by simp [Forest.roots])] at e; cases e
    · have := ih h.2.2 fun a ha => hr a (by simp [Forest.roots, ha])
      simpa using this

/-! ### The passes -/

variable (hpg : ∀ a, pg a = true → ∃ c t, a = .other c t)
include hpg

theorem below_leaves (l : List Item) (h : ∀ a ∈ l, IsPiece a) : Below pg false (leaves l) := by
  induction l with
  | nil => trivial
  | cons a l ih =>
    refine ⟨fun e => ?_, trivial, by simpa using ih fun a ha => h a (by simp [ha])⟩
    obtain ⟨c, t, rfl⟩ := hpg a e
    rcases h _ List.mem_cons_self with ⟨s, sh, e⟩ | ⟨c, k, sh, -, e⟩ <;> cases e

theorem below_lines (items : List (LineId × List Item)) (h : ∀ l ∈ items, ∀ a ∈ l.2, IsPiece a) : Below pg false (lineForest items) := by
  induction items with
  | nil => trivial
  | cons l ls ih =>
    refine ⟨fun e => ?_, below_leaves hpg _ (h l (by simp)), by simpa using ih fun l hl => h l (by simp [hl])⟩
    obtain ⟨c, t, e⟩ := hpg _ e
    cases e

theorem below_texted {f f' : Forest Item} (h : Texted f f') : ∀ {b : Bool}, Below pg b f → Below pg b f' := by
  induction h with
  | nil => intro _ _; trivial
  | record _ _ ih => intro b hb; exact ih (hb.2.2.mono (by cases b <;> simp))
  | @paragraph a cs cs' L sibs sibs' hp ht hL hs ih1 ih2 =>
    intro b hb
    obtain ⟨items, rfl, hi, -, -⟩ := linesOf_items _ _ hL
    exact ⟨hb.1, below_append (ih1 hb.2.1) (below_lines hpg items hi), ih2 hb.2.2⟩
  | other _ _ _ _ ih1 ih2 => intro b hb; exact ⟨hb.1, ih1 hb.2.1, ih2 hb.2.2⟩

/-- A control to be placed. -/
def PlacedOk (pg : Item → Bool) (t : Item × Forest Item) : Prop := pg t.1 = false ∧ Below pg t.1.isSectionDef t.2

theorem below_controls {f : Forest Item} : ∀ {b : Bool}, Below pg b f → (∀ t ∈ topControls f, PlacedOk pg t) ∧ Below pg b (withoutControls f) := by
  induction f with
  | nil => intro _ _; exact ⟨by simp [topControls], trivial⟩
  | node a cs sibs _ ih =>
    intro b h
    obtain ⟨i1, i2⟩ := ih h.2.2
    simp only [topControls, withoutControls]
    split
    · next hc =>
      refine ⟨?_, i2.mono (by cases b <;> simp)⟩
      intro t ht
      rcases List.mem_cons.1 ht with rfl | ht
      · refine ⟨?_, h.2.1⟩
        cases e : pg a with
        | false => rfl
        | true =>
          obtain ⟨c, t, rfl⟩ := hpg _ e
          cases hc
      · exact i1 t ht
    · exact ⟨i1, h.1, h.2.1, i2⟩

omit hpg in
theorem below_placeIn {f : Forest Item} : ∀ q, (∀ t ∈ q, PlacedOk pg t) → Below pg false f →
    Below pg false (placeIn q f).1 ∧ ∀ t ∈ (placeIn q f).2, PlacedOk pg t := by
  induction f with
  | nil => intro q hq _; exact ⟨trivial, hq⟩
  | node a cs sibs _ ih =>
    intro q hq h
    have hs : Below pg false sibs := by simpa using h.2.2
    have keep : ∀ q, (∀ t ∈ q, PlacedOk pg t) → Below pg false (.node a cs (placeIn q sibs).1) ∧ ∀ t ∈ (placeIn q sibs).2, PlacedOk pg t := by
      intro q hq
      obtain ⟨i1, i2⟩ := ih q hq hs
      exact ⟨⟨h.1, h.2.1, by simpa using i1⟩, i2⟩
    by_cases hb : isAnchor a
    · cases q with
      | nil => simpa [placeIn, hb] using keep [] hq
      | cons t q =>
        obtain ⟨c, k⟩ := t
        rw [placeIn_anchor _ _ _ _ _ _ hb]
        obtain ⟨i1, i2⟩ := ih q (fun t ht => hq t (by simp [ht])) hs
        obtain ⟨g1, g2⟩ := hq (c, k) (by simp)
        exact ⟨⟨fun e => (by rw [g1] at e; cases e), g2, by simpa using i1⟩, i2⟩
    · rw [placeIn_other _ _ _ _ (by simpa using hb)]
      exact keep q hq

omit hpg in
theorem below_placeLines {f : Forest Item} : ∀ {b : Bool} q, (∀ t ∈ q, PlacedOk pg t) → Below pg b f → Below pg b (placeLines q f).1 := by
  induction f with
  | nil => intro b q _ _; trivial
  | node a cs sibs _ ih =>
    intro b q hq h
    simp only [placeLines]
    split
    · next hl =>
      have hs := line_notSection hl
      have h2 := h.2.1
      rw [hs] at h2
      obtain ⟨p1, p2⟩ := below_placeIn q hq h2
      exact ⟨h.1, p1.any _, ih _ p2 h.2.2⟩
    · exact ⟨h.1, h.2.1, ih q hq h.2.2⟩

theorem below_inlined {f : Forest Item} : ∀ {b : Bool}, Below pg b f → Below pg b (inlined f) := by
  induction f with
  | nil => intro _ _; trivial
  | node a cs sibs ih1 ih2 =>
    intro b h
    simp only [inlined]
    split
    · obtain ⟨c1, c2⟩ := below_controls hpg (ih1 h.2.1)
      exact ⟨h.1, below_placeLines _ c1 c2, ih2 h.2.2⟩
    · exact ⟨h.1, ih1 h.2.1, ih2 h.2.2⟩

/-! Fields -/

/-- A part of a line, or of siblings. -/
def TokBelow (pg : Item → Bool) (b : Bool) : FieldTok → Prop
  | .node a cs => (pg a = true → b = true) ∧ Below pg a.isSectionDef cs
  | .opn a cs => a.isField = true ∧ Below pg false cs
  | .cls _ => True

/-- Siblings. -/
def ToksBelow (pg : Item → Bool) : Bool → List FieldTok → Prop
  | _, [] => True
  | b, .node a cs :: ts => TokBelow pg b (.node a cs) ∧ ToksBelow pg (b && !startsColumns a) ts
  | b, t :: ts => TokBelow pg b t ∧ ToksBelow pg b ts

omit hpg in
theorem toks_false (ts : List FieldTok) : ToksBelow pg false ts ↔ ∀ t ∈ ts, TokBelow pg false t := by
  induction ts with
  | nil => simp [ToksBelow]
  | cons t ts ih => cases t <;> simp [ToksBelow, ih]

theorem below_nest (ts : List FieldTok) (h : ∀ t ∈ ts, TokBelow pg false t) : ∀ t ∈ nest ts, Below pg false t := by
  induction ts with
  | nil =>
    intro t ht
    simp only [nest, List.mem_singleton] at ht
    subst ht
    trivial
  | cons tk ts ih =>
    have ih := ih fun t ht => h t (by simp [ht])
    have h1 := h tk (by simp)
    cases tk with
    | node a cs =>
      simp only [nest]
      cases hn : nest ts with
      | nil => simp
      | cons t st =>
        rw [hn] at ih
        intro u hu
        rcases List.mem_cons.1 hu with rfl | hu
        · exact ⟨h1.1, h1.2, by simpa using ih t (by simp)⟩
        · exact ih u (by simp [hu])
    | opn a cs =>
      simp only [nest]
      cases hn : nest ts with
      | nil => simp
      | cons t st =>
        cases st with
        | nil => rw [hn] at ih; exact ih
        | cons v st =>
          rw [hn] at ih
          intro u hu
          rcases List.mem_cons.1 hu with rfl | hu
          · refine ⟨fun e => ?_, (below_append h1.2 (ih t (by simp))).any _, by simpa using ih v (by simp)⟩
            obtain ⟨c, t, rfl⟩ := hpg _ e
            cases h1.1
          · exact ih u (by simp [hu])
    | cls a =>
      simp only [nest]
      intro u hu
      rcases List.mem_cons.1 hu with rfl | hu
      · trivial
      · exact ih u hu

theorem below_nested (ts : List FieldTok) (h : ∀ t ∈ ts, TokBelow pg false t) : Below pg false (nested ts) := by
  have := below_nest hpg ts h
  unfold nested
  cases hn : nest ts with
  | nil => trivial
  | cons t st => exact this t (by simp [hn])

omit hpg in
theorem below_nodes (ts : List FieldTok) (hn : AllNodes ts) : ∀ {b : Bool}, ToksBelow pg b ts → nest ts = [nested ts] ∧ Below pg b (nested ts) := by
  induction ts with
  | nil => intro _ _; exact ⟨rfl, trivial⟩
  | cons t ts ih =>
    intro b h
    cases t with
    | node a cs =>
      obtain ⟨i1, i2⟩ := ih hn h.2
      have e : nest (.node a cs :: ts) = [.node a cs (nested ts)] := by simp only [nest]; rw [i1]
      have e' : nested (.node a cs :: ts) = .node a cs (nested ts) := by
        simp only [nested, e]; simp [List.headD]
      rw [e', e]
      exact ⟨rfl, h.1.1, h.1.2, i2⟩
    | opn a cs => cases hn
    | cls a => cases hn

theorem below_toks (f : Forest Item) : ∀ inLine S S' b, fieldRun inLine S f = some S' → Below pg b f → (inLine = true → b = false) →
    (∀ a ∈ S, a.isField) → ToksBelow pg b (fieldToks S f).1 ∧ ∀ a ∈ S', a.isField := by
  induction f with
  | nil =>
    intro inLine S S' b h _ _ hS
    simp only [fieldRun, Option.some.injEq] at h
    subst h
    exact ⟨trivial, hS⟩
  | node a cs sibs ih1 ih2 =>
    intro inLine S S' b h hq hl hS
    simp only [fieldRun] at h
    by_cases hf : a.isField
    · simp only [hf, if_true] at h
      split at h
      · rename_i hc
        obtain ⟨hin, hc⟩ := hc
        have hS' : ∀ b ∈ a :: S, b.isField := by
          intro b hb
          rcases List.mem_cons.1 hb with rfl | hb
          · exact hf
          · exact hS b hb
        have hsec := field_notSection hf
        have hq2 := hq.2.1
        rw [hsec] at hq2
        obtain ⟨c1, -⟩ := ih1 false (a :: S) (a :: S) false hc hq2 (by simp) hS'
        obtain ⟨s1, s2⟩ := ih2 inLine (a :: S) S' b h (hq.2.2.mono and_left) hl hS'
        obtain ⟨-, -, m3⟩ := matchFields_tree none cs false (a :: S) (a :: S) [] hc
        obtain ⟨-, n2⟩ := below_nodes _ (by simpa using m3) c1
        simp only [fieldToks, hf, if_true]
        exact ⟨⟨⟨hf, n2⟩, s1⟩, s2⟩
      · cases h
    · simp only [hf, if_false, Bool.false_eq_true] at h
      by_cases he : a.isFieldEnd
      · simp only [he, if_true] at h
        split at h
        · rename_i hc
          obtain ⟨hin, rfl⟩ := hc
          obtain ⟨s1, s2⟩ := ih2 inLine S.tail S' b h (hq.2.2.mono and_left) hl (fun b hb => hS b (List.mem_of_mem_tail hb))
          cases S with
          | nil =>
            simp only [fieldToks, hf, he, if_true, if_false, Bool.false_eq_true]
            exact ⟨s1, s2⟩
          | cons g S =>
            simp only [fieldToks, hf, he, if_true, if_false, Bool.false_eq_true]
            exact ⟨⟨trivial, s1⟩, s2⟩
        · cases h
      · simp only [he, if_false, Bool.false_eq_true] at h
        cases hr0 : fieldRun a.isLineSeg S cs with
        | none => simp [hr0] at h
        | some S1 =>
          simp only [hr0] at h
          split at h
          · cases h
          · have hcs : a.isLineSeg = true → a.isSectionDef = false := line_notSection
            obtain ⟨c1, c2⟩ := ih1 a.isLineSeg S S1 a.isSectionDef hr0 hq.2.1 hcs hS
            obtain ⟨s1, s2⟩ := ih2 inLine S1 S' (b && !startsColumns a) h hq.2.2 (fun e => by rw [hl e]; rfl) c2
            obtain ⟨m1, -, m3⟩ := matchFields_tree none cs a.isLineSeg S S1 [] hr0
            simp only [fieldToks, hf, he, if_false, Bool.false_eq_true, m1]
            by_cases hli : a.isLineSeg
            · simp only [hli, if_true] at m3 ⊢
              rw [hcs hli, toks_false] at c1
              refine ⟨⟨⟨hq.1, ?_⟩, s1⟩, s2⟩
              refine (below_nested hpg _ ?_).any _
              intro t ht
              simp only [List.mem_append, List.mem_map, List.mem_reverse] at ht
              rcases ht with (⟨g, hg, rfl⟩ | ht) | ⟨g, hg, rfl⟩
              · exact ⟨hS g hg, trivial⟩
              · exact c1 t ht
              · trivial
            · simp only [hli, if_false, Bool.false_eq_true] at m3 ⊢
              obtain ⟨-, n2⟩ := below_nodes _ m3 c1
              exact ⟨⟨⟨hq.1, n2⟩, s1⟩, s2⟩

theorem below_fielded {f : Forest Item} {b : Bool} (h : FieldsPaired f) (hq : Below pg b f) : Below pg b (fielded f) := by
  obtain ⟨S', hS⟩ := Option.isSome_iff_exists.1 h
  obtain ⟨c1, -⟩ := below_toks hpg f false [] S' b hS hq (by simp) (by simp)
  obtain ⟨-, -, m3⟩ := matchFields_tree none f false [] S' [] hS
  exact (below_nodes _ (by simpa using m3) c1).2

/-! Lists, tables, text -/

omit hpg in
theorem below_adopt (isP isC : Item → Bool) (hC : ∀ a, isC a = true → pg a = false) (k : Nat) : ∀ (f : Forest Item) (b : Bool), f.size ≤ k → Below pg b f →
    Below pg b (adopt isP isC f) := by
  induction k with
  | zero =>
    intro f b hk _
    cases f with
    | nil => rw [adopt_nil]; trivial
    | node a cs sibs => simp [Forest.size] at hk
  | succ k ih =>
    intro f b hk h
    cases f with
    | nil => rw [adopt_nil]; trivial
    | node a cs sibs =>
      simp only [Forest.size] at hk
      have h1 := ih cs _ (by omega) h.2.1
      by_cases hp : isP a
      · rw [adopt_node_parent hp]
        have ht : Below pg false (sibs.takeWhile isC) := below_roots (below_takeWhile isC h.2.2) fun a ha => by
          rw [Forest.roots_takeWhile] at ha
          exact hC a (takeWhile_holds _ _ a ha)
        have := sibs.size_takeWhile isC
        have := sibs.size_dropWhile isC
        exact ⟨h.1, below_append h1 (ih _ _ (by omega) ht), ih _ _ (by omega) (below_dropWhile isC h.2.2)⟩
      · rw [adopt_node_other (by simpa using hp)]
        exact ⟨h.1, h1, ih _ _ (by omega) h.2.2⟩

omit hpg in
theorem below_take {f : Forest Item} : ∀ n, Below pg false f → Below pg false (f.take n) ∧ Below pg false (f.drop n) := by
  induction f with
  | nil => intro n _; cases n <;> exact ⟨trivial, trivial⟩
  | node a cs sibs _ ih =>
    intro n h
    cases n with
    | zero => exact ⟨trivial, h⟩
    | succ n =>
      obtain ⟨i1, i2⟩ := ih n (by simpa using h.2.2)
      exact ⟨⟨h.1, h.2.1, by simpa using i1⟩, i2⟩

theorem below_rows (ws : List Nat) : ∀ {f : Forest Item}, Below pg false f → Below pg false (groupRows ws f) := by
  induction ws with
  | nil => intro f _; trivial
  | cons w ws ih =>
    intro f h
    obtain ⟨i1, i2⟩ := below_take w h
    refine ⟨fun e => ?_, i1.any _, by simpa using ih i2⟩
    obtain ⟨c, t, e⟩ := hpg _ e
    cases e

theorem below_rowed {f : Forest Item} : ∀ {bd : Bool} {b : Bool} {g : Forest Item}, rowed bd f = some g → Below pg b f → Below pg b g := by
  induction f with
  | nil => intro bd b g e _; cases bd <;> (simp only [rowed, Option.some.injEq] at e; subst e; trivial)
  | node a cs sibs ih1 ih2 =>
    intro bd b g e h
    obtain ⟨cs', sibs', h2, ⟨ws, t, rfl, h1, h3, rfl⟩ | ⟨-, h1, rfl⟩⟩ := rowed_cases e
    · refine ⟨fun e => ?_, below_rows hpg ws (ih1 h1 h.2.1), ih2 h2 h.2.2⟩
      obtain ⟨c, t, e⟩ := hpg _ e
      cases e
    · exact ⟨h.1, ih1 h1 h.2.1, ih2 h2 h.2.2⟩

theorem below_tokens (sh : Nat) (ts : List (Lang × PyStr)) {g : Forest Item} {b : Bool} (h : Below pg b g) :
    Below pg b (ts.foldr (fun t f => .node (.text t.2 sh (some t.1)) .nil f) g) := by
  induction ts with
  | nil => exact h
  | cons t ts ih =>
    refine ⟨fun e => ?_, trivial, by simpa [startsColumns] using ih⟩
    obtain ⟨c, t, e⟩ := hpg _ e
    cases e

theorem below_tokenized {f : Forest Item} : ∀ {b : Bool}, Below pg b f → Below pg b (tokenized f) := by
  induction f with
  | nil => intro _ _; trivial
  | node a cs sibs ih1 ih2 =>
    intro b h
    by_cases ht : a.isText
    · cases a <;> simp [Item.isText] at ht
      have := ih2 h.2.2
      exact below_tokens hpg _ _ (by simpa [startsColumns] using this)
    · rw [tokenized_other _ _ _ (by simpa using ht)]
      exact ⟨h.1, ih1 h.2.1, ih2 h.2.2⟩

omit hpg in
theorem below_extract {f : Forest Item} : ∀ {b : Bool} {a : Item} {cs f' : Forest Item}, extractSection f = some ((a, cs), f') → Below pg b f →
    Below pg true cs ∧ Below pg b f' := by
  induction f with
  | nil => intro b a cs f' e _; cases e
  | node x ks sibs ih1 ih2 =>
    intro b a cs f' e h
    simp only [extractSection] at e
    split at e
    · next hs =>
      simp only [Option.some.injEq, Prod.mk.injEq] at e
      obtain ⟨⟨rfl, rfl⟩, rfl⟩ := e
      have h2 := h.2.1
      rw [hs] at h2
      exact ⟨h2, h.2.2.mono and_left⟩
    · split at e
      · next sd cs' e1 =>
        simp only [Option.some.injEq, Prod.mk.injEq] at e
        obtain ⟨rfl, rfl⟩ := e
        obtain ⟨i1, i2⟩ := ih1 e1 h.2.1
        exact ⟨i1, h.1, i2, h.2.2⟩
      · split at e
        · next sd sibs' e1 =>
          simp only [Option.some.injEq, Prod.mk.injEq] at e
          obtain ⟨rfl, rfl⟩ := e
          obtain ⟨i1, i2⟩ := ih2 e1 h.2.2
          exact ⟨i1, h.1, h.2.1, i2⟩
        · cases e

theorem below_columned (k : Nat) : ∀ (f : Forest Item) (b : Bool), f.size ≤ k → Below pg b f → Below pg b (columned f) := by
  induction k with
  | zero =>
    intro f b hk _
    cases f with
    | nil => rw [columned_nil]; trivial
    | node a cs sibs => simp [Forest.size] at hk
  | succ k ih =>
    intro f b hk h
    cases f with
    | nil => rw [columned_nil]; trivial
    | node a cs sibs =>
      simp only [Forest.size] at hk
      have h1 := ih cs _ (by omega) h.2.1
      by_cases hp : startsColumns a
      · rw [columned_start hp]
        have h2 := h.2.2
        rw [hp, Bool.not_true, Bool.and_false] at h2
        have := sibs.size_takeWhile (!startsColumns ·)
        have := sibs.size_dropWhile (!startsColumns ·)
        have ht := ih _ _ (by omega) (below_takeWhile (!startsColumns ·) h2)
        have hd := ih _ _ (by omega) (below_dropWhile (!startsColumns ·) h2)
        refine ⟨fun e => ?_, ⟨fun e => ?_, h1, ht.any _⟩, hd.any _⟩
        · obtain ⟨c, t, e⟩ := hpg _ e
          cases e
        · obtain ⟨c, t, rfl⟩ := hpg _ e
          cases hp
      · rw [columned_other (by simpa using hp)]
        exact ⟨h.1, h1, ih _ _ (by omega) h.2.2⟩

/-- All passes. -/
theorem below_section (sid : Option Nat) (f b : Forest Item) (h : ProperSection f) (hb : Below pg false f)
    (e : sectionEvents sid (.ofList (eventsOf f)) = .ofList (eventsOf b)) : ∃ i t g, b = .node (.sectionDef (sid.or i) t) g .nil ∧ Below pg true g := by
  obtain ⟨f1, f6, f8, cs, i, t, h1, h2, h3, h4, -, -, -, -, -, h5, -⟩ := Props.pipeline_all sid f h
  have hC : ∀ a : Item, a.isParagraph = true ∨ a.isTableCell = true → pg a = false := by
    intro a ha
    cases e : pg a with
    | false => rfl
    | true =>
      obtain ⟨c, t, rfl⟩ := hpg _ e
      rcases ha with ha | ha <;> cases ha
  have b1 := below_fielded hpg h5 (below_inlined hpg (below_texted hpg h1 hb))
  have b2 := below_adopt Item.isListHeader Item.isParagraph (fun a ha => hC a (.inl ha)) _ _ _ (Nat.le_refl _) b1
  have b3 := below_adopt Item.isTableBody Item.isTableCell (fun a ha => hC a (.inr ha)) _ _ _ (Nat.le_refl _) b2
  obtain ⟨b4, b5⟩ := below_extract h3 (below_tokenized hpg (below_rowed hpg h2 b3))
  refine ⟨i, t, columned (cs.append f8), ?_, below_columned hpg _ _ _ (Nat.le_refl _) (below_append b4 b5)⟩
  exact eventsOf_injective (ofList_injective (e.symm.trans h4))

omit hpg in
/-- Without definitions of sections, such items are at the top. -/
theorem below_top {f : Forest Item} : ∀ {b : Bool}, Below pg b f → (∀ a ∈ f.items, a.isSectionDef = false) →
    f.items.filter pg = f.roots.filter pg ∧ (b = false → f.items.filter pg = []) := by
  induction f with
  | nil => intro _ _ _; exact ⟨rfl, fun _ => rfl⟩
  | node a cs sibs ih1 ih2 =>
    intro b h hs
    have hc := h.2.1
    rw [hs a (by simp [Forest.items])] at hc
    have i1 := (ih1 hc fun a ha => hs a (by simp [Forest.items, ha])).2 rfl
    obtain ⟨i2, i3⟩ := ih2 h.2.2 fun a ha => hs a (by simp [Forest.items, ha])
    refine ⟨?_, ?_⟩
    · simp only [Forest.items, Forest.roots, List.filter_cons, List.filter_append, i1, i2, List.nil_append]
    · rintro rfl
      have : pg a = false := by
        cases e : pg a with
        | false => rfl
        | true => exact absurd (h.1 e) (by simp)
      simp only [Forest.items, List.filter_cons, List.filter_append, i1, i3 rfl, this, Bool.false_eq_true, if_false, List.nil_append]

end

/-! ### The records of a section -/

/-- The items of definitions of pages. -/
def pageItem (ms : List (PModel Fields)) : Item → Bool
  | .other _ t => (ms[t]?).map (·.type) == some "PageDef"
  | _ => false

theorem pageItem_other {ms : List (PModel Fields)} (a : Item) (h : pageItem ms a = true) : ∃ c t, a = .other c t := by
  cases a <;> first | cases h | exact ⟨_, _, rfl⟩

theorem pageItem_itemOf {ms : List (PModel Fields)} {i : Nat} {m : PModel Fields} (hm : ms[i]? = some m) : pageItem ms (itemOf i m) = true ↔ m.type = "PageDef" := by
  constructor
  · intro h
    obtain ⟨c, t, e⟩ := pageItem_other _ h
    rw [e] at h
    have ht : t = i := by
      have : ∀ c' t', itemOf i m = .other c' t' → t' = i :=
        itemOf_cases i m (fun a => ∀ c' t', a = .other c' t' → t' = i) (fun _ => by simp) (fun _ => by simp) (fun _ => by simp) (fun _ => by simp) (fun _ => by simp)
          (fun _ => by simp) (fun _ => by simp) (fun _ => by simp) (fun _ => by simp) (fun _ => by simp) (fun _ => by simp)
          (fun _ => ⟨fun _ => by simp, fun _ => by simp, fun _ => by simp, fun _ c' t' e => by simp only [Item.other.injEq] at e; exact e.2.symm⟩)
      exact this c t e
    subst ht
    simpa [pageItem, hm] using h
  · intro h
    have : itemOf i m = .other (modelNames.idxOf m.type) i := by
      unfold itemOf
      rw [h]
      rfl
    rw [this]
    simp [pageItem, hm, h]

theorem section_itemOf (i : Nat) (m : PModel Fields) (h : m.type = "SectionDef") : (itemOf i m).isSectionDef = true := by
  unfold itemOf
  rw [h]
  rfl

theorem section_type {i : Nat} {m : PModel Fields} (h : (itemOf i m).isSectionDef = true) : m.type = "SectionDef" := by
  cases e : itemOf i m <;> rw [e] at h <;> first | exact (itemOf_sectionDef e).1 | cases h

section
variable {ms : List (PModel Fields)}

theorem below_none {f : Forest (Nat × PModel Fields)} (hf : ∀ p, .start p ∈ eventsOf f → ms[p.1]? = some p.2) (h : recordsOf "PageDef" f = []) :
    ∀ b, Below (pageItem ms) b (f.map fun p => itemOf p.1 p.2) := by
  induction f with
  | nil => intro _; trivial
  | node a cs sibs ih1 ih2 =>
    intro b
    simp only [recordsOf, List.append_eq_nil_iff] at h
    refine ⟨fun e => ?_, ih1 (fun p hp => hf p (by simp [eventsOf, hp])) h.1.2 _, ih2 (fun p hp => hf p (by simp [eventsOf, hp])) h.2 _⟩
    have := (pageItem_itemOf (hf a (by simp [eventsOf]))).1 e
    simp [this] at h

theorem below_records {f : Forest (Nat × PModel Fields)} (hf : ∀ p, .start p ∈ eventsOf f → ms[p.1]? = some p.2) {sec page : PModel Fields} {i : Nat}
    {below rest : Forest (Nat × PModel Fields)} (h : (sec, Forest.node (i, page) below rest) ∈ recordsWith "SectionDef" f) (hp : page.type = "PageDef")
    (hl : (recordsOf "PageDef" f).length ≤ 1) : ∀ b, Below (pageItem ms) b (f.map fun p => itemOf p.1 p.2) := by
  have sub : ∀ g : Forest (Nat × PModel Fields), (sec, Forest.node (i, page) below rest) ∈ recordsWith "SectionDef" g → 1 ≤ (recordsOf "PageDef" g).length := by
    intro g
    induction g with
    | nil => intro h; cases h
    | node a cs sibs ih1 ih2 =>
      intro h
      simp only [recordsWith, List.mem_append] at h
      simp only [recordsOf, List.length_append]
      rcases h with (h | h) | h
      · split at h
        · simp only [List.mem_singleton, Prod.mk.injEq] at h
          rw [← h.2]
          simp only [recordsOf, hp, if_true, List.length_append, List.length_singleton]
          omega
        · cases h
      · have := ih1 h; omega
      · have := ih2 h; omega
  induction f with
  | nil => intro _; trivial
  | node a cs sibs ih1 ih2 =>
    intro b
    have f1 : ∀ p, .start p ∈ eventsOf cs → ms[p.1]? = some p.2 := fun p hp => hf p (by simp [eventsOf, hp])
    have f2 : ∀ p, .start p ∈ eventsOf sibs → ms[p.1]? = some p.2 := fun p hp => hf p (by simp [eventsOf, hp])
    have ha := hf a (by simp [eventsOf])
    simp only [recordsOf, List.length_append] at hl
    have no : ∀ g : Forest (Nat × PModel Fields), (recordsOf "PageDef" g).length = 0 → recordsOf "PageDef" g = [] := fun g e => List.length_eq_zero_iff.1 e
    have top : a.2.type ≠ "PageDef" → ∀ b, pageItem ms (itemOf a.1 a.2) = true → b = true := fun h b e => absurd ((pageItem_itemOf ha).1 e) h
    have two : 1 ≤ (recordsOf "PageDef" cs).length + (recordsOf "PageDef" sibs).length → a.2.type ≠ "PageDef" := by
      intro h e
      rw [if_pos e, List.length_singleton] at hl
      omega
    simp only [recordsWith, List.mem_append] at h
    rcases h with (h | h) | h
    · split at h
      · next e =>
        simp only [List.mem_singleton, Prod.mk.injEq] at h
        obtain ⟨rfl, rfl⟩ := h
        simp only [recordsOf, hp, if_true, List.length_append, List.length_singleton] at hl
        have hx := f1 (i, page) (by simp [eventsOf])
        refine ⟨top (by rw [e]; decide) _, ⟨fun _ => section_itemOf _ _ e, ?_, ?_⟩, below_none f2 (no _ (by omega)) _⟩
        · exact below_none (fun p hp => f1 p (by simp [eventsOf, hp])) (no _ (by omega)) _
        · exact below_none (fun p hp => f1 p (by simp [eventsOf, hp])) (no _ (by omega)) _
      · cases h
    · have := sub _ h
      exact ⟨top (two (by omega)) _, ih1 f1 h (by omega) _, below_none f2 (no _ (by omega)) _⟩
    · have := sub _ h
      exact ⟨top (two (by omega)) _, below_none f1 (no _ (by omega)) _, ih2 f2 h (by omega) _⟩

theorem kept_page (l : List Item) : (l.flatMap keptItem).filter (pageItem ms) = l.filter (pageItem ms) := by
  induction l with
  | nil => rfl
  | cons a l ih =>
    rw [List.flatMap_cons, List.filter_append, ih]
    cases a <;> simp [keptItem, pageItem, List.filter_cons]
    split <;> rfl

theorem kept_section (l : List Item) : ((l.flatMap keptItem).filter Item.isSectionDef).length = (l.filter Item.isSectionDef).length := by
  induction l with
  | nil => rfl
  | cons a l ih =>
    rw [List.flatMap_cons, List.filter_append, List.length_append, ih]
    cases a <;> simp [keptItem, Item.isSectionDef, List.filter_cons]
    omega

theorem page_items {f : Forest (Nat × PModel Fields)} (hf : ∀ p, .start p ∈ eventsOf f → ms[p.1]? = some p.2) :
    ∃ is : List Nat, is.map (fun i => ms[i]?) = (recordsOf "PageDef" f).map some ∧
      (f.map fun p => itemOf p.1 p.2).items.filter (pageItem ms) = is.map fun i => .other (modelNames.idxOf "PageDef") i := by
  induction f with
  | nil => exact ⟨[], rfl, rfl⟩
  | node a cs sibs ih1 ih2 =>
    obtain ⟨i1, e1, e2⟩ := ih1 fun p hp => hf p (by simp [eventsOf, hp])
    obtain ⟨i2, e3, e4⟩ := ih2 fun p hp => hf p (by simp [eventsOf, hp])
    have ha := hf a (by simp [eventsOf])
    simp only [Forest.map, Forest.items, List.filter_cons, List.filter_append, e2, e4, recordsOf, List.map_append]
    by_cases e : a.2.type = "PageDef"
    · rw [if_pos ((pageItem_itemOf ha).2 e), if_pos e]
      refine ⟨a.1 :: (i1 ++ i2), by simp [e1, e3, ha], ?_⟩
      have : itemOf a.1 a.2 = .other (modelNames.idxOf "PageDef") a.1 := by
        unfold itemOf
        rw [e]
        rfl
      simp [this]
    · rw [if_neg (fun h => e ((pageItem_itemOf ha).1 h)), if_neg e]
      exact ⟨i1 ++ i2, by simp [e1, e3], by simp⟩

theorem section_items {f : Forest (Nat × PModel Fields)} :
    ((f.map fun p => itemOf p.1 p.2).items.filter Item.isSectionDef).length = (recordsWith "SectionDef" f).length := by
  induction f with
  | nil => rfl
  | node a cs sibs ih1 ih2 =>
    simp only [Forest.map, Forest.items, List.filter_cons, List.filter_append, recordsWith, List.length_append]
    by_cases e : a.2.type = "SectionDef"
    · rw [if_pos (section_itemOf _ _ e), if_pos e]
      simp only [List.length_cons, List.length_append, ih1, ih2, List.length_nil]
      omega
    · rw [if_neg (fun h => e (section_type h)), if_neg e]
      simp only [List.length_append, ih1, ih2, List.length_nil, Nat.zero_add]

/-- The definition of the pages is directly below that of the section. -/
theorem section_page {f : Forest (Nat × PModel Fields)} (hf : ∀ p, .start p ∈ eventsOf f → ms[p.1]? = some p.2) {page : PModel Fields} (h : SectionPaper f page)
    (idx : Nat) (b : Forest Item) (hp : ProperSection (f.map fun p => itemOf p.1 p.2)) (hb : SectionBody idx f b)
    (e : sectionEvents (some idx) (.ofList (eventsOf (f.map fun p => itemOf p.1 p.2))) = .ofList (eventsOf b)) :
    ∃ t g i, b = .node (.sectionDef (some idx) t) g .nil ∧ ms[i]? = some page ∧ page.type = "PageDef" ∧
      g.roots.filter (pageItem ms) = [.other (modelNames.idxOf "PageDef") i] := by
  obtain ⟨sec, i0, below, rest, h1⟩ := h.one
  have hty : page.type = "PageDef" := (recordsOf_start f (by rw [h.page]; simp : page ∈ recordsOf "PageDef" f)).1
  have hB := below_records hf (h1 ▸ List.mem_singleton.2 rfl : (sec, Forest.node (i0, page) below rest) ∈ recordsWith "SectionDef" f) hty (by rw [h.page]; simp) false
  obtain ⟨i', t, g, rfl, hg⟩ := below_section pageItem_other _ _ _ hp hB e
  obtain ⟨i1, t1, g1, e1, -, hk, -⟩ := hb
  rw [starts_eventsOf] at hk
  have hsec : ((Forest.node (Item.sectionDef ((some idx).or i') t) g .nil).items.filter Item.isSectionDef).length = 1 := by
    rw [← kept_section, (hk.filter _).length_eq, allItems_eq, kept_section, section_items, h1]
    rfl
  have hnone : ∀ a ∈ g.items, a.isSectionDef = false := by
    intro a ha
    simp only [Forest.items, List.append_nil, List.filter_cons, Item.isSectionDef, if_true, List.length_cons, Nat.add_eq_right] at hsec
    have := List.length_eq_zero_iff.1 hsec
    rw [List.filter_eq_nil_iff] at this
    simpa using this a ha
  obtain ⟨is, e2, e3⟩ := page_items hf
  rw [h.page] at e2
  obtain ⟨i, rfl⟩ : ∃ i, is = [i] := by
    match is, e2 with
    | [i], _ => exact ⟨i, rfl⟩
    | [], e => simp at e
    | _ :: _ :: _, e => simp at e
  refine ⟨t, g, i, rfl, by simpa using e2, hty, ?_⟩
  have := hk.filter (pageItem ms)
  rw [kept_page, allItems_eq, kept_page, e3] at this
  simp only [Forest.items, List.append_nil, List.filter_cons, pageItem, Bool.false_eq_true, if_false, List.map_cons, List.map_nil] at this
  rw [← (below_top hg hnone).1]
  exact List.perm_singleton.1 this

end

end Hwp
