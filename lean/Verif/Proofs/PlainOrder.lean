/-
The text of a section in the order it is shown.
-/
import Verif.Proofs.PipelineE
import Verif.Spec.Plaintext
set_option linter.unusedSimpArgs false
set_option linter.unusedVariables false
set_option autoImplicit false
namespace Hwp
open Spec

/-! ### Text with stand-ins -/

/-- The text of an element whose children have this text. -/
def plainNode (defs : Nat → Option PyStr) (a : Item) (kids : PyStr) : PyStr :=
  match standIn defs a with
  | some s => s
  | none => textItem a ++ kids ++ (if a.isParagraph then [10] else [])

/-- The text of a forest. -/
def plainOf (defs : Nat → Option PyStr) : Forest Item → PyStr
  | .nil => []
  | .node a cs sibs => plainNode defs a (plainOf defs cs) ++ plainOf defs sibs

/-- Nothing but what is inside. -/
def bareItem (a : Item) : Prop :=
  (∀ defs, standIn defs a = none) ∧ textItem a = [] ∧ a.isParagraph = false

section
variable (defs : Nat → Option PyStr)

theorem plainNode_bare {a : Item} (h : bareItem a) (k : PyStr) : plainNode defs a k = k := by
  simp [plainNode, h.1, h.2.1, h.2.2]

theorem plain_append (f g : Forest Item) : plainOf defs (f.append g) = plainOf defs f ++ plainOf defs g := by
  induction f with
  | nil => rfl
  | node a cs sibs _ ih => simp [Forest.append, plainOf, ih]

theorem plain_cons (a : Item) (cs sibs : Forest Item) :
    plainOf defs (.node a cs sibs) = plainOf defs (.node a cs .nil) ++ plainOf defs sibs := by simp [plainOf]

/-! ### Fields -/

/-- The text read off events; `h` elements with a stand-in are open. -/
def plainGo : Nat → List IEv → PyStr
  | _, [] => []
  | h, .start a :: es =>
    match standIn defs a with
    | some s => (if h = 0 then s else []) ++ plainGo (h + 1) es
    | none => (if h = 0 then textItem a else []) ++ plainGo h es
  | h, .stop a :: es =>
    match standIn defs a with
    | some _ => plainGo (h - 1) es
    | none => (if h = 0 ∧ a.isParagraph then [10] else []) ++ plainGo h es

theorem plainGo_forest (f : Forest Item) : ∀ h rest,
    plainGo defs h (eventsOf f ++ rest) = (if h = 0 then plainOf defs f else []) ++ plainGo defs h rest := by
  induction f with
  | nil => intro h rest; simp [eventsOf, plainOf]
  | node a cs sibs ih1 ih2 =>
    intro h rest
    simp only [eventsOf, List.cons_append, List.append_assoc, List.nil_append, plainGo]
    cases hs : standIn defs a with
    | some s =>
      dsimp only
      rw [ih1]
      simp only [plainGo, hs, Nat.add_eq_zero_iff, Nat.one_ne_zero, and_false, if_false, List.nil_append, Nat.add_sub_cancel]
      rw [ih2]
      by_cases h0 : h = 0 <;> simp [h0, plainOf, plainNode, hs]
    | none =>
      dsimp only
      rw [ih1]
      simp only [plainGo, hs]
      rw [ih2]
      by_cases h0 : h = 0 <;> simp [h0, plainOf, plainNode, hs]

theorem plainGo_filter (es : List IEv) : ∀ h, plainGo defs h (es.filter notField) = plainGo defs h es := by
  induction es with
  | nil => intro h; rfl
  | cons e es ih =>
    intro h
    by_cases hn : notField e
    · rw [List.filter_cons_of_pos hn]
      cases e <;> simp only [plainGo, ih]
    · rw [List.filter_cons_of_neg hn, ih]
      have : bareItem e.item := by
        simp only [notField] at hn
        generalize e.item = a at hn ⊢
        cases a <;> simp_all [Item.isField, Item.isFieldEnd, bareItem, standIn, textItem, Item.isParagraph]
      cases e with
      | start a =>
        simp only [Ev.item] at this
        simp [plainGo, this.1, this.2.1]
      | stop a =>
        simp only [Ev.item] at this
        simp [plainGo, this.1, this.2.2]

theorem plain_eq_plainGo (f : Forest Item) : plainGo defs 0 (eventsOf f) = plainOf defs f := by
  have := plainGo_forest defs f 0 []
  simpa [plainGo] using this

theorem fielded_plain (f : Forest Item) (h : FieldsPaired f) : plainOf defs (fielded f) = plainOf defs f := by
  rw [← plain_eq_plainGo, ← plain_eq_plainGo, ← plainGo_filter, fielded_filter f h, plainGo_filter]

/-! ### The other passes -/

theorem adopt_plain (isP isC : Item → Bool) (hp : ∀ a, isP a → bareItem a) (n : Nat) :
    ∀ f : Forest Item, f.size ≤ n → plainOf defs (adopt isP isC f) = plainOf defs f := by
  induction n with
  | zero =>
    intro f hf
    cases f with
    | nil => rw [adopt_nil]
    | node a cs sibs => simp [Forest.size] at hf
  | succ n ih =>
    intro f hf
    cases f with
    | nil => rw [adopt_nil]
    | node a cs sibs =>
      simp only [Forest.size] at hf
      have c1 := ih cs (by omega)
      by_cases h : isP a
      · rw [adopt_node_parent h]
        have h2 := ih (sibs.takeWhile isC) (by have := sibs.size_takeWhile isC; omega)
        have h3 := ih (sibs.dropWhile isC) (by have := sibs.size_dropWhile isC; omega)
        have hs := Forest.takeWhile_append_dropWhile isC sibs
        have ho : plainOf defs sibs = plainOf defs (sibs.takeWhile isC) ++ plainOf defs (sibs.dropWhile isC) := by
          rw [← plain_append, hs]
        simp only [plainOf, plainNode_bare defs (hp a h), plain_append, c1, h2, h3, ho, List.append_assoc]
      · rw [adopt_node_other (by simpa using h)]
        have h2 := ih sibs (by omega)
        simp [plainOf, c1, h2]

theorem groupRows_plain (ws : List Nat) : ∀ f : Forest Item, f.roots.length = ws.sum →
    plainOf defs (groupRows ws f) = plainOf defs f := by
  induction ws with
  | nil =>
    intro f h
    cases f with
    | nil => rfl
    | node a cs sibs => simp [Forest.roots] at h
  | cons w ws ih =>
    intro f h
    simp only [List.sum_cons] at h
    have := ih (f.drop w) (by simp [Forest.roots_drop]; omega)
    simp only [groupRows, plainOf, this]
    rw [plainNode_bare defs ⟨fun _ => rfl, rfl, rfl⟩, ← plain_append, Forest.take_append_drop]

theorem rowed_plain (f : Forest Item) : ∀ b g, rowed b f = some g → plainOf defs g = plainOf defs f := by
  induction f with
  | nil =>
    intro b g h
    cases b <;> (simp [rowed] at h; subst h; rfl)
  | node a cs sibs ih1 ih2 =>
    intro b g h
    obtain ⟨cs', sibs', h2, ⟨ws, t, rfl, h1, h3, rfl⟩ | ⟨-, h1, rfl⟩⟩ := rowed_cases h
    · have := groupRows_plain defs ws cs' (by rw [rowed_roots cs cs' h1, h3])
      have i1 := ih1 _ _ h1
      have i2 := ih2 _ _ h2
      simp only [plainOf, this, i1, i2]
      rfl
    · have i1 := ih1 _ _ h1
      have i2 := ih2 _ _ h2
      simp [plainOf, i1, i2]

theorem tokens_plain (sh : Nat) (ts : List (Lang × PyStr)) (g : Forest Item) :
    plainOf defs (ts.foldr (fun t f => .node (.text t.2 sh (some t.1)) .nil f) g) = (ts.map (·.2)).flatten ++ plainOf defs g := by
  induction ts with
  | nil => rfl
  | cons t ts ih =>
    simp only [List.foldr_cons, plainOf, ih]
    simp [plainNode, standIn, textItem, Item.isParagraph]

theorem tokenized_plain (f : Forest Item) (h : TextLeaves f) : plainOf defs (tokenized f) = plainOf defs f := by
  induction f with
  | nil => rfl
  | node a cs sibs ih1 ih2 =>
    obtain ⟨h1, h2, h3⟩ := h
    by_cases ht : a.isText
    · rw [h1 ht]
      cases a <;> simp [Item.isText] at ht
      case text s sh l =>
      simp only [tokenized]
      rw [tokens_plain, (Props.C19_tokenize s).1, ih2 h3]
      simp [plainOf, plainNode, standIn, textItem, Item.isParagraph]
    · rw [tokenized_other _ _ _ (by simpa using ht)]
      simp [plainOf, ih1 h2, ih2 h3]

theorem columned_plain (n : Nat) : ∀ f : Forest Item, f.size ≤ n → plainOf defs (columned f) = plainOf defs f := by
  induction n with
  | zero =>
    intro f hf
    cases f with
    | nil => rw [columned_nil]
    | node a cs sibs => simp [Forest.size] at hf
  | succ n ih =>
    intro f hf
    cases f with
    | nil => rw [columned_nil]
    | node a cs sibs =>
      simp only [Forest.size] at hf
      have h1 := ih cs (by omega)
      by_cases hs : startsColumns a
      · rw [columned_start hs]
        have h2 := ih (sibs.takeWhile (!startsColumns ·)) (by have := sibs.size_takeWhile (!startsColumns ·); omega)
        have h3 := ih (sibs.dropWhile (!startsColumns ·)) (by have := sibs.size_dropWhile (!startsColumns ·); omega)
        have hs := Forest.takeWhile_append_dropWhile (!startsColumns ·) sibs
        have ho : plainOf defs sibs = plainOf defs (sibs.takeWhile (!startsColumns ·)) ++ plainOf defs (sibs.dropWhile (!startsColumns ·)) := by
          rw [← plain_append, hs]
        simp only [plainOf, plainNode_bare defs (a := .columnSet) ⟨fun _ => rfl, rfl, rfl⟩, h1, h2, h3, ho, List.append_assoc]
      · rw [columned_other (by simpa using hs)]
        have h2 := ih sibs (by omega)
        simp [plainOf, h1, h2]
end

/-! ### The section definition -/

/-- How often there is a section definition with this number. -/
def defCount (t : Nat) : Forest Item → Nat
  | .nil => 0
  | .node a cs sibs => (match a with | .sectionDef _ i => if i = t then 1 else 0 | _ => 0) + defCount t cs + defCount t sibs

theorem plain_noDef (t : Nat) (s : PyStr) (f : Forest Item) (h : defCount t f = 0) :
    plainOf (insteadOf t s) f = plainOf allDefs f := by
  induction f with
  | nil => rfl
  | node a cs sibs ih1 ih2 =>
    simp only [defCount, Nat.add_eq_zero_iff] at h
    simp only [plainOf, ih1 h.1.2, ih2 h.2]
    congr 1
    cases a <;> simp_all [plainNode, standIn, insteadOf, allDefs]

theorem extract_plain (f : Forest Item) : ∀ i t cs f', extractSection f = some ((.sectionDef i t, cs), f') → defCount t f = 1 →
    defCount t cs = 0 ∧ defCount t f' = 0 ∧
    plainOf (insteadOf t (plainOf allDefs cs)) f = plainOf allDefs f ∧
    plainOf (insteadOf t []) f = plainOf allDefs f' := by
  induction f with
  | nil => intro i t cs f' h; cases h
  | node a cs sibs ih1 ih2 =>
    intro i t ks f' h hc
    simp only [extractSection] at h
    split at h
    · rename_i hs
      simp only [Option.some.injEq, Prod.mk.injEq] at h
      obtain ⟨⟨rfl, rfl⟩, rfl⟩ := h
      simp only [defCount, if_true] at hc
      have h1 : defCount t cs = 0 := by omega
      have h2 : defCount t sibs = 0 := by omega
      refine ⟨h1, h2, ?_, ?_⟩
      · simp only [plainOf, plain_noDef t _ sibs h2]
        simp [plainNode, standIn, insteadOf, allDefs, textItem, Item.isParagraph]
      · simp only [plainOf, plain_noDef t _ sibs h2]
        simp [plainNode, standIn, insteadOf, allDefs, textItem, Item.isParagraph]
    · rename_i hs
      have ha : ∀ t s, standIn (insteadOf t s) a = standIn allDefs a := by
        intro t s; cases a <;> simp_all [standIn, Item.isSectionDef]
      have hn : ∀ t s k, plainNode (insteadOf t s) a k = plainNode allDefs a k := by
        intro t s k; simp [plainNode, ha]
      have hcount : ∀ c s, defCount t (.node a c s) = defCount t c + defCount t s := by
        intro c s; cases a <;> simp_all [defCount, Item.isSectionDef]
      rw [hcount] at hc
      split at h
      · rename_i sd cs' heq
        simp only [Option.some.injEq, Prod.mk.injEq] at h
        obtain ⟨rfl, rfl⟩ := h
        have hpos : 0 < defCount t cs := by
          clear ih1 ih2 hc
          have : ∀ (g : Forest Item) i ks g', extractSection g = some ((.sectionDef i t, ks), g') → 0 < defCount t g := by
            intro g
            induction g with
            | nil => intro i ks g' h; cases h
            | node b c s j1 j2 =>
              intro i ks g' h
              simp only [extractSection] at h
              split at h
              · simp only [Option.some.injEq, Prod.mk.injEq] at h
                obtain ⟨⟨rfl, rfl⟩, rfl⟩ := h
                simp [defCount]; omega
              · split at h
                · rename_i heq
                  simp only [Option.some.injEq, Prod.mk.injEq] at h
                  obtain ⟨rfl, rfl⟩ := h
                  have := j1 _ _ _ heq
                  simp only [defCount]; omega
                · split at h
                  · rename_i heq
                    simp only [Option.some.injEq, Prod.mk.injEq] at h
                    obtain ⟨rfl, rfl⟩ := h
                    have := j2 _ _ _ heq
                    simp only [defCount]; omega
                  · cases h
          exact this _ _ _ _ heq
        obtain ⟨i1, i2, i3, i4⟩ := ih1 _ _ _ _ heq (by omega)
        have h2 : defCount t sibs = 0 := by omega
        refine ⟨i1, by rw [hcount]; omega, ?_, ?_⟩
        · simp only [plainOf, hn, i3, plain_noDef t _ sibs h2]
        · simp only [plainOf, hn, i4, plain_noDef t _ sibs h2]
      · split at h
        · rename_i hcn sd sibs' heq
          simp only [Option.some.injEq, Prod.mk.injEq] at h
          obtain ⟨rfl, rfl⟩ := h
          have h1 : defCount t cs = 0 := by
            clear ih1 ih2 hc heq
            have : ∀ g : Forest Item, extractSection g = none → defCount t g = 0 := by
              intro g
              induction g with
              | nil => intro _; rfl
              | node b c s j1 j2 =>
                intro h
                simp only [extractSection] at h
                split at h
                · cases h
                · rename_i hb
                  split at h
                  · cases h
                  · rename_i hc
                    split at h
                    · cases h
                    · rename_i hd
                      simp only [defCount, j1 hc, j2 hd]
                      cases b <;> simp_all [Item.isSectionDef]
            exact this _ (by assumption)
          obtain ⟨i1, i2, i3, i4⟩ := ih2 _ _ _ _ heq (by omega)
          refine ⟨i1, by rw [hcount]; omega, ?_, ?_⟩
          · simp only [plainOf, hn, i3, plain_noDef t _ cs h1]
          · simp only [plainOf, hn, i4, plain_noDef t _ cs h1]
        · cases h

/-! ### Inlining -/

/-- The trees with their texts. -/
def rootPlains (defs : Nat → Option PyStr) : Forest Item → List (Item × PyStr)
  | .nil => []
  | .node a cs sibs => (a, plainNode defs a (plainOf defs cs)) :: rootPlains defs sibs

section
variable (defs : Nat → Option PyStr)

theorem plain_roots (f : Forest Item) : plainOf defs f = ((rootPlains defs f).map (·.2)).flatten := by
  induction f with
  | nil => rfl
  | node a cs sibs _ ih => simp [plainOf, rootPlains, ih]

theorem rootPlains_append (f g : Forest Item) : rootPlains defs (f.append g) = rootPlains defs f ++ rootPlains defs g := by
  induction f with
  | nil => rfl
  | node a cs sibs _ ih => simp [Forest.append, rootPlains, ih]

theorem rootPlains_roots (f : Forest Item) : (rootPlains defs f).map (·.1) = f.roots := by
  induction f with
  | nil => rfl
  | node a cs sibs _ ih => simp [Forest.roots, rootPlains, ih]

/-- The text of a control with what is in it. -/
def treePlain (t : Item × Forest Item) : PyStr := plainNode defs t.1 (plainOf defs t.2)

theorem topControls_plain (f : Forest Item) :
    (topControls f).map (treePlain defs) = ((rootPlains defs f).filter fun k => k.1.isControl).map (·.2) := by
  induction f with
  | nil => rfl
  | node a cs sibs _ ih =>
    simp only [topControls, rootPlains, List.filter_cons]
    by_cases h : a.isControl <;> simp [h, ih, treePlain]

theorem withoutControls_plain (f : Forest Item) :
    plainOf defs (withoutControls f) = ((((rootPlains defs f).filter fun k => !k.1.isControl).map (·.2))).flatten := by
  induction f with
  | nil => rfl
  | node a cs sibs _ ih =>
    simp only [withoutControls, rootPlains, List.filter_cons]
    by_cases h : a.isControl <;> simp [h, ih, plainOf]

/-- A line of pieces with the texts of controls in the places of its anchors; and the texts left. -/
def lineText : List PyStr → List Item → PyStr × List PyStr
  | q, [] => ([], q)
  | q, a :: as =>
    if isAnchor a then
      let r := lineText q.tail as
      ((q.head?).getD [] ++ r.1, r.2)
    else
      let r := lineText q as
      (textItem a ++ r.1, r.2)

theorem lineText_append (q : List PyStr) (as bs : List Item) :
    lineText q (as ++ bs) = ((lineText q as).1 ++ (lineText (lineText q as).2 bs).1, (lineText (lineText q as).2 bs).2) := by
  induction as generalizing q with
  | nil => rfl
  | cons a as ih =>
    simp only [List.cons_append, lineText]
    split <;> simp [ih]

theorem placeIn_plain (as : List Item) : ∀ q, (∀ a ∈ as, IsPiece a) →
    plainOf defs (placeIn q (leaves as)).1 = (lineText (q.map (treePlain defs)) as).1 ∧
    (placeIn q (leaves as)).2.map (treePlain defs) = (lineText (q.map (treePlain defs)) as).2 := by
  induction as with
  | nil => intro q _; exact ⟨rfl, rfl⟩
  | cons a as ih =>
    intro q h
    have hp := h a (by simp)
    have h' : ∀ b ∈ as, IsPiece b := fun b hb => h b (by simp [hb])
    have hnode : isAnchor a = true ∨ isAnchor a = false → plainNode defs a [] = textItem a := by
      intro _
      rcases hp with ⟨s, sh, rfl⟩ | ⟨c, k, sh, -, rfl⟩ <;> simp [plainNode, standIn, textItem, Item.isParagraph]
    have htx : isAnchor a = true → textItem a = [] := by
      rcases hp with ⟨s, sh, rfl⟩ | ⟨c, k, sh, -, rfl⟩ <;> simp [isAnchor, textItem]
    simp only [leaves]
    by_cases ha : isAnchor a = true
    · cases q with
      | nil =>
        have := ih [] h'
        simp only [placeIn, ha, lineText, plainOf, hnode (.inl ha), htx ha, if_true, List.map_nil, List.tail_nil, List.head?_nil, Option.getD_none,
          List.nil_append]
        exact this
      | cons t q =>
        obtain ⟨c, k⟩ := t
        have := ih q h'
        rw [placeIn_anchor _ _ _ _ _ _ ha]
        simp only [lineText, ha, if_true, List.map_cons, List.tail_cons, List.head?_cons, Option.getD_some, plainOf]
        exact ⟨by rw [this.1]; rfl, this.2⟩
    · simp only [Bool.not_eq_true] at ha
      have := ih q h'
      rw [placeIn_other _ _ _ _ ha]
      simp only [lineText, ha, Bool.false_eq_true, if_false, plainOf, hnode (.inr ha)]
      exact ⟨by rw [this.1], this.2⟩

theorem placeLines_plain (ls : List (LineId × List Item)) : ∀ q, (∀ l ∈ ls, ∀ a ∈ l.2, IsPiece a) →
    plainOf defs (placeLines q (lineForest ls)).1 = (lineText (q.map (treePlain defs)) (ls.flatMap (·.2))).1 ∧
    (placeLines q (lineForest ls)).2.map (treePlain defs) = (lineText (q.map (treePlain defs)) (ls.flatMap (·.2))).2 := by
  induction ls with
  | nil => intro q _; exact ⟨rfl, rfl⟩
  | cons l ls ih =>
    intro q h
    obtain ⟨p1, p2⟩ := placeIn_plain defs l.2 q (h l (by simp))
    obtain ⟨i1, i2⟩ := ih (placeIn q (leaves l.2)).2 (fun l hl => h l (by simp [hl]))
    simp only [lineForest, placeLines, Item.isLineSeg, if_true, plainOf, List.flatMap_cons, lineText_append, p1, i1, i2]
    rw [p2, plainNode_bare defs ⟨fun _ => rfl, rfl, rfl⟩]
    exact ⟨rfl, rfl⟩

theorem placeLines_others (W L : Forest Item) (h : ∀ a ∈ W.roots, a.isLineSeg = false) (q : List (Item × Forest Item)) :
    (placeLines q (W.append L)).1 = W.append (placeLines q L).1 := by
  induction W with
  | nil => rfl
  | node a cs sibs _ ih =>
    simp only [Forest.append, placeLines, h a (by simp [Forest.roots]), Bool.false_eq_true, if_false]
    rw [ih (fun b hb => h b (by simp [Forest.roots, hb]))]

end

/-! ### Pieces of text -/

/-- The same as `placed`, of values. -/
def placedVals : List PyStr → List ChunkVal → PyStr
  | _, [] => []
  | q, .text s :: cs => s ++ placedVals q cs
  | q, .ctrl d :: cs =>
    if kindOf d.code = some .extended then (q.head?).getD [] ++ placedVals q.tail cs else placedVals q cs

theorem placed_vals (q : List PyStr) (cs : List Chunk) : placed q cs = placedVals q (cs.map (·.val)) := by
  induction cs generalizing q with
  | nil => rfl
  | cons c cs ih =>
    obtain ⟨a, b, v⟩ := c
    cases v <;> simp [placed, placedVals, ih]

theorem placed_cut {α : Type} {ps cs : List (RChunk α)} (h : Cut ps cs) (q : List PyStr) :
    placedVals q (ps.map (·.val)) = placedVals q (cs.map (·.val)) := by
  induction h generalizing q with
  | nil => rfl
  | @keep c ps cs _ ih =>
    simp only [List.map_cons]
    cases c.val <;> simp [placedVals, ih]
  | @cut a b m attr s ps cs h1 h2 _ ih =>
    have := ih q
    simp only [List.map_cons, placedVals] at this ⊢
    rw [this, ← List.append_assoc, List.take_append_drop]

theorem lineText_pieces (vs : List (Nat × ChunkVal)) : ∀ (as : List Item) (q : List PyStr),
    as.map some = vs.map (fun v => pieceItem v.1 v.2) → (lineText q as).1 = placedVals q (vs.map (·.2)) := by
  induction vs with
  | nil =>
    intro as q h
    simp only [List.map_nil, List.map_eq_nil_iff] at h
    subst h; rfl
  | cons v vs ih =>
    intro as q h
    obtain ⟨a, as, rfl⟩ : ∃ a as', as = a :: as' := by
      cases as with
      | nil => simp at h
      | cons a as => exact ⟨a, as, rfl⟩
    simp only [List.map_cons, List.cons.injEq] at h
    obtain ⟨h1, h2⟩ := h
    obtain ⟨sh, v⟩ := v
    cases v with
    | text s =>
      simp only [pieceItem, Option.some.injEq] at h1
      subst h1
      simp [lineText, isAnchor, placedVals, textItem, ih as q h2]
    | ctrl d =>
      simp only [pieceItem] at h1
      cases hk : kindOf d.code with
      | none => rw [hk] at h1; simp at h1
      | some k =>
        rw [hk] at h1
        simp only [Option.map_some, Option.some.injEq] at h1
        subst h1
        cases k <;> simp [lineText, isAnchor, placedVals, textItem, hk, ih as _ h2]

theorem lines_placed (kids : List Item) (L : Forest Item) (h : LinesOf kids L) :
    ∃ items : List (LineId × List Item), L = lineForest items ∧ (∀ l ∈ items, ∀ a ∈ l.2, IsPiece a) ∧
      ∀ q, (lineText q (items.flatMap (·.2))).1 = placed q (paraChunks kids) := by
  obtain ⟨shapes, lines, items, -, hcut, -, -, h5, h6, rfl⟩ := h
  refine ⟨items, rfl, ?_, ?_⟩
  · intro l hl a ha
    have : l.2.map some ∈ items.map (·.2.map some) := List.mem_map.2 ⟨l, hl, rfl⟩
    rw [h6] at this
    obtain ⟨l', -, hl'⟩ := List.mem_map.1 this
    have : some a ∈ l.2.map some := List.mem_map.2 ⟨a, ha, rfl⟩
    rw [← hl'] at this
    obtain ⟨c, -, hc⟩ := List.mem_map.1 this
    exact pieceItem_isPiece _ _ _ hc
  · intro q
    have e1 : (items.flatMap (·.2)).map some = (lines.flatMap (·.2)).map fun c => pieceItem c.attr c.val := by
      have := congrArg List.flatten h6
      simpa [List.flatMap, List.map_flatten, List.map_map, Function.comp_def] using this
    have e2 := lineText_pieces ((lines.flatMap (·.2)).map fun c => (c.attr, c.val)) (items.flatMap (·.2)) q (by
      rw [e1, List.map_map]; rfl)
    rw [e2, placed_vals]
    have := placed_cut hcut q
    simpa [paraRanges, List.map_map, Function.comp_def] using this

/-! ### Making and placing the texts -/

theorem inlined_leaves (l : List Item) : inlined (leaves l) = leaves l := by
  induction l with
  | nil => rfl
  | cons a l ih =>
    simp only [leaves, inlined, ih, topControls, withoutControls, placeLines]
    split <;> rfl

theorem inlined_lineForest (ls : List (LineId × List Item)) : inlined (lineForest ls) = lineForest ls := by
  induction ls with
  | nil => rfl
  | cons l ls ih => simp [lineForest, inlined, Item.isParagraph, ih, inlined_leaves]

theorem controls_lineForest (ls : List (LineId × List Item)) :
    topControls (lineForest ls) = [] ∧ withoutControls (lineForest ls) = lineForest ls := by
  induction ls with
  | nil => exact ⟨rfl, rfl⟩
  | cons l ls ih => simp [lineForest, topControls, withoutControls, Item.isControl, ih]

theorem withoutControls_roots (f : Forest Item) : ∀ b ∈ (withoutControls f).roots, b ∈ f.roots := by
  induction f with
  | nil => intro b hb; cases hb
  | node a cs sibs _ ih =>
    intro b hb
    simp only [withoutControls] at hb
    split at hb
    · simp [Forest.roots, ih b hb]
    · simp only [Forest.roots, List.mem_cons] at hb ⊢
      exact hb.imp id (ih b)

theorem inlined_roots (f : Forest Item) : (inlined f).roots = f.roots := by
  induction f with
  | nil => rfl
  | node a cs sibs _ ih =>
    simp only [inlined]
    split <;> simp [Forest.roots, ih]

theorem rootTexts_roots (defs : Nat → Option PyStr) (f : Forest Item) : (rootTexts defs f).map (·.1) = f.roots := by
  induction f with
  | nil => rfl
  | node a cs sibs _ ih => simp [Forest.roots, rootTexts, ih]

theorem textRecord_control (a : Item) (h : isTextRecord a) : a.isControl = false := by
  cases a <;> simp_all [isTextRecord, Item.isControl]

theorem filter_control (l : List (Item × PyStr)) :
    ((l.filter fun k => !isTextRecord k.1).filter fun k => k.1.isControl) = l.filter fun k => k.1.isControl := by
  rw [List.filter_filter]
  congr 1
  funext k
  cases h : isTextRecord k.1
  · simp
  · simp [textRecord_control _ h]

/-- Text records have no text. -/
theorem recordTexts_empty (defs : Nat → Option PyStr) (f : Forest Item) (hf : Everywhere NodeOk f) :
    ∀ k ∈ rootTexts defs f, isTextRecord k.1 → k.2 = [] := by
  induction f with
  | nil => intro k hk; cases hk
  | node a cs sibs _ ih =>
    intro k hk ht
    simp only [rootTexts, List.mem_cons] at hk
    rcases hk with rfl | hk
    · have h0 : cs.roots = [] := hf.1.2.1 (.inl ht)
      dsimp only at ht ⊢
      rw [forest_nil_of_roots h0]
      cases a <;> simp_all [isTextRecord, nodeText, standIn, rootTexts, Item.isParagraph]
    · exact ih hf.2.2 k hk ht

theorem flatten_filter (l : List (Item × PyStr)) (p : Item × PyStr → Bool) (h : ∀ k ∈ l, p k = false → k.2 = []) :
    ((l.filter p).map (·.2)).flatten = (l.map (·.2)).flatten := by
  induction l with
  | nil => rfl
  | cons k l ih =>
    have ih := ih fun k hk => h k (by simp [hk])
    simp only [List.filter_cons]
    by_cases hp : p k
    · simp [hp, ih]
    · simp [hp, ih, h k (by simp) (by simpa using hp)]

theorem texted_plain (defs : Nat → Option PyStr) {f f1 : Forest Item} (h : Texted f f1) : Everywhere NodeOk f →
    rootPlains defs (inlined f1) = (rootTexts defs f).filter fun k => !isTextRecord k.1 := by
  induction h with
  | nil => intro _; rfl
  | @record a sibs sibs' ha _ ih =>
    intro hf
    simp [rootTexts, List.filter_cons, ha, ih hf.2.2]
  | @paragraph a cs cs' L sibs sibs' hp ht hL hs ih1 ih2 =>
    intro hf
    obtain ⟨items, rfl, hi, hpl⟩ := lines_placed _ _ hL
    have i1 := ih1 hf.2.1
    have i2 := ih2 hf.2.2
    have htr : isTextRecord a = false := by cases a <;> simp_all [Item.isParagraph, isTextRecord]
    have hst : standIn defs a = none := by cases a <;> simp_all [Item.isParagraph, standIn]
    have hta : textItem a = [] := by cases a <;> simp_all [Item.isParagraph, textItem]
    simp only [inlined, hp, if_true, rootPlains, rootTexts, List.filter_cons, htr, Bool.not_false, i2]
    congr 2
    simp only [plainNode, nodeText, hst, hta, hp, if_true, List.nil_append]
    rw [inlined_append, inlined_lineForest, topControls_append, withoutControls_append, (controls_lineForest items).1,
      (controls_lineForest items).2, List.append_nil, placeLines_others, plain_append]
    · congr 1
      rw [(placeLines_plain defs items _ hi).1, hpl, topControls_plain, i1, filter_control, rootTexts_roots, withoutControls_plain, i1]
      congr 1
      rw [List.filter_filter]
      have he := recordTexts_empty defs cs hf.2.1
      generalize rootTexts defs cs = l at he
      induction l with
      | nil => rfl
      | cons k l ih =>
        have ih := ih fun k hk => he k (by simp [hk])
        have hk := he k (by simp)
        simp only [List.filter_cons]
        cases h1 : isTextRecord k.1 <;> cases h2 : k.1.isControl <;> simp_all
    · intro b hb
      have hb := withoutControls_roots _ b hb
      rw [inlined_roots, texted_roots ht] at hb
      have hk := hf.1
      have hin := (List.mem_filter.1 hb)
      unfold NodeOk at hk
      rw [if_pos hp] at hk
      have := hk.2.2.1 b hin.1
      cases b <;> simp_all [inParagraph, isTextRecord, Item.isControl, Item.isLineSeg]
  | @other a cs cs' sibs sibs' ht hp hc hs ih1 ih2 =>
    intro hf
    have i1 := ih1 hf.2.1
    have i2 := ih2 hf.2.2
    have hm := hf.1.1
    have htx : textItem a = [] := by cases a <;> simp_all [madeByPasses, textItem]
    simp only [inlined, hp, Bool.false_eq_true, if_false, rootPlains, rootTexts, List.filter_cons, ht, Bool.not_false, if_true, i2]
    congr 2
    simp only [plainNode, nodeText, hp, htx, List.nil_append, Bool.false_eq_true, if_false, List.append_nil]
    cases standIn defs a with
    | some s => rfl
    | none =>
      dsimp only
      rw [plain_roots, i1]
      exact flatten_filter _ _ fun k hk h => recordTexts_empty defs cs hf.2.1 k hk (by simpa using h)

end Hwp
