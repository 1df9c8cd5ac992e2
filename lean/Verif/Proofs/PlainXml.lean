/-
The text of the XML file of a document: trees, and the text read off the events.
-/
import Verif.Proofs.DocQuiet
import Verif.Proofs.PlainSection
import Verif.Proofs.XmlParse
import Verif.Model.Plaintext
import Verif.Proofs.DocAll
set_option linter.unusedSimpArgs false
set_option linter.unusedVariables false
set_option autoImplicit false
namespace Hwp
open Spec

theorem lit_injective {a b : String} (h : lit a = lit b) : a = b := by
  unfold lit at h
  apply String.ext
  exact (List.map_inj_right (fun x y hxy => Char.toNat_inj.1 hxy)).1 h

theorem lit_eq (a b : String) : lit a = lit b ↔ a = b := ⟨lit_injective, fun h => by rw [h]⟩

/-! ### Trees -/

/-- Events of complete elements and texts, and their trees. -/
inductive BalX : List XEv → Forest XNode → Prop
  | nil : BalX [] .nil
  | text {t r T} : BalX r T → BalX (.text t :: r) (.node (.text t) .nil T)
  | elem {n as k K r T} : BalX k K → BalX r T → BalX (.start n as :: (k ++ .stop n :: r)) (.node (.elem n as) K T)

theorem forest_append_nil {α : Type} (f : Forest α) : f.append .nil = f := by
  induction f with
  | nil => rfl
  | node a cs sibs _ ih => simp [Forest.append, ih]

theorem bal_tree {evs : List XEv} {T : Forest XNode} (h : BalX evs T) : ∀ s st, evs.foldr treeStep (s :: st) = T.append s :: st := by
  induction h with
  | nil => intro s st; rfl
  | text _ ih => intro s st; rw [List.foldr_cons, ih]; rfl
  | elem _ _ ih1 ih2 =>
    intro s st
    rw [List.foldr_cons, List.foldr_append, List.foldr_cons, ih2]
    simp only [treeStep]
    rw [ih1]
    simp [treeStep, Forest.append, forest_append_nil]

theorem bal_append {a b : List XEv} {A B : Forest XNode} (ha : BalX a A) (hb : BalX b B) : BalX (a ++ b) (A.append B) := by
  induction ha with
  | nil => exact hb
  | text _ ih => exact .text ih
  | @elem n as k K r T h1 h2 ih1 ih2 =>
    have := BalX.elem (as := as) (n := n) h1 ih2
    simpa [Forest.append] using this

theorem inside_bal (n : Nat) : ∀ (evs : List XEv) (top : PyStr) (st : List PyStr), evs.length ≤ n → Inside (top :: st) evs →
    ∃ k r T, evs = k ++ .stop top :: r ∧ BalX k T ∧ Inside st r := by
  induction n with
  | zero =>
    intro evs top st hl h
    cases evs with
    | nil => cases h
    | cons => simp at hl
  | succ n ih =>
    intro evs top st hl h
    cases evs with
    | nil => cases h
    | cons e r =>
      simp only [List.length_cons, Nat.add_le_add_iff_right] at hl
      cases e with
      | stop m =>
        obtain ⟨rfl, h⟩ := h
        exact ⟨[], r, .nil, rfl, .nil, h⟩
      | text t =>
        obtain ⟨k, r', T, rfl, h1, h2⟩ := ih r top st hl h
        exact ⟨.text t :: k, r', _, rfl, .text h1, h2⟩
      | start m as =>
        obtain ⟨k1, r1, T1, rfl, h1, h2⟩ := ih r m (top :: st) hl h
        obtain ⟨k2, r2, T2, rfl, h3, h4⟩ := ih r1 top st (by simp at hl; omega) h2
        exact ⟨.start m as :: (k1 ++ .stop m :: k2), r2, _, by simp, .elem h1 h3, h4⟩

theorem joined_before (a b : List XEv) (h : ∀ t r, joined b ≠ .text t :: r) : joined (a ++ b) = joined a ++ joined b := by
  induction a with
  | nil => rfl
  | cons e a ih =>
    cases e with
    | start n as => simp [joined, ih]
    | stop n => simp [joined, ih]
    | text t =>
      simp only [List.cons_append, joined, ih]
      cases ha : joined a with
      | nil =>
        cases hb : joined b with
        | nil => simp
        | cons x r =>
          cases x with
          | text u => exact absurd hb (h u r)
          | start n as => simp only [List.nil_append]; split <;> simp
          | stop n => simp only [List.nil_append]; split <;> simp
      | cons x r =>
        cases x with
        | text u => simp
        | start n as => simp only [List.cons_append]; split <;> simp
        | stop n => simp only [List.cons_append]; split <;> simp

theorem kids_bal {a : List XEv} (h : Kids a) : ∃ T, BalX (joined a) T := by
  have h1 : Inside [[]] (a ++ [.stop []]) := h [] [] [.stop []] ⟨rfl, rfl⟩
  have h2 := joined_inside _ _ h1
  rw [joined_before a [.stop []] (by intro t r h; simp [joined] at h)] at h2
  simp only [joined] at h2
  obtain ⟨k, r, T, e, h3, h4⟩ := inside_bal _ _ _ _ (Nat.le_refl _) h2
  simp only [Inside] at h4
  subst h4
  obtain ⟨rfl, -⟩ := List.append_inj_left' e rfl, trivial
  exact ⟨T, h3⟩

/-! ### The text read off the events -/

/-- What is there in place of an element of this name and all in it. -/
def hides (n : PyStr) : Option PyStr :=
  if n = lit "ControlChar" then some []
  else if n = lit "TableControl" then some (lit "\n<표>\n")
  else if n = lit "GShapeObjectControl" then some (lit "\n<그림>\n")
  else none

/-- The text; `h` of the open elements have something in their place. -/
def streamX : Nat → List XEv → PyStr
  | _, [] => []
  | h, .text t :: es => (if h = 0 then t else []) ++ streamX h es
  | h, .start n _ :: es =>
    match hides n with
    | some s => (if h = 0 then s else []) ++ streamX (h + 1) es
    | none => streamX h es
  | h, .stop n :: es =>
    match hides n with
    | some _ => streamX (h - 1) es
    | none => (if h = 0 ∧ n = lit "Paragraph" then [10] else []) ++ streamX h es

/-- Every `Text` has only one text. -/
def TextPlain : List XEv → Prop
  | [] => True
  | .start n _ :: r => (n = lit "Text" → (∃ r', r = .stop (lit "Text") :: r') ∨ ∃ t r', r = .text t :: .stop (lit "Text") :: r') ∧ TextPlain r
  | _ :: r => TextPlain r

theorem textPlain_append (a b : List XEv) (h : TextPlain (a ++ b)) : TextPlain b := by
  induction a with
  | nil => exact h
  | cons e a ih =>
    cases e with
    | start n as => exact ih h.2
    | stop n => exact ih h
    | text t => exact ih h

theorem bal_stop {k : List XEv} {K : Forest XNode} (h : BalX k K) (m n : PyStr) (r r' : List XEv)
    (e : k ++ .stop m :: r = .stop n :: r') : k = [] ∧ K = .nil := by
  cases h with
  | nil => exact ⟨rfl, rfl⟩
  | text _ => cases e
  | elem _ _ => cases e

theorem bal_textStop {k : List XEv} {K : Forest XNode} (h : BalX k K) (m n t : PyStr) (r r' : List XEv)
    (e : k ++ .stop m :: r = .text t :: .stop n :: r') : K = .node (.text t) .nil .nil := by
  cases h with
  | nil => cases e
  | text h =>
    simp only [List.cons_append, List.cons.injEq, XEv.text.injEq] at e
    obtain ⟨rfl, e⟩ := e
    obtain ⟨-, rfl⟩ := bal_stop h _ _ _ _ e
    rfl
  | elem _ _ => cases e

theorem stream_bal {evs : List XEv} {T : Forest XNode} (hb : BalX evs T) : ∀ h rest, TextPlain (evs ++ rest) →
    streamX h (evs ++ rest) = (if h = 0 then applyTemplates T else []) ++ streamX h rest := by
  induction hb with
  | nil => intro h rest _; simp [applyTemplates]
  | @text t r T _ ih =>
    intro h rest ht
    simp only [List.cons_append, streamX, applyTemplates]
    rw [ih h rest ht]
    by_cases h0 : h = 0 <;> simp [h0]
  | @elem n as k K r T hk hr ih1 ih2 =>
    intro h rest ht
    simp only [List.cons_append, List.append_assoc] at ht ⊢
    have ht2 := ht.2
    have ht3 : TextPlain (r ++ rest) := textPlain_append (k ++ [.stop n]) _ (by simpa using ht2)
    simp only [streamX, applyTemplates]
    have i2 := ih2 h rest ht3
    unfold hides
    by_cases h1 : n = lit "ControlChar"
    · subst h1
      rw [if_pos rfl]
      dsimp only
      rw [ih1 _ _ ht2]
      simp only [streamX, hides, if_true, Nat.add_eq_zero_iff, Nat.one_ne_zero, and_false, if_false, Nat.add_sub_cancel, i2]
      by_cases h0 : h = 0 <;> simp [h0, lit_eq]
    rw [if_neg h1]
    by_cases h2 : n = lit "TableControl"
    · subst h2
      rw [if_pos rfl]
      dsimp only
      rw [ih1 _ _ ht2]
      simp only [streamX, hides, if_neg h1, if_true, Nat.add_eq_zero_iff, Nat.one_ne_zero, and_false, if_false, Nat.add_sub_cancel, i2]
      by_cases h0 : h = 0 <;> simp [h0, lit_eq]
    rw [if_neg h2]
    by_cases h3 : n = lit "GShapeObjectControl"
    · subst h3
      rw [if_pos rfl]
      dsimp only
      rw [ih1 _ _ ht2]
      simp only [streamX, hides, if_neg h1, if_neg h2, if_true, Nat.add_eq_zero_iff, Nat.one_ne_zero, and_false, if_false, Nat.add_sub_cancel, i2]
      by_cases h0 : h = 0 <;> simp [h0, lit_eq]
    rw [if_neg h3]
    dsimp only
    rw [ih1 _ _ ht2]
    simp only [streamX, hides, if_neg h1, if_neg h2, if_neg h3, i2]
    by_cases h4 : n = lit "Paragraph"
    · subst h4
      by_cases h0 : h = 0 <;> simp [h0]
    · simp only [if_neg h4, and_false, if_false, List.nil_append]
      by_cases h5 : n = lit "Text"
      · subst h5
        simp only [if_true]
        have : firstText K = applyTemplates K := by
          rcases ht.1 rfl with ⟨r', e⟩ | ⟨t, r', e⟩
          · obtain ⟨-, rfl⟩ := bal_stop hk _ _ _ _ e
            rfl
          · rw [bal_textStop hk _ _ _ _ _ e]
            simp [firstText, applyTemplates]
        rw [this]
        by_cases h0 : h = 0 <;> simp [h0, h4]
      · simp only [if_neg h5]
        by_cases h0 : h = 0 <;> simp [h0, h4]

/-! ### Joining -/

theorem hides_noNul (n s : PyStr) (h : hides n = some s) : noNul s = s := by
  unfold hides at h
  split at h
  · cases h; rfl
  split at h
  · cases h; decide +kernel
  split at h
  · cases h; decide +kernel
  cases h

theorem stream_joined (evs : List XEv) : ∀ h, streamX h (joined evs) = noNul (streamX h evs) := by
  induction evs with
  | nil => intro h; rfl
  | cons e evs ih =>
    intro h
    cases e with
    | start n as =>
      simp only [joined, streamX]
      cases hn : hides n with
      | none => exact ih h
      | some s =>
        dsimp only
        rw [ih, noNul_append]
        by_cases h0 : h = 0
        · rw [if_pos h0, hides_noNul n s hn]
        · rw [if_neg h0]; rfl
    | stop n =>
      simp only [joined, streamX]
      cases hn : hides n with
      | some s => exact ih _
      | none =>
        dsimp only
        rw [ih, noNul_append]
        split <;> rfl
    | text t =>
      have i := ih h
      simp only [joined]
      cases hj : joined evs with
      | nil =>
        rw [hj] at i
        simp only [streamX] at i ⊢
        rw [noNul_append, ← i]
        split
        · rename_i hz
          by_cases h0 : h = 0 <;> simp [h0, hz, streamX, noNul]
          simpa [noNul] using hz
        · by_cases h0 : h = 0 <;> simp [h0, streamX, noNul]
      | cons x r =>
        rw [hj] at i
        cases x with
        | text u =>
          simp only [streamX] at i ⊢
          rw [noNul_append, ← i]
          by_cases h0 : h = 0 <;> simp [h0, noNul]
        | start n as =>
          simp only at i ⊢
          rw [streamX, noNul_append, ← i]
          by_cases hz : noNul t = []
          · rw [if_pos hz]
            by_cases h0 : h = 0
            · rw [if_pos h0, hz]; rfl
            · rw [if_neg h0]; rfl
          · rw [if_neg hz, streamX]
            by_cases h0 : h = 0
            · rw [if_pos h0, if_pos h0]
            · rw [if_neg h0, if_neg h0]; rfl
        | stop n =>
          simp only at i ⊢
          rw [streamX, noNul_append, ← i]
          by_cases hz : noNul t = []
          · rw [if_pos hz]
            by_cases h0 : h = 0
            · rw [if_pos h0, hz]; rfl
            · rw [if_neg h0]; rfl
          · rw [if_neg hz, streamX]
            by_cases h0 : h = 0
            · rw [if_pos h0, if_pos h0]
            · rw [if_neg h0, if_neg h0]; rfl

theorem textPlain_joined (evs : List XEv) (h : TextPlain evs) : TextPlain (joined evs) := by
  induction evs with
  | nil => trivial
  | cons e evs ih =>
    cases e with
    | start n as =>
      refine ⟨fun hn => ?_, ih h.2⟩
      rcases h.1 hn with ⟨r', rfl⟩ | ⟨t, r', rfl⟩
      · exact .inl ⟨_, rfl⟩
      · simp only [joined]
        split
        · exact .inl ⟨_, rfl⟩
        · exact .inr ⟨_, _, rfl⟩
    | stop n => exact ih h
    | text t =>
      have i := ih h
      simp only [joined]
      cases hj : joined evs with
      | nil => dsimp only; split <;> trivial
      | cons x r =>
        rw [hj] at i
        cases x with
        | text u => exact i
        | start n as =>
          dsimp only
          split
          · exact i
          · exact i
        | stop n =>
          dsimp only
          split
          · exact i
          · exact i

/-! ### Events of models -/

/-- The text read off the events of models. -/
def streamM : Nat → List (Ev ModelItem) → PyStr
  | _, [] => []
  | h, .start m :: es =>
    match hides (lit m.model) with
    | some s => (if h = 0 then s else []) ++ streamM (h + 1) es
    | none => (if h = 0 ∧ m.model = "Text" then heardText m else []) ++ streamM h es
  | h, .stop m :: es =>
    match hides (lit m.model) with
    | some _ => streamM (h - 1) es
    | none => (if h = 0 ∧ lit m.model = lit "Paragraph" then [10] else []) ++ streamM h es

/-- Every `Text` is closed at once. -/
def TextPairs : List (Ev String) → Prop
  | [] => True
  | .start n :: r => (n = "Text" → ∃ r', r = .stop "Text" :: r') ∧ TextPairs r
  | .stop _ :: r => TextPairs r

theorem hides_quiet {n : PyStr} (h : n ∉ loudNames) : hides n = none ∧ n ≠ lit "Paragraph" ∧ n ≠ lit "Text" := by
  simp only [loudNames, List.mem_cons, List.not_mem_nil, or_false, not_or] at h
  obtain ⟨h1, h2, h3, h4, h5, -⟩ := h
  exact ⟨by simp [hides, h3, h4, h5], h1, h2⟩

theorem quieted_stream (kids : List XEv) (hk : Quieted kids) (rest : List XEv) :
    (∀ h, streamX h (kids ++ rest) = streamX h rest) ∧ (TextPlain rest → TextPlain (kids ++ rest)) := by
  induction kids with
  | nil => exact ⟨fun _ => rfl, id⟩
  | cons e kids ih =>
    have i := ih fun e he => hk e (by simp [he])
    have he := hk e (by simp)
    cases e with
    | text t => cases he
    | start n as =>
      obtain ⟨q1, q2, q3⟩ := hides_quiet he
      refine ⟨fun h => ?_, fun ht => ⟨fun e => absurd e q3, i.2 ht⟩⟩
      simp only [List.cons_append, streamX, q1]
      exact i.1 h
    | stop n =>
      obtain ⟨q1, q2, q3⟩ := hides_quiet he
      refine ⟨fun h => ?_, i.2⟩
      simp only [List.cons_append, streamX, q1, q2, and_false, if_false, List.nil_append]
      exact i.1 h

theorem ofList_injective {α : Type} {a b : List α} (h : Gen.ofList a = Gen.ofList b) : a = b := congrArg Gen.out h

theorem stream_models {env : XmlEnv} {es : List (Ev ModelItem)} {X : List XEv} (hx : XmlOf env es X) :
    (∀ m, .start m ∈ es → Heard env m) → TextPairs (es.map evName) →
    TextPlain X ∧ ∀ h, streamX h X = streamM h es := by
  induction hx with
  | nil => intro _ _; exact ⟨trivial, fun _ => rfl⟩
  | @cons e es x xs hx hxs ih =>
    intro hh hp
    have hh' : ∀ m, .start m ∈ es → Heard env m := fun m hm => hh m (by simp [hm])
    cases e with
    | stop m =>
      obtain ⟨i1, i2⟩ := ih hh' hp
      obtain rfl := ofList_injective hx
      refine ⟨i1, fun h => ?_⟩
      simp only [List.cons_append, List.nil_append, streamX, streamM, i2]
    | start m =>
      obtain ⟨i1, i2⟩ := ih hh' hp.2
      obtain ⟨attrs, kids, hm, hk⟩ := hh m (by simp)
      obtain rfl := ofList_injective (hx.symm.trans hm)
      by_cases ht : m.model = "Text"
      · rw [if_pos ht] at hk
        obtain ⟨r', hr'⟩ := hp.1 ht
        have hxs' : ∃ ys, xs = .stop (lit "Text") :: ys := by
          cases es with
          | nil => cases hr'
          | cons e' es' =>
            simp only [List.map_cons, List.cons.injEq] at hr'
            cases e' with
            | start _ => exact absurd hr'.1 (by simp [evName])
            | stop m' =>
              have hn : m'.model = "Text" := by simpa [evName] using hr'.1
              cases hxs with
              | cons hx' _ =>
                obtain rfl := ofList_injective hx'
                rw [hn]
                exact ⟨_, rfl⟩
        have hhid : hides (lit m.model) = none := by rw [ht]; decide +kernel
        obtain ⟨ys, rfl⟩ := hxs'
        subst hk
        constructor
        · simp only [List.cons_append]
          refine ⟨fun _ => ?_, ?_⟩
          · split
            · exact .inl ⟨_, rfl⟩
            · exact .inr ⟨_, _, rfl⟩
          · split
            · exact i1
            · exact i1
        · intro h
          simp only [List.cons_append, streamX, streamM, hhid]
          rw [← i2]
          by_cases he : heardText m = []
          · simp [he]
          · rw [if_neg he]
            by_cases h0 : h = 0 <;> simp [streamX, h0, ht]
      · rw [if_neg ht] at hk
        obtain ⟨q1, q2⟩ := quieted_stream kids hk xs
        refine ⟨⟨fun e => absurd (lit_injective e) ht, q2 i1⟩, fun h => ?_⟩
        simp only [List.cons_append, streamX, streamM, ht, and_false, if_false, List.nil_append, q1, i2]

/-! ### Numbers do not matter -/

theorem withId_model (pre : List (Ev ModelItem)) (m : ModelItem) : (withId pre m).model = m.model := by
  unfold withId; split <;> rfl

theorem numbered_stream : ∀ (es pre : List (Ev ModelItem)) (h : Nat), streamM h (numberedFrom pre es) = streamM h es := by
  intro es
  induction es with
  | nil => intro pre h; rfl
  | cons e es ih =>
    intro pre h
    cases e with
    | stop m => simp only [numberedFrom, streamM, ih]
    | start m =>
      simp only [numberedFrom, streamM, ih, withId_model]
      by_cases ht : m.model = "Text"
      · have : withId pre m = m := by unfold withId; rw [ht]; rfl
        rw [this]
      · simp only [ht, and_false, if_false]

theorem numbered_heard (env : XmlEnv) : ∀ (es pre : List (Ev ModelItem)), (∀ m, .start m ∈ es → IdHeard env m) →
    ∀ m, .start m ∈ numberedFrom pre es → Heard env m := by
  intro es
  induction es with
  | nil => intro pre _ m hm; cases hm
  | cons e es ih =>
    intro pre h m hm
    have h' : ∀ m, .start m ∈ es → IdHeard env m := fun m hm => h m (by simp [hm])
    cases e with
    | stop a =>
      simp only [numberedFrom, List.mem_cons, reduceCtorEq, false_or] at hm
      exact ih _ h' m hm
    | start a =>
      simp only [numberedFrom, List.mem_cons, Ev.start.injEq] at hm
      rcases hm with rfl | hm
      · have := h a (by simp)
        unfold IdHeard at this
        unfold withId
        cases hk : idNameOf a.model with
        | none => rw [hk] at this; exact this
        | some k => rw [hk] at this; exact this _
      · exact ih _ h' m hm

/-! ### The tree of a section -/

/-- Every item of the forest is an element of its kind. -/
def AllSound (F : Item → ModelItem) (f : Forest Item) : Prop := ∀ a, .start a ∈ eventsOf f → Sounds a (F a)

theorem allSound_node {F : Item → ModelItem} {a : Item} {cs sibs : Forest Item} (h : AllSound F (.node a cs sibs)) :
    Sounds a (F a) ∧ AllSound F cs ∧ AllSound F sibs :=
  ⟨h a (by simp [eventsOf]), fun b hb => h b (by simp [eventsOf, hb]), fun b hb => h b (by simp [eventsOf, hb])⟩

/-- What is there in place of the item and all in it. -/
def itemHides : Item → Option PyStr
  | .controlChar _ _ _ => some []
  | .tableControl _ => some (lit "\n<표>\n")
  | .gshapeControl _ => some (lit "\n<그림>\n")
  | _ => none

theorem sounds_hides {a : Item} {m : ModelItem} (h : Sounds a m) :
    hides (lit m.model) = itemHides a ∧
    (lit m.model = lit "Paragraph" ↔ a.isParagraph = true) ∧ (m.model = "Text" ↔ a.isText = true) := by
  have hq : m.model ∉ ["Paragraph", "Text", "ControlChar", "TableControl", "GShapeObjectControl"] →
      hides (lit m.model) = none ∧ lit m.model ≠ lit "Paragraph" ∧ m.model ≠ "Text" := by
    intro hx
    simp only [List.mem_cons, List.not_mem_nil, or_false, not_or] at hx
    obtain ⟨h1, h2, h3, h4, h5⟩ := hx
    refine ⟨?_, fun e => h1 (lit_injective e), h2⟩
    unfold hides
    rw [if_neg (fun e => h3 (lit_injective e)), if_neg (fun e => h4 (lit_injective e)), if_neg (fun e => h5 (lit_injective e))]
  cases a
  case text s sh l =>
    obtain ⟨h, -⟩ := h
    rw [h]
    exact ⟨by simp [hides, itemHides, lit_eq], by simp [Item.isParagraph, lit_eq], by simp [Item.isText]⟩
  case controlChar =>
    have h : m.model = _ := h
    rw [h]
    exact ⟨by simp [hides, itemHides, lit_eq], by simp [Item.isParagraph, lit_eq], by simp [Item.isText]⟩
  case tableControl =>
    have h : m.model = _ := h
    rw [h]
    exact ⟨by simp [hides, itemHides, lit_eq], by simp [Item.isParagraph, lit_eq], by simp [Item.isText]⟩
  case gshapeControl =>
    have h : m.model = _ := h
    rw [h]
    exact ⟨by simp [hides, itemHides, lit_eq], by simp [Item.isParagraph, lit_eq], by simp [Item.isText]⟩
  case paragraph =>
    have h : m.model = _ := h
    rw [h]
    exact ⟨by simp [hides, itemHides, lit_eq], by simp [Item.isParagraph], by simp [Item.isText]⟩
  all_goals
    obtain ⟨q1, q2, q3⟩ := hq h
    simp [q1, q2, q3, itemHides, Item.isParagraph, Item.isText]

theorem stream_items (F : Item → ModelItem) (f : Forest Item) : AllSound F f → Leafy f → ∀ h rest,
    streamM h (eventsOf (f.map F) ++ rest) = (if h = 0 then shownText f else []) ++ streamM h rest := by
  induction f with
  | nil => intro _ _ h rest; simp [Forest.map, eventsOf, shownText]
  | node a cs sibs ih1 ih2 =>
    intro hs hl h rest
    obtain ⟨s1, s2, s3⟩ := allSound_node hs
    obtain ⟨l1, l2, l3⟩ := hl
    have i1 := ih1 s2 l2
    have i2 := ih2 s3 l3
    obtain ⟨q1, q2, q3⟩ := sounds_hides s1
    simp only [Forest.map, eventsOf, List.cons_append, List.append_assoc, List.nil_append, streamM, q2, q3]
    rw [q1]
    unfold itemHides at q1 ⊢
    cases a
    case text s sh l =>
      rw [l1 rfl]
      simp only [Item.isText, and_true, Forest.map, eventsOf, List.nil_append, streamM, q1, Item.isParagraph, Bool.false_eq_true, and_false, if_false, i2,
        shownText]
      obtain ⟨-, s1⟩ := s1
      rw [s1]
      have q2' : ¬ lit (F (.text s sh l)).model = lit "Paragraph" := by rw [q2]; simp [Item.isParagraph]
      by_cases h0 : h = 0 <;> simp [h0, q2']
    case paragraph sp i =>
      have q2' : lit (F (.paragraph sp i)).model = lit "Paragraph" := by rw [q2]; rfl
      simp only [i1, streamM, q1, i2, Item.isText, Item.isParagraph, and_true, and_false, if_false, List.nil_append, Bool.false_eq_true, shownText, q2']
      have hp : hides (lit "Paragraph") = none := by simp [hides, lit_eq]
      by_cases h0 : h = 0 <;> simp [h0, hp]
    all_goals
      simp only [i1, streamM, q1, i2, Nat.add_eq_zero_iff, Nat.one_ne_zero, and_false, if_false, Nat.add_sub_cancel, Item.isText, Item.isParagraph,
        Bool.false_eq_true, List.nil_append, shownText, q2]
      by_cases h0 : h = 0 <;> simp [h0]

theorem pairs_items (F : Item → ModelItem) (f : Forest Item) : AllSound F f → Leafy f → ∀ rest, TextPairs rest →
    TextPairs ((eventsOf (f.map F)).map evName ++ rest) := by
  induction f with
  | nil => intro _ _ rest hr; exact hr
  | node a cs sibs ih1 ih2 =>
    intro hs hl rest hr
    obtain ⟨s1, s2, s3⟩ := allSound_node hs
    obtain ⟨l1, l2, l3⟩ := hl
    have i2 := ih2 s3 l3 rest hr
    have i1 := ih1 s2 l2 (.stop (F a).model :: ((eventsOf (sibs.map F)).map evName ++ rest)) i2
    obtain ⟨q1, q2, q3⟩ := sounds_hides s1
    simp only [Forest.map, eventsOf, List.map_cons, List.map_append, List.map_nil, List.cons_append, List.append_assoc, List.nil_append, evName]
    refine ⟨fun ht => ?_, i1⟩
    rw [l1 (by simp [isLeaf, q3.1 ht]), ht]
    exact ⟨_, rfl⟩

end Hwp
