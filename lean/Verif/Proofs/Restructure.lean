import Verif.Spec.Passes
import Verif.Proofs.Events
import Verif.Proofs.Fields
namespace Hwp
open Spec
set_option linter.unusedSimpArgs false

/-! ### make_paragraphs_children_of_listheader -/

theorem listHeader_forest (isP isC : Item → Bool) (hdis : ∀ a, isP a → isC a = false)
    (err : Option PyErr) (f : Forest Item) : ∀ (st : List (Int × Item)) (lv : Int) (b : Item) (rest : List IEv),
    (∀ p ∈ st, p.1 ≤ lv) →
    listHeaderGo isP isC err st lv (eventsOf f ++ .stop b :: rest) =
        .prepend (eventsOf (adopt isP isC f)) (listHeaderGo isP isC err st lv (.stop b :: rest)) ∧
    ∀ lh, listHeaderGo isP isC err ((lv + 1, lh) :: st) lv (eventsOf f ++ .stop b :: rest) =
        .prepend (eventsOf (adopt isP isC (f.takeWhile isC)) ++
            .stop lh :: eventsOf (adopt isP isC (f.dropWhile isC)))
          (listHeaderGo isP isC err st lv (.stop b :: rest)) := by
  induction f with
  | nil =>
    intro st lv b rest hst
    constructor
    · simp [eventsOf, adopt, Gen.prepend_nil]
    · intro lh
      have : lv + 1 - 1 = lv := by omega
      have hno : listHeaderGo isP isC err st lv (.stop b :: rest) =
          if isP b then listHeaderGo isP isC err st (lv - 1) rest
          else .cons (.stop b) (listHeaderGo isP isC err st (lv - 1) rest) := by
        cases st with
        | nil => simp only [listHeaderGo, Gen.prepend_nil]
        | cons p st =>
          have := hst p (by simp)
          simp only [listHeaderGo]
          rw [if_neg (by omega)]
          simp only [Gen.prepend_nil]
      rw [hno]
      simp only [eventsOf, List.nil_append, listHeaderGo, Forest.takeWhile, Forest.dropWhile, adopt, this,
        if_true, List.append_nil]
  | node a cs sibs ih1 ih2 =>
    intro st lv b rest hst
    have hst' : ∀ p ∈ st, p.1 ≤ lv + 1 := fun p hp => by have := hst p hp; omega
    have hstop : ∀ (es : List IEv) (st' : List (Int × Item)), (∀ p ∈ st', p.1 ≤ lv + 1) →
        listHeaderGo isP isC err st' (lv + 1) (.stop a :: es) =
          if isP a then listHeaderGo isP isC err st' lv es
          else .cons (.stop a) (listHeaderGo isP isC err st' lv es) := by
      intro es st' h'
      have h1 : lv + 1 - 1 = lv := by omega
      cases st' with
      | nil => simp only [listHeaderGo, h1, Gen.prepend_nil]
      | cons p st'' =>
        have := h' p (by simp)
        simp only [listHeaderGo]
        rw [if_neg (by omega)]
        simp only [h1, Gen.prepend_nil]
    have hstart : ∀ es : List IEv, listHeaderGo isP isC err st lv (.start a :: es) =
        .cons (.start a) (listHeaderGo isP isC err (if isP a then (lv + 1, a) :: st else st) (lv + 1) es) := by
      intro es
      cases st with
      | nil => simp only [listHeaderGo, Gen.prepend_nil]
      | cons p st' =>
        have := hst p (by simp)
        simp only [listHeaderGo]
        rw [if_neg (by omega)]
        simp only [Gen.prepend_nil]
    have hA : listHeaderGo isP isC err st lv (eventsOf (.node a cs sibs) ++ .stop b :: rest) =
        .prepend (eventsOf (adopt isP isC (.node a cs sibs)))
          (listHeaderGo isP isC err st lv (.stop b :: rest)) := by
      simp only [eventsOf, List.cons_append, List.append_assoc]
      rw [hstart, adopt]
      by_cases hp : isP a
      · simp only [hp, if_true]
        have h1 : ∀ p ∈ (lv + 1, a) :: st, p.1 ≤ lv + 1 := by
          intro p hp'
          rcases List.mem_cons.1 hp' with rfl | hp'
          · simp
          · exact hst' p hp'
        rw [(ih1 _ (lv + 1) a _ h1).1, hstop _ _ h1]
        simp only [hp, if_true]
        rw [(ih2 st lv b rest hst).2 a]
        simp [eventsOf, eventsOf_append, Gen.cons_eq_prepend, Gen.prepend_prepend]
      · simp only [hp, if_false, Bool.false_eq_true]
        rw [(ih1 _ (lv + 1) a _ hst').1, hstop _ _ hst']
        simp only [hp, if_false, Bool.false_eq_true]
        rw [(ih2 st lv b rest hst).1]
        simp [eventsOf, Gen.cons_eq_prepend, Gen.prepend_prepend]
    refine ⟨hA, ?_⟩
    intro lh
    by_cases hc : isC a
    · have hp : isP a = false := by
        cases h : isP a with
        | false => rfl
        | true => have := hdis a h; simp [this] at hc
      have h1 : ∀ p ∈ (lv + 1, lh) :: st, p.1 ≤ lv + 1 := by
        intro p hp'
        rcases List.mem_cons.1 hp' with rfl | hp'
        · simp
        · exact hst' p hp'
      simp only [eventsOf, List.cons_append, List.append_assoc]
      have hst2 : ∀ es : List IEv, listHeaderGo isP isC err ((lv + 1, lh) :: st) lv (.start a :: es) =
          .cons (.start a) (listHeaderGo isP isC err ((lv + 1, lh) :: st) (lv + 1) es) := by
        intro es
        simp [listHeaderGo, hc, Gen.prepend_nil, hp]
      rw [hst2, (ih1 _ (lv + 1) a _ h1).1, hstop _ _ h1]
      simp only [hp, Bool.false_eq_true, if_false]
      rw [(ih2 st lv b rest hst).2 lh]
      have had : ∀ s, adopt isP isC (.node a cs s) = .node a (adopt isP isC cs) (adopt isP isC s) := by
        intro s; rw [adopt]; simp [hp]
      simp only [Forest.takeWhile, Forest.dropWhile, hc, if_true, had]
      simp [eventsOf, Gen.cons_eq_prepend, Gen.prepend_prepend]
    · have : listHeaderGo isP isC err ((lv + 1, lh) :: st) lv (eventsOf (.node a cs sibs) ++ .stop b :: rest) =
          .prepend [.stop lh] (listHeaderGo isP isC err st lv (eventsOf (.node a cs sibs) ++ .stop b :: rest)) := by
        simp only [eventsOf, List.cons_append]
        rw [hstart]
        simp only [listHeaderGo]
        rw [if_pos (by simp [hc])]
      rw [this, hA]
      simp [Forest.takeWhile, Forest.dropWhile, hc, adopt, eventsOf, Gen.prepend_prepend]

/-- Without parents at the top level. -/
theorem listHeader_top (isP isC : Item → Bool) (hdis : ∀ a, isP a → isC a = false)
    (err : Option PyErr) (f : Forest Item) (htop : ∀ a ∈ f.roots, isP a = false) :
    listHeaderGo isP isC err [] 0 (eventsOf f) = ⟨eventsOf (adopt isP isC f), err⟩ := by
  induction f with
  | nil => simp [eventsOf, listHeaderGo, adopt]
  | node a cs sibs _ ih =>
    have hp := htop a (by simp [Forest.roots])
    have ih := ih (fun b hb => htop b (by simp [Forest.roots, hb]))
    simp only [eventsOf, listHeaderGo, Gen.prepend_nil, hp, Bool.false_eq_true, if_false]
    rw [(listHeader_forest isP isC hdis err cs [] (0 + 1) a (eventsOf sibs) (by simp)).1]
    simp only [listHeaderGo, Gen.prepend_nil, hp, Bool.false_eq_true, if_false]
    rw [show (0 : Int) + 1 - 1 = 0 from rfl, ih, adopt]
    simp [hp, eventsOf, Gen.cons, Gen.prepend]

theorem starts_append {α} (a b : List (Ev α)) : starts (a ++ b) = starts a ++ starts b := by
  induction a with
  | nil => rfl
  | cons e es ih => cases e <;> simp [starts, ih]

theorem Forest.takeWhile_append_dropWhile {α} (p : α → Bool) (f : Forest α) :
    (f.takeWhile p).append (f.dropWhile p) = f := by
  induction f with
  | nil => rfl
  | node a cs sibs _ ih =>
    simp only [Forest.takeWhile, Forest.dropWhile]
    split
    · simp [Forest.append, ih]
    · rfl

theorem adopt_starts {α} (isP isC : α → Bool) (n : Nat) : ∀ f : Forest α, f.size ≤ n →
    starts (eventsOf (adopt isP isC f)) = starts (eventsOf f) := by
  induction n with
  | zero =>
    intro f hf
    cases f with
    | nil => simp [adopt]
    | node a cs sibs => simp only [Forest.size] at hf; omega
  | succ n ih =>
    intro f hf
    cases f with
    | nil => simp [adopt]
    | node a cs sibs =>
      simp only [Forest.size] at hf
      rw [adopt]
      have h1 := ih cs (by omega)
      have h2 := ih sibs (by omega)
      have h3 := ih (sibs.takeWhile isC) (by have := sibs.size_takeWhile isC; omega)
      have h4 := ih (sibs.dropWhile isC) (by have := sibs.size_dropWhile isC; omega)
      split
      · have hs : starts (eventsOf sibs) =
            starts (eventsOf (sibs.takeWhile isC)) ++ starts (eventsOf (sibs.dropWhile isC)) := by
          rw [← starts_append, ← eventsOf_append, Forest.takeWhile_append_dropWhile]
        simp [eventsOf, starts, starts_append, eventsOf_append, h1, h3, h4, hs]
      · simp [eventsOf, starts, starts_append, h1, h2]

/-! ### tokenize_text_by_lang -/

theorem tokenizeText_forest (err : Option PyErr) (f : Forest Item) (h : TextLeaves f) : ∀ rest,
    tokenizeTextGo err (eventsOf f ++ rest) = .prepend (eventsOf (tokenized f)) (tokenizeTextGo err rest) := by
  induction f with
  | nil => intro rest; simp [eventsOf, tokenized, Gen.prepend_nil]
  | node a cs sibs ih1 ih2 =>
    intro rest
    simp only [TextLeaves] at h
    obtain ⟨hl, hc, hs⟩ := h
    by_cases ht : a.isText
    · have hcs := hl ht
      subst hcs
      obtain ⟨s, shape, lang, rfl⟩ : ∃ s shape lang, a = .text s shape lang := by
        cases a <;> simp_all [Item.isText]
      simp only [eventsOf, List.nil_append, List.cons_append, tokenizeTextGo, tokenized]
      rw [ih2 hs]
      have : ∀ (ts : List (Lang × PyStr)) (g : Forest Item),
          eventsOf (ts.foldr (fun t f => .node (.text t.2 shape (some t.1)) .nil f) g) =
            (ts.map fun t => [Ev.start (Item.text t.2 shape (some t.1)),
              Ev.stop (Item.text t.2 shape (some t.1))]).flatten ++ eventsOf g := by
        intro ts g
        induction ts with
        | nil => rfl
        | cons t ts ih => simp [eventsOf, ih]
      rw [this, Gen.prepend_prepend]
    · have hgo1 : ∀ es, tokenizeTextGo err (.start a :: es) = .cons (.start a) (tokenizeTextGo err es) := by
        intro es; cases a <;> first | rfl | simp [Item.isText] at ht
      have hgo2 : ∀ es, tokenizeTextGo err (.stop a :: es) = .cons (.stop a) (tokenizeTextGo err es) := by
        intro es; cases a <;> first | rfl | simp [Item.isText] at ht
      have htk : tokenized (.node a cs sibs) = .node a (tokenized cs) (tokenized sibs) := by
        cases a <;> first | rfl | simp [Item.isText] at ht
      simp only [eventsOf, List.cons_append, List.append_assoc]
      rw [hgo1, ih1 hc, hgo2, ih2 hs, htk]
      simp [eventsOf, Gen.cons_eq_prepend, Gen.prepend_prepend]

/-! ### restructure_tablebody -/

/-- Cells with the row borders their marks ask for. -/
def marked : List RowMark → Forest Item → List IEv
  | _, .nil => []
  | [], f => eventsOf f
  | m :: ms, .node a cs sibs =>
    (if m.1 then [.start .tableRow] else []) ++
      (.start a :: (eventsOf cs ++ .stop a :: ((if m.2 then [.stop .tableRow] else []) ++ marked ms sibs)))

theorem rowed_roots (f : Forest Item) : ∀ f', rowed true f = some f' → f'.roots.length = f.roots.length := by
  induction f with
  | nil => intro f' h; simp [rowed] at h; subst h; rfl
  | node a cs sibs _ ih =>
    intro f' h
    cases a <;> simp [rowed, Option.bind_eq_some_iff] at h
    obtain ⟨cs', -, sibs', h2, rfl⟩ := h
    simp [Forest.roots, ih _ h2]

theorem marked_nonclosing (w : Nat) : ∀ (f : Forest Item) (ms : List RowMark), f.roots.length ≥ w + 1 →
    marked (List.replicate w (false, false) ++ (false, true) :: ms) f =
      eventsOf (f.take (w + 1)) ++ .stop .tableRow :: marked ms (f.drop (w + 1)) := by
  induction w with
  | zero =>
    intro f ms h
    cases f with
    | nil => simp [Forest.roots] at h
    | node a cs sibs => simp [marked, Forest.take, Forest.drop, eventsOf]
  | succ w ih =>
    intro f ms h
    cases f with
    | nil => simp [Forest.roots] at h
    | node a cs sibs =>
      simp only [Forest.roots, List.length_cons] at h
      simp only [List.replicate_succ, List.cons_append, marked, Bool.false_eq_true, if_false, List.nil_append]
      rw [ih sibs ms (by omega)]
      simp [Forest.take, Forest.drop, eventsOf]

theorem Forest.roots_drop {α} (n : Nat) : ∀ f : Forest α, (f.drop n).roots = f.roots.drop n := by
  induction n with
  | zero => intro f; rfl
  | succ n ih =>
    intro f
    cases f with
    | nil => simp [Forest.drop, Forest.roots]
    | node a cs sibs => simp [Forest.drop, Forest.roots, ih]

theorem marked_groupRows (ws : List Nat) : ∀ f : Forest Item, f.roots.length = ws.sum → (∀ w ∈ ws, 0 < w) →
    marked (ws.map rowMarks).flatten f = eventsOf (groupRows ws f) := by
  induction ws with
  | nil =>
    intro f h _
    cases f with
    | nil => rfl
    | node a cs sibs => simp [Forest.roots] at h
  | cons w ws ih =>
    intro f h hw
    have hpos := hw w (by simp)
    have hws : ∀ w ∈ ws, 0 < w := fun v hv => hw v (by simp [hv])
    simp only [List.sum_cons] at h
    have hd : (f.drop w).roots.length = ws.sum := by simp [Forest.roots_drop]; omega
    have ih := ih (f.drop w) hd hws
    simp only [List.map_cons, List.flatten_cons, groupRows, eventsOf]
    match w, hpos with
    | 1, _ =>
      cases f with
      | nil => simp [Forest.roots] at h; omega
      | node a cs sibs =>
        simp only [Forest.drop] at ih
        simp [rowMarks, marked, Forest.take, Forest.drop, eventsOf, ih]
    | w + 2, _ =>
      cases f with
      | nil => simp [Forest.roots] at h; omega
      | node a cs sibs =>
        simp only [Forest.roots, List.length_cons] at h
        simp only [Forest.drop] at ih
        have : rowMarks (w + 2) = (true, false) :: (List.replicate w (false, false) ++ [(false, true)]) := by
          unfold rowMarks
          rw [if_neg (by omega)]
          simp
        rw [this]
        simp only [List.cons_append, List.append_assoc, List.nil_append, marked, if_true, Bool.false_eq_true,
          if_false, List.singleton_append]
        rw [marked_nonclosing w sibs _ (by omega), ih]
        simp [Forest.take, Forest.drop, eventsOf]

theorem rowMarks_length (ws : List Nat) (hw : ∀ w ∈ ws, 0 < w) :
    ((ws.map rowMarks).flatten).length = ws.sum := by
  induction ws with
  | nil => rfl
  | cons w ws ih =>
    have hpos := hw w (by simp)
    have ih := ih (fun v hv => hw v (by simp [hv]))
    have : (rowMarks w).length = w := by
      unfold rowMarks
      split
      · simp; omega
      · simp; omega
    rw [List.map_cons, List.flatten_cons, List.length_append, List.sum_cons, ih, this]

theorem tableBody_forest (err : Option PyErr) (f : Forest Item) :
    ∀ (st : List (List RowMark)) (rest : List IEv) (f' : Forest Item),
    (rowed false f = some f' →
      tableBodyGo err st (eventsOf f ++ rest) = .prepend (eventsOf f') (tableBodyGo err st rest)) ∧
    (∀ ms, rowed true f = some f' → f.roots.length ≤ ms.length →
      tableBodyGo err (ms :: st) (eventsOf f ++ rest) =
        .prepend (marked ms f') (tableBodyGo err (ms.drop f.roots.length :: st) rest)) := by
  induction f with
  | nil =>
    intro st rest f'
    constructor
    · intro h
      simp [rowed] at h
      subst h
      simp [eventsOf, Gen.prepend_nil]
    · intro ms h _
      simp [rowed] at h
      subst h
      simp [eventsOf, marked, Forest.roots, Gen.prepend_nil]
  | node a cs sibs ih1 ih2 =>
    intro st rest f'
    constructor
    · intro h
      by_cases hb : a.isTableBody
      · obtain ⟨rc, t, rfl⟩ : ∃ rc t, a = .tableBody rc t := by cases a <;> simp_all [Item.isTableBody]
        cases rc with
        | none => simp [rowed] at h
        | some ws =>
          simp only [rowed, Option.bind_eq_bind, Option.bind_eq_some_iff] at h
          obtain ⟨cs', h1, sibs', h2, h3⟩ := h
          split at h3
          · rename_i hw
            simp at h3
            subst h3
            simp only [eventsOf, List.cons_append, List.append_assoc, tableBodyGo]
            have hlen := rowMarks_length ws hw.2
            rw [(ih1 st _ cs').2 _ h1 (by omega)]
            have hr := rowed_roots cs cs' h1
            simp only [tableBodyGo]
            rw [(ih2 st rest sibs').1 h2, marked_groupRows ws cs' (by omega) hw.2]
            simp [Gen.cons_eq_prepend, Gen.prepend_prepend]
          · simp at h3
      · by_cases hc : a.isTableCell
        · obtain ⟨t, rfl⟩ : ∃ t, a = .tableCell t := by cases a <;> simp_all [Item.isTableCell]
          simp [rowed] at h
        · have hr : rowed false (.node a cs sibs) = (rowed false cs).bind fun cs' =>
              (rowed false sibs).bind fun sibs' => some (.node a cs' sibs') := by
            cases a <;> first | rfl | exact absurd rfl hb | exact absurd rfl hc
          have hgo1 : ∀ es, tableBodyGo err st (.start a :: es) = .cons (.start a) (tableBodyGo err st es) := by
            intro es; cases a <;> first | rfl | exact absurd rfl hb | exact absurd rfl hc
          have hgo2 : ∀ es, tableBodyGo err st (.stop a :: es) = .cons (.stop a) (tableBodyGo err st es) := by
            intro es; cases a <;> first | rfl | exact absurd rfl hb | exact absurd rfl hc
          rw [hr] at h
          simp only [Option.bind_eq_some_iff] at h
          obtain ⟨cs', h1, sibs', h2, h3⟩ := h
          simp at h3
          subst h3
          simp only [eventsOf, List.cons_append, List.append_assoc]
          rw [hgo1, (ih1 st _ cs').1 h1, hgo2, (ih2 st rest sibs').1 h2]
          simp [Gen.cons_eq_prepend, Gen.prepend_prepend]
    · intro ms h hlen
      by_cases hc : a.isTableCell
      · obtain ⟨t, rfl⟩ : ∃ t, a = .tableCell t := by cases a <;> simp_all [Item.isTableCell]
        simp only [rowed, Option.bind_eq_bind, Option.bind_eq_some_iff] at h
        obtain ⟨cs', h1, sibs', h2, h3⟩ := h
        simp at h3
        subst h3
        cases ms with
        | nil => simp [Forest.roots] at hlen
        | cons m ms =>
          simp only [Forest.roots, List.length_cons, Nat.add_le_add_iff_right] at hlen
          simp only [eventsOf, List.cons_append, List.append_assoc, tableBodyGo]
          rw [(ih1 _ _ cs').1 h1]
          simp only [tableBodyGo]
          rw [(ih2 st rest sibs').2 ms h2 hlen]
          simp [Gen.cons_eq_prepend, Gen.prepend_prepend, marked, Forest.roots]
      · exfalso
        cases a <;> simp [rowed] at h
        simp [Item.isTableCell] at hc

/-! ### wrap_section -/

theorem wrapSectionGo_none (sid : Option Nat) (err : Option PyErr) (es : List IEv) : ∀ buf,
    (∀ a, Ev.start a ∈ es → a.isSectionDef = false) →
    wrapSectionGo sid err buf es = (match err with
      | some e => .raise e
      | none => .ofList [.stop none]) := by
  induction es with
  | nil => intro buf _; rfl
  | cons e es ih =>
    intro buf h
    cases e with
    | start a =>
      simp only [wrapSectionGo, h a (by simp), Bool.false_eq_true, if_false]
      exact ih _ (fun b hb => h b (by simp [hb]))
    | stop a =>
      simp only [wrapSectionGo]
      exact ih _ (fun b hb => h b (by simp [hb]))

theorem wrapSectionGo_skip (sid : Option Nat) (err : Option PyErr) (pre : List IEv) : ∀ buf es,
    (∀ a, Ev.start a ∈ pre → a.isSectionDef = false) →
    wrapSectionGo sid err buf (pre ++ es) = wrapSectionGo sid err (buf ++ pre) es := by
  induction pre with
  | nil => intro buf es _; simp
  | cons e pre ih =>
    intro buf es h
    cases e with
    | start a =>
      simp only [List.cons_append, wrapSectionGo, h a (by simp), Bool.false_eq_true, if_false]
      rw [ih _ _ (fun b hb => h b (by simp [hb]))]
      simp
    | stop a =>
      simp only [List.cons_append, wrapSectionGo]
      rw [ih _ _ (fun b hb => h b (by simp [hb]))]
      simp

theorem extractSection_none (f : Forest Item) (h : extractSection f = none) :
    ∀ a, Ev.start a ∈ eventsOf f → a.isSectionDef = false := by
  induction f with
  | nil => intro a ha; simp [eventsOf] at ha
  | node b cs sibs ih1 ih2 =>
    intro a ha
    simp only [extractSection] at h
    split at h
    · simp at h
    · rename_i hb
      split at h
      · simp at h
      · rename_i h1
        split at h
        · simp at h
        · rename_i h2
          simp only [eventsOf, List.mem_cons, List.mem_append, Ev.start.injEq, reduceCtorEq, false_or] at ha
          rcases ha with rfl | ha | ha
          · simpa using hb
          · exact ih1 h1 a ha
          · exact ih2 h2 a ha

theorem extractSection_some (f : Forest Item) : ∀ a cs f', extractSection f = some ((a, cs), f') →
    a.isSectionDef ∧ ∃ pre post, eventsOf f = pre ++ .start a :: (eventsOf cs ++ .stop a :: post) ∧
      eventsOf f' = pre ++ post ∧ ∀ b, Ev.start b ∈ pre → b.isSectionDef = false := by
  induction f with
  | nil => intro a cs f' h; simp [extractSection] at h
  | node b ds sibs ih1 ih2 =>
    intro a cs f' h
    simp only [extractSection] at h
    split at h
    · rename_i hb
      simp at h
      obtain ⟨⟨rfl, rfl⟩, rfl⟩ := h
      exact ⟨hb, [], eventsOf sibs, by simp [eventsOf], by simp, by simp⟩
    · rename_i hb
      split at h
      · rename_i sd cs' h1
        simp at h
        obtain ⟨rfl, rfl⟩ := h
        obtain ⟨hs, pre, post, e1, e2, e3⟩ := ih1 a cs cs' h1
        refine ⟨hs, .start b :: pre, post ++ .stop b :: eventsOf sibs, ?_, ?_, ?_⟩
        · simp [eventsOf, e1]
        · simp [eventsOf, e2]
        · intro c hc
          simp only [List.mem_cons, Ev.start.injEq] at hc
          rcases hc with rfl | hc
          · simpa using hb
          · exact e3 c hc
      · rename_i h1
        split at h
        · rename_i sd sibs' h2
          simp at h
          obtain ⟨rfl, rfl⟩ := h
          obtain ⟨hs, pre, post, e1, e2, e3⟩ := ih2 a cs sibs' h2
          refine ⟨hs, .start b :: (eventsOf ds ++ .stop b :: pre), post, ?_, ?_, ?_⟩
          · simp [eventsOf, e1]
          · simp [eventsOf, e2]
          · intro c hc
            simp only [List.mem_cons, Ev.start.injEq, List.mem_append, reduceCtorEq, false_or] at hc
            rcases hc with rfl | hc | hc
            · simpa using hb
            · exact extractSection_none ds h1 c hc
            · exact e3 c hc
        · simp at h

theorem wrapSection_forest (sid : Option Nat) (f f' : Forest Item) (a : Item) (cs : Forest Item)
    (h : extractSection f = some ((a, cs), f')) :
    wrapSection sid (.ofList (eventsOf f)) =
      .ofList ((eventsOf (.node (setSectId sid a) (cs.append f') .nil)).map Ev.some) := by
  obtain ⟨hs, pre, post, e1, e2, e3⟩ := extractSection_some f a cs f' h
  simp only [wrapSection, Gen.ofList]
  rw [e1, wrapSectionGo_skip _ _ _ _ _ e3]
  simp only [wrapSectionGo, hs, if_true, buildSubtree]
  rw [buildSubtreeGo_forest]
  simp [Gen.prepend, treeEventsMulti_eq, eventsOf, eventsOf_append, e2, Forest.append, Ev.some, Gen.ofList]

/-! ### wrap_columns -/

theorem takeWhile_columns (a : Item) (cs sibs : Forest Item) :
    (startsColumns a → columned (.node a cs sibs) =
      .node .columnSet (.node a (columned cs) (columned (sibs.takeWhile (!startsColumns ·))))
        (columned (sibs.dropWhile (!startsColumns ·)))) ∧
    (startsColumns a = false → columned (.node a cs sibs) = .node a (columned cs) (columned sibs)) := by
  constructor
  · intro h; rw [columned]; simp [h]
  · intro h; rw [columned]; simp [h]

theorem Item.cls_columnSet {a : Item} (h : a ≠ .columnSet) : a.cls ≠ Item.columnSet.cls := by
  cases a <;> simp_all [Item.cls]

theorem wrapColumns_forest (err : Option PyErr) (f : Forest Item) (hok : ColumnsOk f) :
    (∀ st rest, (∀ b ∈ f.roots, startsColumns b = false) →
      wrapColumnsGo err st ((eventsOf f).map Ev.some ++ rest) =
        .prepend (eventsOf (columned f)) (wrapColumnsGo err st rest)) ∧
    (∀ b st rest, b.isParagraph = false → b ≠ .columnSet →
      wrapColumnsGo err (b :: st) ((eventsOf f).map Ev.some ++ .stop (some b) :: rest) =
        .prepend (eventsOf (columned f) ++ [.stop b]) (wrapColumnsGo err st rest) ∧
      wrapColumnsGo err (.columnSet :: b :: st) ((eventsOf f).map Ev.some ++ .stop (some b) :: rest) =
        .prepend (eventsOf (columned (f.takeWhile (!startsColumns ·))) ++
          .stop .columnSet :: (eventsOf (columned (f.dropWhile (!startsColumns ·))) ++ [.stop b]))
          (wrapColumnsGo err st rest)) := by
  induction f with
  | nil =>
    refine ⟨?_, ?_⟩
    · intro st rest _; simp [eventsOf, columned, Gen.prepend_nil]
    · intro b st rest hb hcs
      have hne := Item.cls_columnSet hcs
      constructor
      · cases b <;> first | (simp [Item.isParagraph] at hb; done) | (simp at hcs; done) |
          simp [eventsOf, columned, wrapColumnsGo, Gen.cons_eq_prepend, Ev.some]
      · cases b <;> first | (simp [Item.isParagraph] at hb; done) | (simp at hcs; done) |
          simp [eventsOf, columned, wrapColumnsGo, Gen.cons_eq_prepend, Ev.some, Item.cls, Forest.takeWhile,
            Forest.dropWhile]
  | node a cs sibs ih1 ih2 =>
    obtain ⟨ha, hp, hc, hs⟩ := hok
    obtain ⟨A1, B1⟩ := ih1 hc
    obtain ⟨A2, B2⟩ := ih2 hs
    have hcol := takeWhile_columns a cs sibs
    by_cases hpar : a.isParagraph
    · obtain ⟨n, t, rfl⟩ : ∃ n t, a = .paragraph n t := by cases a <;> simp_all [Item.isParagraph]
      have hroots : ∀ b ∈ cs.roots, startsColumns b = false := by
        intro b hb
        have := hp rfl b hb
        simpa using this
      cases n with
      | false =>
        have hcol := hcol.2 rfl
        have htw : (Forest.node (Item.paragraph false t) cs sibs).takeWhile (!startsColumns ·) =
            .node (.paragraph false t) cs (sibs.takeWhile (!startsColumns ·)) := by
          simp [Forest.takeWhile, startsColumns]
        have hdw : (Forest.node (Item.paragraph false t) cs sibs).dropWhile (!startsColumns ·) =
            sibs.dropWhile (!startsColumns ·) := by
          simp [Forest.dropWhile, startsColumns]
        have hstep : ∀ st es, wrapColumnsGo err st
            ((eventsOf (.node (.paragraph false t) cs sibs)).map Ev.some ++ es) =
            .prepend (.start (.paragraph false t) :: (eventsOf (columned cs) ++ [.stop (.paragraph false t)]))
              (wrapColumnsGo err st ((eventsOf sibs).map Ev.some ++ es)) := by
          intro st es
          simp only [eventsOf, List.map_cons, List.map_append, List.cons_append, List.append_assoc, Ev.some,
            wrapColumnsGo, Bool.false_eq_true, if_false]
          rw [A1 _ _ hroots]
          simp [wrapColumnsGo, Gen.cons_eq_prepend, Gen.prepend_prepend]
        refine ⟨?_, ?_⟩
        · intro st rest hr
          rw [hstep, A2 _ _ (fun b hb => hr b (by simp [Forest.roots, hb])), hcol]
          simp [eventsOf, Gen.prepend_prepend]
        · intro b st rest hb hbc
          constructor
          · rw [hstep, (B2 b st rest hb hbc).1, hcol]
            simp [eventsOf, Gen.prepend_prepend]
          · rw [hstep, (B2 b st rest hb hbc).2, htw, hdw,
              (takeWhile_columns (.paragraph false t) cs _).2 rfl]
            simp [eventsOf, Gen.prepend_prepend]
      | true =>
        have hcol := hcol.1 rfl
        refine ⟨?_, ?_⟩
        · intro st rest hr
          have := hr (.paragraph true t) (by simp [Forest.roots])
          simp [startsColumns] at this
        · intro b st rest hb hbc
          constructor
          · rw [hcol]
            have hstep : ∀ es, wrapColumnsGo err (b :: st) (.start (some (.paragraph true t)) :: es) =
                .prepend [.start .columnSet, .start (.paragraph true t)]
                  (wrapColumnsGo err (.columnSet :: b :: st) es) := by
              intro es
              cases b <;> first | rfl | simp at hbc
            simp only [eventsOf, List.map_cons, List.map_append, List.cons_append, List.append_assoc, Ev.some]
            rw [hstep, A1 _ _ hroots]
            simp only [wrapColumnsGo]
            rw [(B2 b st rest hb hbc).2]
            simp [Gen.cons_eq_prepend, Gen.prepend_prepend]
          · have htw : (Forest.node (Item.paragraph true t) cs sibs).takeWhile (!startsColumns ·) = .nil := by
              simp [Forest.takeWhile, startsColumns]
            have hdw : (Forest.node (Item.paragraph true t) cs sibs).dropWhile (!startsColumns ·) =
                .node (.paragraph true t) cs sibs := by
              simp [Forest.dropWhile, startsColumns]
            rw [htw, hdw, hcol]
            simp only [eventsOf, List.map_cons, List.map_append, List.cons_append, List.append_assoc, Ev.some,
              wrapColumnsGo, if_true]
            rw [A1 _ _ hroots]
            simp only [wrapColumnsGo]
            rw [(B2 b st rest hb hbc).2]
            simp [Gen.cons_eq_prepend, Gen.prepend_prepend, columned, eventsOf]
    · simp only [Bool.not_eq_true] at hpar
      have hsc : startsColumns a = false := by cases a <;> first | rfl | simp [Item.isParagraph] at hpar
      have hcol := hcol.2 hsc
      have htw : (Forest.node a cs sibs).takeWhile (!startsColumns ·) =
          .node a cs (sibs.takeWhile (!startsColumns ·)) := by
        simp [Forest.takeWhile, hsc]
      have hdw : (Forest.node a cs sibs).dropWhile (!startsColumns ·) = sibs.dropWhile (!startsColumns ·) := by
        simp [Forest.dropWhile, hsc]
      have hstep : ∀ st es, wrapColumnsGo err st ((eventsOf (.node a cs sibs)).map Ev.some ++ es) =
          .prepend (.start a :: (eventsOf (columned cs) ++ [.stop a]))
            (wrapColumnsGo err st ((eventsOf sibs).map Ev.some ++ es)) := by
        intro st es
        have hst : ∀ es', wrapColumnsGo err st (.start (some a) :: es') =
            .cons (.start a) (wrapColumnsGo err (a :: st) es') := by
          intro es'
          cases a <;> first | rfl | simp [Item.isParagraph] at hpar
        simp only [eventsOf, List.map_cons, List.map_append, List.cons_append, List.append_assoc, Ev.some]
        rw [hst, (B1 a st _ hpar ha).1]
        simp [Gen.cons_eq_prepend, Gen.prepend_prepend]
      refine ⟨?_, ?_⟩
      · intro st rest hr
        rw [hstep, A2 _ _ (fun b hb => hr b (by simp [Forest.roots, hb])), hcol]
        simp [eventsOf, Gen.prepend_prepend]
      · intro b st rest hb hbc
        constructor
        · rw [hstep, (B2 b st rest hb hbc).1, hcol]
          simp [eventsOf, Gen.prepend_prepend]
        · rw [hstep, (B2 b st rest hb hbc).2, htw, hdw, (takeWhile_columns a cs _).2 hsc]
          simp [eventsOf, Gen.prepend_prepend]

end Hwp
