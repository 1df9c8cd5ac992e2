/-
Proofs about the pages of the conversions to HTML and ODT.
-/
import Verif.Model.PageSetup
import Verif.Spec.PageSetup
import Verif.Proofs.Lengths
import Verif.Proofs.Align
set_option autoImplicit false
set_option linter.unusedSimpArgs false
set_option linter.unusedVariables false
namespace Hwp
open Spec

/-! ### Selectors -/

theorem readWithin_one {n : PyStr} {cs : List PyStr} (h : Writable n cs) : readWithin (simpleText n cs) = some [⟨n, cs⟩] := by
  unfold readWithin
  have ne : simpleText n cs ≠ [] := by
    intro e
    rcases List.append_eq_nil_iff.1 e with ⟨e1, e2⟩
    have := h.2.2 e1
    cases cs with
    | nil => exact this rfl
    | cons c cs => simp at e2
  rw [partsAt_self _ _ (simpleText_free h).1, List.filter_cons_of_pos (by simpa using ne), List.filter_nil]
  simp only [List.reverse_singleton, List.mapM_cons, List.mapM_nil]
  show (readSimple (n ++ _) >>= _) = _
  rw [readSimple_parts n cs h.1 h.2.1 h.2.2]
  rfl

theorem readWithin_two {n m : PyStr} {cs ds : List PyStr} (h : Writable n cs) (g : Writable m ds) :
    readWithin (simpleText n cs ++ lit " " ++ simpleText m ds) = some [⟨m, ds⟩, ⟨n, cs⟩] := by
  unfold readWithin
  have ne : ∀ {n : PyStr} {cs : List PyStr}, Writable n cs → simpleText n cs ≠ [] := by
    intro n cs h e
    rcases List.append_eq_nil_iff.1 e with ⟨e1, e2⟩
    have := h.2.2 e1
    cases cs with
    | nil => exact this rfl
    | cons c cs => simp at e2
  have e : simpleText n cs ++ lit " " ++ simpleText m ds = simpleText n cs ++ 0x20 :: simpleText m ds := by
    rw [show lit " " = [0x20] from by decide]; simp
  rw [e, partsAt_cut _ _ _ (simpleText_free h).1, partsAt_self _ _ (simpleText_free g).1,
    List.filter_cons_of_pos (by simpa using ne h), List.filter_cons_of_pos (by simpa using ne g), List.filter_nil]
  simp only [List.reverse_cons, List.reverse_nil, List.nil_append, List.singleton_append, List.mapM_cons, List.mapM_nil]
  show (readSimple (m ++ _) >>= fun _ => (readSimple (n ++ _) >>= _) >>= _) = _
  rw [readSimple_parts n cs h.1 h.2.1 h.2.2, readSimple_parts m ds g.1 g.2.1 g.2.2]
  rfl

/-- The class of a section. -/
def secClass (n : Nat) : PyStr := lit "Section-" ++ natStr n

theorem secClass_ident (n : Nat) : isIdent (secClass n) = true := by
  unfold secClass
  rw [show lit "Section-" = 83 :: [101, 99, 116, 105, 111, 110, 45] from by decide]
  exact ident_more _ _ _ (by decide) (by decide) (natStr_ident n)

theorem secClass_inj {m n : Nat} (h : secClass m = secClass n) : m = n := natStr_inj (List.append_cancel_left h)

/-- The element of a section in the page. -/
def sectionBox (n : Nat) : Box := (lit "div", lit "Section Section-" ++ natStr n ++ lit " Paper")

theorem sectionBox_classes (n : Nat) : classesOf (sectionBox n).2 = [lit "Section", secClass n, lit "Paper"] := by
  have e : (sectionBox n).2 = lit "Section" ++ 0x20 :: (secClass n ++ 0x20 :: lit "Paper") := by
    show lit "Section Section-" ++ natStr n ++ lit " Paper" = _
    rw [show lit "Section Section-" = lit "Section" ++ 0x20 :: lit "Section-" from by decide, show lit " Paper" = 0x20 :: lit "Paper" from by decide]
    simp [secClass]
  rw [e, classesOf_cut _ _ (by decide) (by decide), classesOf_cut _ _ (ident_free (secClass_ident n)).1 (by simp [secClass, show lit "Section-" ≠ [] from by decide]),
    classesOf_one _ (by decide) (by decide)]

theorem meets_class (c : PyStr) (b : Box) : meets ⟨[], [c]⟩ b = (classesOf b.2).contains c := by simp [meets]

theorem secClass_ne (n : Nat) (s : String) (h : ¬ lit "Section-" <+: lit s) : secClass n ≠ lit s :=
  fun e => h (e ▸ List.prefix_append _ _)

theorem secClass_iff (m n : Nat) : secClass m = secClass n ↔ m = n := ⟨secClass_inj, fun e => e ▸ rfl⟩

theorem meets_section (m n : Nat) : meets ⟨[], [secClass m]⟩ (sectionBox n) = decide (m = n) := by
  rw [meets_class, sectionBox_classes]
  have a : secClass m ≠ lit "Section" := secClass_ne m "Section" (by decide)
  have b : secClass m ≠ lit "Paper" := secClass_ne m "Paper" (by decide)
  simp [a, b, secClass_iff]

/-- The elements around a section. -/
def outerBoxes : List Box := [(lit "body", []), (lit "html", [])]

theorem writable_class {c : PyStr} (h : isIdent c = true) : Writable [] [c] := writable_style h

theorem simpleText_class (c : PyStr) : simpleText [] [c] = lit "." ++ c := by
  rw [show lit "." = [0x2E] from by decide]; simp [simpleText]

/-- What a rule declares for an element. -/
theorem declaredWithin_rule (sel : PyStr) (ds : List (PyStr × PyStr)) (prop : PyStr) (path : List Box) (qs : List Simple) (h : readWithin sel = some qs) :
    declaredWithin [(sel, ds)] prop path =
      if selectsWithin qs path then (ds.filter fun d => d.1 = prop ∧ d.2 ≠ []).map fun d => (specificity qs, d.2) else [] := by
  simp [declaredWithin, h]

theorem declaredWithin_append (r s : List CssRule) (prop : PyStr) (path : List Box) :
    declaredWithin (r ++ s) prop path = declaredWithin r prop path ++ declaredWithin s prop path := by
  unfold declaredWithin; exact List.flatMap_append

theorem declaredWithin_flatMap {α : Type} (xs : List α) (f : α → List CssRule) (prop : PyStr) (path : List Box) :
    declaredWithin (xs.flatMap f) prop path = xs.flatMap fun x => declaredWithin (f x) prop path := by
  unfold declaredWithin; rw [List.flatMap_assoc]

/-- The three selectors of a section. -/
theorem section_selectors (n : Nat) :
    readWithin (lit ".Section-" ++ natStr n) = some [⟨[], [secClass n]⟩] ∧
    readWithin (lit ".Section-" ++ natStr n ++ lit " .HeaderPageFooter") = some [⟨[], [lit "HeaderPageFooter"]⟩, ⟨[], [secClass n]⟩] ∧
    readWithin (lit ".Section-" ++ natStr n ++ lit " .Page") = some [⟨[], [lit "Page"]⟩, ⟨[], [secClass n]⟩] := by
  have e : lit ".Section-" ++ natStr n = simpleText [] [secClass n] := by
    rw [simpleText_class, secClass, ← List.append_assoc]; rfl
  rw [e]
  refine ⟨readWithin_one (writable_class (secClass_ident n)), ?_, ?_⟩
  · rw [show lit " .HeaderPageFooter" = lit " " ++ simpleText [] [lit "HeaderPageFooter"] from by decide, ← List.append_assoc]
    exact readWithin_two (writable_class (secClass_ident n)) (writable_class (by decide))
  · rw [show lit " .Page" = lit " " ++ simpleText [] [lit "Page"] from by decide, ← List.append_assoc]
    exact readWithin_two (writable_class (secClass_ident n)) (writable_class (by decide))

/-- The parts of a section in the page: the paper, its inside, and the text on it. -/
inductive Part where
  | paper
  | inside
  | text
  deriving DecidableEq

/-- The elements of a part, from the inside. -/
def partPath (n : Nat) : Part → List Box
  | .paper => sectionBox n :: outerBoxes
  | .inside => (lit "div", lit "HeaderPageFooter") :: sectionBox n :: outerBoxes
  | .text => (lit "div", lit "Page") :: (lit "div", lit "HeaderPageFooter") :: sectionBox n :: outerBoxes

/-- What is declared for a part. -/
def partDecls (sec : XElem) : Part → List (PyStr × PyStr)
  | .paper => (entries "PageDef" sec.2).flatMap paperDecls
  | .inside => (entries "PageDef" sec.2).flatMap marginDecls
  | .text => (entries "PageDef" sec.2).flatMap paddingDecls

theorem within_outer (m : Nat) : selectsWithin.withinAny [⟨[], [secClass m]⟩] outerBoxes = false := by
  simp [outerBoxes, selectsWithin.withinAny, meets_class, classesOf, partsAt]

theorem within_section (m n : Nat) : selectsWithin.withinAny [⟨[], [secClass m]⟩] (sectionBox n :: outerBoxes) = decide (m = n) := by
  rw [selectsWithin.withinAny, within_outer, meets_section]
  simp [selectsWithin.withinAny]

theorem within_inside (m n : Nat) : selectsWithin.withinAny [⟨[], [secClass m]⟩] ((lit "div", lit "HeaderPageFooter") :: sectionBox n :: outerBoxes) = decide (m = n) := by
  rw [selectsWithin.withinAny, within_section, meets_class]
  have c : classesOf (lit "HeaderPageFooter") = [lit "HeaderPageFooter"] := classesOf_one _ (by decide) (by decide)
  have a : (secClass m == lit "HeaderPageFooter") = false := by rw [beq_eq_false_iff_ne]; exact secClass_ne m _ (by decide)
  simp only [c, List.contains_cons, a, List.contains_nil, Bool.or_false, Bool.false_and, Bool.false_or]

/-- Which selectors of a section select which parts of a section. -/
theorem section_parts (m n : Nat) (part : Part) :
    selectsWithin [⟨[], [secClass m]⟩] (partPath n part) = decide (part = .paper ∧ m = n) ∧
    selectsWithin [⟨[], [lit "HeaderPageFooter"]⟩, ⟨[], [secClass m]⟩] (partPath n part) = decide (part = .inside ∧ m = n) ∧
    selectsWithin [⟨[], [lit "Page"]⟩, ⟨[], [secClass m]⟩] (partPath n part) = decide (part = .text ∧ m = n) := by
  have cH : classesOf (lit "HeaderPageFooter") = [lit "HeaderPageFooter"] := classesOf_one _ (by decide) (by decide)
  have cP : classesOf (lit "Page") = [lit "Page"] := classesOf_one _ (by decide) (by decide)
  have nH : ∀ k, secClass k ≠ lit "HeaderPageFooter" := fun k => secClass_ne k _ (by decide)
  have nP : ∀ k, secClass k ≠ lit "Page" := fun k => secClass_ne k _ (by decide)
  have d1 : lit "HeaderPageFooter" ∉ [lit "Section", lit "Paper", lit "Page"] := by decide
  have d2 : lit "Page" ∉ [lit "Section", lit "Paper", lit "HeaderPageFooter"] := by decide
  simp only [List.mem_cons, List.not_mem_nil, or_false, not_or] at d1 d2
  have nS : ∀ k, secClass k ≠ lit "Section" := fun k => secClass_ne k _ (by decide)
  have nR : ∀ k, secClass k ≠ lit "Paper" := fun k => secClass_ne k _ (by decide)
  cases part <;> refine ⟨?_, ?_, ?_⟩ <;>
    simp [nS, nR, secClass_iff, within_outer, partPath, selectsWithin, within_inside, within_section, meets_section, meets_class, sectionBox_classes, cH, cP, nH, nP, d1, d2,
      (nH _).symm, (nP _).symm, selectsWithin.withinAny]

theorem declared_section (sec : XElem) (m n : Nat) (hs : attrOf sec.1 "section-id" = some (Spec.decimal m)) (part : Part) (prop : PyStr) :
    ∃ σ : Nat × Nat, declaredWithin (sectionRules sec) prop (partPath n part) =
      if m = n then ((partDecls sec part).filter fun d => d.1 = prop ∧ d.2 ≠ []).map fun d => (σ, d.2) else [] := by
  have hv : attrValue sec.1 "section-id" = natStr m := by rw [attrValue_eq, hs, decimal_nat]; rfl
  obtain ⟨r1, r2, r3⟩ := section_selectors m
  obtain ⟨s1, s2, s3⟩ := section_parts m n part
  have e : ∀ a b c : CssRule, declaredWithin [a, b, c] prop (partPath n part) =
      declaredWithin [a] prop (partPath n part) ++ declaredWithin [b] prop (partPath n part) ++ declaredWithin [c] prop (partPath n part) := by
    intro a b c
    rw [← declaredWithin_append, ← declaredWithin_append]; rfl
  refine ⟨(match part with | .paper => (1, 0) | _ => (2, 0)), ?_⟩
  unfold sectionRules
  simp only [hv, childrenNamed_eq]
  rw [e, declaredWithin_rule _ _ _ _ _ r1, declaredWithin_rule _ _ _ _ _ r2, declaredWithin_rule _ _ _ _ _ r3, s1, s2, s3]
  cases part <;> by_cases c : m = n <;> simp [c, partDecls, specificity]

theorem declared_area (selector list edge : String) (area : XElem) (n : Nat) (part : Part) (prop : PyStr)
    (hs : selector ∈ [".HeaderArea", ".FooterArea"]) : declaredWithin (areaRules selector list edge area) prop (partPath n part) = [] := by
  have cH : classesOf (lit "HeaderPageFooter") = [lit "HeaderPageFooter"] := classesOf_one _ (by decide) (by decide)
  have cP : classesOf (lit "Page") = [lit "Page"] := classesOf_one _ (by decide) (by decide)
  have key : ∀ c : String, readWithin (lit selector) = some [⟨[], [lit c]⟩] → ¬ lit "Section-" <+: lit c →
      lit c ∉ [lit "Section", lit "Paper", lit "HeaderPageFooter", lit "Page"] →
      declaredWithin (areaRules selector list edge area) prop (partPath n part) = [] := by
    intro c hr hp hc
    unfold areaRules
    simp only
    rw [declaredWithin_rule _ _ _ _ _ hr, if_neg]
    have ne := (secClass_ne n c hp).symm
    simp only [List.mem_cons, List.not_mem_nil, or_false, not_or] at hc
    cases part <;> simp [partPath, selectsWithin, meets_class, sectionBox_classes, cH, cP, hc, ne]
  simp only [List.mem_cons, List.not_mem_nil, or_false] at hs
  rcases hs with rfl | rfl
  · exact key "HeaderArea" (by decide) (by decide) (by decide)
  · exact key "FooterArea" (by decide) (by decide) (by decide)

theorem sections_eq {doc : Forest XNode} {secs : List XElem} (h : SectionsAre doc secs) : sectionElems doc = secs := by
  obtain ⟨as, D, bs, B, h1, h2, h3⟩ := h.body
  unfold sectionElems
  rw [forEach_entries, h1]
  simp only [List.flatMap_cons, List.flatMap_nil, List.append_nil]
  rw [forEach_entries, h2]
  simp only [List.flatMap_cons, List.flatMap_nil, List.append_nil]
  rw [childrenNamed_eq, h3]

theorem sections_nodup {doc : Forest XNode} {secs : List XElem} (h : SectionsAre doc secs) : (secs.map fun s => attrOf s.1 "section-id").Nodup := by
  rw [List.nodup_iff_getElem?_ne_getElem?]
  intro i j hij hj e
  rw [List.length_map] at hj
  have a := h.numbered i secs[i] (List.getElem?_eq_getElem (by omega))
  have b := h.numbered j secs[j] (List.getElem?_eq_getElem hj)
  rw [List.getElem?_map, List.getElem?_map, List.getElem?_eq_getElem (by omega), List.getElem?_eq_getElem hj] at e
  simp only [Option.map_some, Option.some.injEq] at e
  rw [a, b, Option.some.injEq, decimal_nat, decimal_nat] at e
  exact absurd (natStr_inj e) (by omega)

/-- What is declared for a part of a section is what its own rules declare. -/
theorem declared_head {doc : Forest XNode} {secs : List XElem} (h : SectionsAre doc secs) {i : Nat} {sec : XElem} (hi : secs[i]? = some sec)
    (part : Part) (prop : PyStr) : ∃ σ : Nat × Nat, declaredWithin (headRules doc) prop (partPath i part) =
      ((partDecls sec part).filter fun d => d.1 = prop ∧ d.2 ≠ []).map fun d => (σ, d.2) := by
  have hE : forEach (lit "HwpDoc") (forEach (lit "BodyText") fun cs => (childrenNamed (lit "SectionDef") cs).flatMap sectionRules) doc = secs.flatMap sectionRules := by
    obtain ⟨as, D, bs, B, h1, h2, h3⟩ := h.body
    rw [forEach_entries, h1]
    simp only [List.flatMap_cons, List.flatMap_nil, List.append_nil]
    rw [forEach_entries, h2]
    simp only [List.flatMap_cons, List.flatMap_nil, List.append_nil]
    rw [childrenNamed_eq, h3]
  unfold headRules
  rw [hE, declaredWithin_append, declaredWithin_append, declaredWithin_flatMap, declaredWithin_flatMap, declaredWithin_flatMap]
  have z1 : ((elemsIn (lit "Header") doc).flatMap fun x => declaredWithin (areaRules ".HeaderArea" "HeaderParagraphList" "top" x) prop (partPath i part)) = [] := by
    rw [List.flatMap_eq_nil_iff]; intro x _; exact declared_area _ _ _ _ _ _ _ (by simp)
  have z2 : ((elemsIn (lit "Footer") doc).flatMap fun x => declaredWithin (areaRules ".FooterArea" "FooterParagraphList" "bottom" x) prop (partPath i part)) = [] := by
    rw [List.flatMap_eq_nil_iff]; intro x _; exact declared_area _ _ _ _ _ _ _ (by simp)
  rw [z1, z2, List.append_nil, List.append_nil]
  have hs := h.numbered i sec hi
  obtain ⟨σ, hσ⟩ := declared_section sec i i hs part prop
  rw [if_pos rfl] at hσ
  refine ⟨σ, ?_⟩
  rw [← hσ, ← flatMap_key (fun s : XElem => attrOf s.1 "section-id") secs (sections_nodup h) sec (List.mem_of_getElem? hi)
    (fun s => declaredWithin (sectionRules s) prop (partPath i part))]
  refine List.flatMap_congr fun s hm => ?_
  obtain ⟨j, hj⟩ := List.getElem?_of_mem hm
  have hj' := h.numbered j s hj
  obtain ⟨τ, hτ⟩ := declared_section s j i hj' part prop
  rw [hs, hj']
  by_cases c : j = i
  · subst c; rw [if_pos rfl]
  · rw [hτ, if_neg c, if_neg]
    rw [Option.some.injEq, decimal_nat, decimal_nat]
    exact fun e => c (natStr_inj e)

/-- The value of a property that is declared once for a part. -/
theorem value_head {doc : Forest XNode} {secs : List XElem} (h : SectionsAre doc secs) {i : Nat} {sec : XElem} (hi : secs[i]? = some sec)
    (part : Part) (prop : String) (v : PyStr) (hv : ((partDecls sec part).filter fun d => d.1 = lit prop ∧ d.2 ≠ []) = [(lit prop, v)]) :
    valueWithin (headRules doc) prop (partPath i part) = some v := by
  obtain ⟨σ, hσ⟩ := declared_head h hi part (lit prop)
  rw [valueWithin, hσ, hv]
  rfl

/-! ### The runs of text are on the paper of their section -/

theorem walkRuns_suffix (doc : Forest XNode) (f : Forest XNode) : ∀ m path para, ∀ r ∈ walkRuns doc f m path para, path <:+ r.path := by
  induction f with
  | nil => intro m path para r hr; simp [walkRuns] at hr
  | node a cs sibs ih1 ih2 =>
    intro m path para r hr
    cases a with
    | text t => rw [walkRuns] at hr; exact ih2 _ _ _ r hr
    | elem n as =>
      rw [walkRuns] at hr
      rcases List.mem_append.1 hr with hr | hr
      · split at hr
        · rw [List.mem_singleton.1 hr]; exact List.suffix_cons _ _
        · obtain ⟨w, hw, hr⟩ := List.mem_flatMap.1 hr
          exact (List.suffix_append _ _).trans (ih1 _ _ _ r hr)
      · exact ih2 _ _ _ r hr

theorem runs_on_paper {doc : Forest XNode} {secs : List XElem} (h : SectionsAre doc secs) {r : HtmlRun} (hr : r ∈ htmlRuns doc) :
    ∃ i sec, secs[i]? = some sec ∧ r ∈ htmlSectionRuns doc sec ∧ partPath i .inside <:+ r.path := by
  have hE : htmlRuns doc = secs.flatMap (htmlSectionRuns doc) := by
    obtain ⟨as, D, bs, B, h1, h2, h3⟩ := h.body
    unfold htmlRuns
    rw [forEach_entries, h1]
    simp only [List.flatMap_cons, List.flatMap_nil, List.append_nil]
    rw [forEach_entries, h2]
    simp only [List.flatMap_cons, List.flatMap_nil, List.append_nil]
    rw [childrenNamed_eq, h3]
  rw [hE] at hr
  obtain ⟨sec, hs, hr⟩ := List.mem_flatMap.1 hr
  obtain ⟨i, hi⟩ := List.getElem?_of_mem hs
  refine ⟨i, sec, hi, hr, ?_⟩
  have hv : attrValue sec.1 "section-id" = natStr i := by rw [attrValue_eq, h.numbered i sec hi, decimal_nat]; rfl
  unfold htmlSectionRuns at hr
  simp only [hv] at hr
  rcases List.mem_append.1 hr with hr | hr
  · rcases List.mem_append.1 hr with hr | hr
    · obtain ⟨cs, hr⟩ := mem_descend _ _ _ r hr
      obtain ⟨ds, hr⟩ := mem_forEach _ _ _ r hr
      exact (List.suffix_cons _ _).trans (walkRuns_suffix _ _ _ _ _ r hr)
    · exact (List.suffix_cons _ _).trans (walkRuns_suffix _ _ _ _ _ r hr)
  · obtain ⟨cs, hr⟩ := mem_descend _ _ _ r hr
    obtain ⟨ds, hr⟩ := mem_forEach _ _ _ r hr
    exact (List.suffix_cons _ _).trans (walkRuns_suffix _ _ _ _ _ r hr)

/-! ### Page layouts -/

theorem filter_map_key {α β κ : Type} [DecidableEq κ] (f : α → κ × β) (xs : List α) (hx : (xs.map fun x => (f x).1).Nodup) (a : α) (ha : a ∈ xs) :
    ((xs.map f).filter fun y => y.1 = (f a).1) = [f a] := by
  induction xs with
  | nil => simp at ha
  | cons y ys ih =>
    rw [List.map_cons] at hx
    have hy := List.nodup_cons.1 hx
    rw [List.map_cons]
    rcases List.mem_cons.1 ha with rfl | ha
    · rw [List.filter_cons_of_pos (by simp), List.filter_eq_nil_iff.2]
      intro z hz
      obtain ⟨x, hm, rfl⟩ := List.mem_map.1 hz
      simp only [decide_eq_true_eq]
      intro e; exact hy.1 (e ▸ List.mem_map_of_mem hm)
    · rw [List.filter_cons_of_neg]
      · exact ih hy.2 ha
      · simp only [decide_eq_true_eq]
        intro e; exact hy.1 (by rw [e]; exact List.mem_map_of_mem (f := fun x => (f x).1) ha)

theorem section_number {doc : Forest XNode} {secs : List XElem} (h : SectionsAre doc secs) {i : Nat} {sec : XElem} (hi : secs[i]? = some sec) :
    nextNumber (attrValue sec.1 "section-id") = natStr (i + 1) := by
  rw [attrValue_eq, h.numbered i sec hi, decimal_nat]; exact nextNumber_decimal i

theorem names_nodup {doc : Forest XNode} {secs : List XElem} (h : SectionsAre doc secs) (pre : PyStr) :
    (secs.map fun sec => pre ++ nextNumber (attrValue sec.1 "section-id")).Nodup := by
  rw [List.nodup_iff_getElem?_ne_getElem?]
  intro i j hij hj e
  rw [List.length_map] at hj
  have a := section_number h (i := i) (List.getElem?_eq_getElem (by omega))
  have b := section_number h (List.getElem?_eq_getElem hj)
  rw [List.getElem?_map, List.getElem?_map, List.getElem?_eq_getElem (by omega), List.getElem?_eq_getElem hj] at e
  simp only [Option.map_some, Option.some.injEq] at e
  have e := List.append_cancel_left e
  rw [a, b] at e
  have := natStr_inj e
  omega

theorem pageValue_section {doc : Forest XNode} {secs : List XElem} (h : SectionsAre doc secs) {i : Nat} {sec page : XElem} (hi : secs[i]? = some sec)
    (hp : entries "PageDef" sec.2 = [page]) (prop : String) :
    pageValue (masterPages doc) (pageLayouts doc) prop (lit "MasterPage-" ++ natStr (i + 1)) = lastSet (layoutProps page) prop := by
  have hm := List.mem_of_getElem? hi
  have f1 := filter_map_key (fun sec : XElem => (masterName sec.1, lit "PageLayout-" ++ nextNumber (attrValue sec.1 "section-id"))) secs
    (names_nodup h (lit "MasterPage-")) sec hm
  have f2 := filter_map_key (fun sec : XElem =>
    (lit "PageLayout-" ++ nextNumber (attrValue sec.1 "section-id"), (childrenNamed (lit "PageDef") sec.2).map layoutProps)) secs
    (names_nodup h (lit "PageLayout-")) sec hm
  unfold pageValue masterPages pageLayouts
  rw [sections_eq h]
  simp only [masterName, section_number h hi] at f1
  simp only [section_number h hi, childrenNamed_eq, hp, List.map_cons, List.map_nil] at f2
  simp only [masterName, f1, childrenNamed_eq, f2]

/-! ### Paragraphs -/

theorem flow_none (doc : Forest XNode) (f : Forest XNode) (h : elementsNamed "Paragraph" f = []) : flowParagraphs doc f = [] := by
  induction f with
  | nil => rfl
  | node a cs sibs ih1 ih2 =>
    cases a with
    | text t => rw [elementsNamed] at h; rw [flowParagraphs]; exact ih2 h
    | elem n as =>
      rw [elementsNamed] at h
      have h1 := List.append_eq_nil_iff.1 h
      have h2 := List.append_eq_nil_iff.1 h1.1
      have hn : n ≠ lit "Paragraph" := fun e => by simp [e] at h2
      rw [flowParagraphs, if_neg hn, ih2 h1.2, List.append_nil]
      split
      · split
        · exact ih1 h2.2
        · rfl
      · rfl

/-- A paragraph of the flow, with the style it refers to. -/
def flowOf (doc : Forest XNode) (p : XElem) : List (PyStr × PyStr) × PyStr :=
  let style := nthInIds doc "Style" (xpathNumber (attrValue p.1 "style-id"))
  (p.1, if ownParagraph style p.1 then ownParagraphName p.1 else odtStyleName style)

theorem flow_column (doc : Forest XNode) (f : Forest XNode) (h : ∀ e ∈ elementKids f, e.1 ≠ lit "Paragraph" → elementsNamed "Paragraph" e.2.2 = []) :
    flowParagraphs doc f = (entries "Paragraph" f).map (flowOf doc) := by
  induction f with
  | nil => rfl
  | node a cs sibs ih1 ih2 =>
    cases a with
    | text t => rw [flowParagraphs, entries]; exact ih2 h
    | elem n as =>
      rw [elementKids] at h
      rw [flowParagraphs, entries, ih2 fun e he => h e (List.mem_cons_of_mem _ he), List.map_append]
      congr 1
      by_cases hn : n = lit "Paragraph"
      · rw [if_pos hn, if_pos hn]; rfl
      · rw [if_neg hn, if_neg hn]
        have := flow_none doc cs (h (n, as, cs) (by simp) hn)
        split
        · split
          · exact this
          · rfl
        · rfl

theorem flow_section (doc : Forest XNode) (f : Forest XNode)
    (h1 : ∀ e ∈ elementKids f, e.1 ≠ lit "ColumnSet" → e.1 ≠ lit "Paragraph" ∧ elementsNamed "Paragraph" e.2.2 = [])
    (h2 : ∀ c ∈ entries "ColumnSet" f, ∀ e ∈ elementKids c.2, e.1 ≠ lit "Paragraph" → elementsNamed "Paragraph" e.2.2 = []) :
    flowParagraphs doc f = ((entries "ColumnSet" f).flatMap fun c => entries "Paragraph" c.2).map (flowOf doc) := by
  induction f with
  | nil => rfl
  | node a cs sibs ih1 ih2 =>
    cases a with
    | text t => rw [flowParagraphs, entries]; exact ih2 h1 h2
    | elem n as =>
      rw [elementKids] at h1
      rw [entries] at h2
      rw [flowParagraphs, entries, ih2 (fun e he => h1 e (List.mem_cons_of_mem _ he)) (fun c hc => h2 c (List.mem_append.2 (.inr hc))),
        List.flatMap_append, List.map_append]
      congr 1
      by_cases hn : n = lit "ColumnSet"
      · subst hn
        have r : odtRule .all (lit "ColumnSet") as = .into [] [.all] := by
          have : lit "ColumnSet" ∉ ["Paragraph", "LineSeg", "Text", "ControlChar", "TableControl", "GShapeObjectControl", "ShapeComponent", "FootNote", "EndNote"].map lit := by decide
          simp only [List.map_cons, List.map_nil, List.mem_cons, List.not_mem_nil, or_false, not_or] at this
          simp [odtRule, this]
        rw [if_neg (by decide), if_pos rfl, r]
        simp only [if_true, List.flatMap_cons, List.flatMap_nil, List.append_nil]
        exact flow_column doc cs (h2 (as, cs) (by simp))
      · obtain ⟨a1, a2⟩ := h1 (n, as, cs) (by simp) hn
        rw [if_neg a1, if_neg hn]
        simp only [List.flatMap_nil, List.map_nil]
        split
        · split
          · exact flow_none doc cs a2
          · rfl
        · rfl

/-- The paragraphs with what is around them. -/
theorem under_elements (f : Forest XNode) : ∀ path, (paragraphsUnder f path).map (·.1) = elementsNamed "Paragraph" f := by
  induction f with
  | nil => intro path; rfl
  | node a cs sibs ih1 ih2 =>
    intro path
    cases a with
    | text t => rw [paragraphsUnder, elementsNamed]; exact ih2 path
    | elem n as =>
      rw [paragraphsUnder, elementsNamed, List.map_append, List.map_append, ih1, ih2]
      congr 2
      by_cases hn : n = lit "Paragraph" <;> simp [hn]

theorem under_entries (name : String) (f : Forest XNode) : ∀ path, ∀ e ∈ entries name f, ∀ x ∈ paragraphsUnder e.2 ((lit name, e.1) :: path), x ∈ paragraphsUnder f path := by
  induction f with
  | nil => intro path e he; simp [entries] at he
  | node a cs sibs ih1 ih2 =>
    intro path e he x hx
    cases a with
    | text t => rw [entries] at he; rw [paragraphsUnder]; exact ih2 path e he x hx
    | elem n as =>
      rw [entries] at he
      rw [paragraphsUnder]
      rcases List.mem_append.1 he with he | he
      · by_cases hn : n = lit name
        · rw [if_pos hn] at he
          rw [List.mem_singleton.1 he] at hx
          rw [hn]
          exact List.mem_append.2 (.inl (List.mem_append.2 (.inr hx)))
        · rw [if_neg hn] at he; simp at he
      · exact List.mem_append.2 (.inr (ih2 path e he x hx))

theorem under_self (f : Forest XNode) : ∀ path, ∀ p ∈ entries "Paragraph" f, (p, path) ∈ paragraphsUnder f path := by
  induction f with
  | nil => intro path e he; simp [entries] at he
  | node a cs sibs ih1 ih2 =>
    intro path e he
    cases a with
    | text t => rw [entries] at he; rw [paragraphsUnder]; exact ih2 path e he
    | elem n as =>
      rw [entries] at he
      rw [paragraphsUnder]
      rcases List.mem_append.1 he with he | he
      · by_cases hn : n = lit "Paragraph"
        · rw [if_pos hn] at he
          rw [List.mem_singleton.1 he, if_pos hn]; simp
        · rw [if_neg hn] at he; simp at he
      · exact List.mem_append.2 (.inr (ih2 path e he))

/-- A paragraph in a column of a section, with what is around it. -/
theorem top_under {doc : Forest XNode} {secs : List XElem} (h : SectionsAre doc secs) {sec : XElem} (hs : sec ∈ secs) {p : XElem} (hp : p ∈ topParagraphs sec) :
    ∃ c rest, (p, (lit "ColumnSet", c) :: (lit "SectionDef", sec.1) :: rest) ∈ paragraphsUnder doc [] := by
  obtain ⟨as, D, bs, B, h1, h2, h3⟩ := h.body
  obtain ⟨c, hc, hp⟩ := List.mem_flatMap.1 hp
  refine ⟨c.1, _, under_entries "HwpDoc" doc [] (as, D) (by rw [h1]; simp) _ (under_entries "BodyText" D _ (bs, B) (by rw [h2]; simp) _
    (under_entries "SectionDef" B _ sec (by rw [h3]; exact hs) _ (under_entries "ColumnSet" sec.2 _ c hc _ (under_self _ _ p hp))))⟩

/-- Whether the style of a paragraph has a master page. -/
def BeginsPage (doc : Forest XNode) (p : List (PyStr × PyStr)) : Prop :=
  ownParagraph (nthOf doc "Style" (xpathNumber (attrValue p "style-id"))) p ∧ attrValue p "new-section" = lit "1"

instance (doc : Forest XNode) (p : List (PyStr × PyStr)) : Decidable (BeginsPage doc p) := by unfold BeginsPage; infer_instance

theorem nodup_under {doc : Forest XNode} (hP : ParagraphsNumbered doc) : ∀ x ∈ paragraphsUnder doc [], ∀ y ∈ paragraphsUnder doc [],
    ownParagraphName x.1.1 = ownParagraphName y.1.1 → x = y := by
  have hd : ((paragraphsUnder doc []).map (·.1)).Nodup := by
    rw [under_elements]; exact List.Nodup.of_map _ hP.distinct
  intro x hx y hy e
  have mem : ∀ z ∈ paragraphsUnder doc [], z.1 ∈ elementsNamed "Paragraph" doc := by
    intro z hz; rw [← under_elements doc []]; exact List.mem_map_of_mem hz
  exact List.inj_on_of_nodup_map hd hx hy (ownParagraphName_inj hP (mem x hx) (mem y hy) e)

/-- The master page of the style of a paragraph of a section. -/
theorem master_found {doc T : Forest XNode} {ids : List (PyStr × PyStr)} (hT : TablesAre doc ids T) (hN : OfficeNames T) (hP : ParagraphsNumbered doc)
    {secs : List XElem} (h : SectionsAre doc secs) {i : Nat} {sec : XElem} (hi : secs[i]? = some sec) {p : XElem} (hp : p ∈ topParagraphs sec)
    {k : Nat} (hk : attrOf p.1 "style-id" = some (Spec.decimal k)) {st : XElem} (hst : (entries "Style" T)[k]? = some st) :
    lastNamed (styleMasters doc) (flowOf doc p).2 = if BeginsPage doc p.1 then some (lit "MasterPage-" ++ natStr (i + 1)) else none := by
  obtain ⟨c, rest, hu⟩ := top_under h (List.mem_of_getElem? hi) hp
  have hkn := xpath_decimal hk
  have hs1 : nthOf doc "Style" (xpathNumber (attrValue p.1 "style-id")) = [st] := by rw [hkn, nthOf_eq hT _ (by simp), hst]; rfl
  have hs2 : nthInIds doc "Style" (xpathNumber (attrValue p.1 "style-id")) = [st] := by rw [hkn, nthInIds_eq hT, hst]; rfl
  have pre : ∀ m ∈ styleMasters doc, lit "Paragraph-" <+: m.1 := by
    intro m hm
    obtain ⟨x, hx, hm⟩ := List.mem_flatMap.1 hm
    unfold masterOf at hm
    split at hm
    · split at hm
      · split at hm
        · rw [List.mem_singleton.1 hm]; exact List.prefix_append _ _
        · simp at hm
      · simp at hm
    · simp at hm
  by_cases own : ownParagraph [st] p.1
  · have nm : (flowOf doc p).2 = ownParagraphName p.1 := by simp only [flowOf, hs2, own, if_true]
    rw [nm]
    have only : ∀ m ∈ styleMasters doc, m.1 = ownParagraphName p.1 → m ∈ masterOf doc (p, (lit "ColumnSet", c) :: (lit "SectionDef", sec.1) :: rest) := by
      intro m hm e
      obtain ⟨x, hx, hm⟩ := List.mem_flatMap.1 hm
      have : ownParagraphName x.1.1 = ownParagraphName p.1 := by
        have hm' := hm
        unfold masterOf at hm'
        split at hm'
        · split at hm'
          · split at hm'
            · rw [← e, List.mem_singleton.1 hm']
            · simp at hm'
          · simp at hm'
        · simp at hm'
      rw [← nodup_under hP x hx _ hu this]; exact hm
    by_cases b : BeginsPage doc p.1
    · rw [if_pos b]
      have one : masterOf doc (p, (lit "ColumnSet", c) :: (lit "SectionDef", sec.1) :: rest) = [(ownParagraphName p.1, lit "MasterPage-" ++ natStr (i + 1))] := by
        unfold masterOf
        refine (if_pos b).trans ?_
        simp [masterName, section_number h hi]
      have mem : (ownParagraphName p.1, lit "MasterPage-" ++ natStr (i + 1)) ∈ styleMasters doc :=
        List.mem_flatMap.2 ⟨_, hu, by rw [one]; simp⟩
      unfold lastNamed
      cases hl : ((styleMasters doc).filter fun x => x.1 = ownParagraphName p.1).getLast? with
      | none =>
        rw [List.getLast?_eq_none_iff, List.filter_eq_nil_iff] at hl
        exact absurd (by simp) (hl _ mem)
      | some m =>
        have hm := List.mem_of_getLast? hl
        rw [List.mem_filter, decide_eq_true_eq] at hm
        have := only m hm.1 hm.2
        rw [one] at this
        rw [List.mem_singleton.1 this]; rfl
    · rw [if_neg b]
      have one : masterOf doc (p, (lit "ColumnSet", c) :: (lit "SectionDef", sec.1) :: rest) = [] := by
        unfold masterOf
        exact if_neg b
      unfold lastNamed
      rw [List.filter_eq_nil_iff.2]
      · rfl
      · intro m hm
        rw [decide_eq_true_eq]
        intro e
        have := only m hm e
        rw [one] at this
        simp at this
  · have nm : (flowOf doc p).2 = officeName st := by
      simp only [flowOf, hs2, own, if_false, odtStyleName_one, Bool.false_eq_true]
    have b : ¬ BeginsPage doc p.1 := by
      intro b; have := b.1; rw [hs1] at this; exact own this
    rw [if_neg b, nm]
    unfold lastNamed
    rw [List.filter_eq_nil_iff.2]
    · rfl
    · intro m hm
      rw [decide_eq_true_eq]
      intro e
      exact (hN.free st (List.mem_of_getElem? hst)).2 (e ▸ pre m hm)

/-! ### Pages one after the other -/

theorem pagesFrom_append (masters : List (PyStr × PyStr)) (xs ys : List PyStr) : ∀ cur, ∃ now,
    pagesFrom masters cur (xs ++ ys) = pagesFrom masters cur xs ++ pagesFrom masters now ys ∧
    now = (pagesFrom masters cur xs).getLastD cur := by
  induction xs with
  | nil => intro cur; exact ⟨cur, rfl, rfl⟩
  | cons x xs ih =>
    intro cur
    obtain ⟨now, h1, h2⟩ := ih ((lastNamed masters x).orElse fun _ => cur)
    refine ⟨now, ?_, ?_⟩
    · simp only [List.cons_append, pagesFrom, h1]
    · simp only [pagesFrom]
      rw [h2]
      cases pagesFrom masters ((lastNamed masters x).orElse fun _ => cur) xs with
      | nil => rfl
      | cons y ys => simp [List.getLastD]

/-- Paragraphs after each other whose styles have this master page or none stay on it. -/
theorem pages_same (masters : List (PyStr × PyStr)) (page : PyStr) (xs : List PyStr) (h : ∀ x ∈ xs, lastNamed masters x = some page ∨ lastNamed masters x = none) :
    pagesFrom masters (some page) xs = List.replicate xs.length (some page) := by
  induction xs with
  | nil => rfl
  | cons x xs ih =>
    rw [pagesFrom]
    have : (lastNamed masters x).orElse (fun _ => some page) = some page := by
      rcases h x (by simp) with e | e <;> rw [e] <;> rfl
    simp only [this]
    rw [ih fun y hy => h y (by simp [hy])]; rfl

theorem sectionParagraphs_eq {doc : Forest XNode} {secs : List XElem} (hS : SectionsAre doc secs) (hC : ∀ sec ∈ secs, PlainSection sec) :
    sectionParagraphs doc = secs.map fun sec => (topParagraphs sec).map (flowOf doc) := by
  unfold sectionParagraphs
  rw [sections_eq hS]
  exact List.map_congr_left fun sec hs => flow_section doc sec.2 (hC sec hs).outside (hC sec hs).columns

theorem firstAttr_number {st : XElem} {name : String} {q : Nat} (hq : attrOf st.1 name = some (Spec.decimal q)) : xpathNumber (firstAttr [st] name) = some q := by
  unfold firstAttr
  rw [attrNodes_one, hq, decimal_nat]
  exact xpathNumber_natStr q

theorem opens_begins {doc T : Forest XNode} {ids : List (PyStr × PyStr)} (hT : TablesAre doc ids T) {p : List (PyStr × PyStr)} (ho : OpensSection T p) :
    BeginsPage doc p := by
  obtain ⟨h1, h2⟩ := ho
  refine ⟨?_, by rw [attrValue_eq, h1]; rfl⟩
  unfold ownParagraph
  rcases h2 with h2 | ⟨k, q, j, st, hk, hst, hq, hj, n⟩
  · rw [attrValue_eq _ "new-page", h2]; simp
  · rw [xpath_decimal hk, nthOf_eq hT _ (by simp), hst, xpath_decimal hj]
    rw [show (some st).toList = [st] from rfl, firstAttr_number hq]
    simp [numbersDiffer, n]

/-- The pages of the paragraphs of sections one after the other. -/
theorem pages_sections {doc T : Forest XNode} {ids : List (PyStr × PyStr)} (hT : TablesAre doc ids T) (hN : OfficeNames T) (hP : ParagraphsNumbered doc)
    {secs : List XElem} (h : SectionsAre doc secs)
    (hs : ∀ sec ∈ secs, ∀ p ∈ topParagraphs sec, ∃ (k : Nat) (st : XElem), attrOf p.1 "style-id" = some (Spec.decimal k) ∧ (entries "Style" T)[k]? = some st)
    (hb : ∀ sec ∈ secs, ∀ p, (topParagraphs sec).head? = some p → OpensSection T p.1) :
    pagesFrom (styleMasters doc) none ((secs.map fun sec => (topParagraphs sec).map (flowOf doc)).flatten.map (·.2)) =
      (secs.zipIdx.map fun s => List.replicate (topParagraphs s.1).length (some (lit "MasterPage-" ++ Spec.decimal (s.2 + 1 : Nat)))).flatten := by
  have key : ∀ (rest : List XElem) (n : Nat) (cur : Option PyStr), (∀ i : Nat, rest[i]? = secs[n + i]?) →
      pagesFrom (styleMasters doc) cur ((rest.map fun sec => (topParagraphs sec).map (flowOf doc)).flatten.map (·.2)) =
      ((rest.zipIdx n).map fun s => List.replicate (topParagraphs s.1).length (some (lit "MasterPage-" ++ Spec.decimal (s.2 + 1 : Nat)))).flatten := by
    intro rest
    induction rest with
    | nil => intro n cur _; rfl
    | cons sec rest ih =>
      intro n cur hr
      have hi : secs[n]? = some sec := by have := hr 0; simpa using this.symm
      have hm := List.mem_of_getElem? hi
      have found : ∀ p ∈ topParagraphs sec, lastNamed (styleMasters doc) (flowOf doc p).2 = if BeginsPage doc p.1 then some (lit "MasterPage-" ++ natStr (n + 1)) else none := by
        intro p hp
        obtain ⟨k, st, hk, hst⟩ := hs sec hm p hp
        exact master_found hT hN hP h hi hp hk hst
      rw [List.map_cons, List.flatten_cons, List.map_append, List.zipIdx_cons, List.map_cons, List.flatten_cons]
      obtain ⟨now, e, -⟩ := pagesFrom_append (styleMasters doc) (((topParagraphs sec).map (flowOf doc)).map (·.2))
        ((rest.map fun sec => (topParagraphs sec).map (flowOf doc)).flatten.map (·.2)) cur
      rw [e, ih (n + 1) now fun i => by have := hr (i + 1); rw [List.getElem?_cons_succ] at this; rw [this]; congr 1; omega]
      congr 1
      rw [decimal_nat]
      cases hl : topParagraphs sec with
      | nil => rfl
      | cons p ps =>
        have b := opens_begins hT (hb sec hm p (by rw [hl]; rfl))
        have f := found p (by rw [hl]; simp)
        rw [if_pos b] at f
        simp only [List.map_cons, pagesFrom, f]
        have s := pages_same (styleMasters doc) (lit "MasterPage-" ++ natStr (n + 1)) ((ps.map (flowOf doc)).map (·.2)) (by
          intro x hx
          rw [List.map_map] at hx
          obtain ⟨y, hy, rfl⟩ := List.mem_map.1 hx
          have := found y (by rw [hl]; simp [hy])
          by_cases c : BeginsPage doc y.1
          · rw [if_pos c] at this; exact .inl this
          · rw [if_neg c] at this; exact .inr this)
        rw [List.length_map, List.length_map] at s
        simp only [Option.orElse_some] at s ⊢
        rw [s, List.length_cons, List.replicate_succ]
  have := key secs 0 none (fun i => by rw [Nat.zero_add])
  exact this

end Hwp
