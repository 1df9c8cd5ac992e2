/-
C108: pages have the size and the margins their section says, in a browser and in an office program.
-/
import Verif.Proofs.PageSetup
import Verif.Props.Align
set_option linter.unusedSimpArgs false
set_option linter.unusedVariables false
set_option autoImplicit false
set_option Elab.async false
namespace Hwp.Props
open Hwp Spec

/-! ### Lengths -/

/-- C108: a length in HWP units is written in centimetres as precisely as two digits after the point can be, whatever length a document can say. -/
theorem C108_cm (n : Nat) (hn : n < 2 ^ 32) : ClosestCm n (cmOf (Spec.decimal n)) := by
  rw [decimal_nat]; exact cmOf_closest (xpathNumber_natStr n) hn

/-- C108: the same in millimetres.
Missing: lengths of more than 42 m (`C108_mm_far`). -/
theorem C108_mm_partial (n : Nat) (hn : n ≤ 12000000) : ClosestMm n (mmOf (Spec.decimal n)) := by
  rw [decimal_nat]; exact mmOf_closest (xpathNumber_natStr n) hn

/-- C108: in millimetres every length a document can say is right up to 0.015 mm. -/
theorem C108_mm_near (n : Nat) (hn : n < 2 ^ 32) : ∃ q, lengthIn "mm" (mmOf (Spec.decimal n)) = some q ∧ |q - hwpMm n| ≤ 3 / 200 := by
  rw [decimal_nat]; exact mmOf_near (xpathNumber_natStr n) hn

/-- A4 paper is 59528 units wide and 84188 high. -/
example : mmOf (lit "59528") = lit "210mm" ∧ cmOf (lit "59528") = lit "21cm" ∧ mmOf (lit "84188") = lit "297mm" ∧ cmOf (lit "84188") = lit "29.7cm" ∧
    mmOf (lit "0") = lit "0mm" ∧ mmOf (lit "4252") = lit "15mm" ∧ mmOf (lit "1001") = lit "3.53mm" ∧ cmOf (lit "1001") = lit "0.35cm" := by
  have mm : ∀ (s : String) (n k : Nat), xpathNumber (lit s) = some n → n ≤ 12000000 → 360 * k < 127 * n + 180 → 127 * n < 360 * k + 180 →
      mmOf (lit s) = hundredthsStr k ++ lit "mm" := by
    intro s n k h1 h2 h3 h4
    have := html_nearest h2
    rw [mmOf, h1]
    dsimp only
    rw [show htmlHundredths n = k from by omega]
    rfl
  have cm : ∀ (s : String) (n k : Nat), xpathNumber (lit s) = some n → n < 2 ^ 32 → 3600 * k < 127 * n + 1800 → 127 * n < 3600 * k + 1800 →
      cmOf (lit s) = hundredthsStr k ++ lit "cm" := by
    intro s n k h1 h2 h3 h4
    have := odt_nearest h2
    rw [cmOf, h1]
    dsimp only
    rw [show odtHundredths n = k from by omega]
    rfl
  rw [mm "59528" 59528 21000 (by decide +kernel) (by decide) (by decide) (by decide), cm "59528" 59528 2100 (by decide +kernel) (by decide) (by decide) (by decide),
    mm "84188" 84188 29700 (by decide +kernel) (by decide) (by decide) (by decide), cm "84188" 84188 2970 (by decide +kernel) (by decide) (by decide) (by decide),
    mm "0" 0 0 (by decide +kernel) (by decide) (by decide) (by decide), mm "4252" 4252 1500 (by decide +kernel) (by decide) (by decide) (by decide),
    mm "1001" 1001 353 (by decide +kernel) (by decide) (by decide) (by decide), cm "1001" 1001 35 (by decide +kernel) (by decide) (by decide) (by decide)]
  decide +kernel

/-- C108, violated: a long length in millimetres is not the closest one, as the factor in the style sheet has nine digits. -/
theorem C108_mm_far : ¬ ClosestMm 4000000000 (mmOf (lit "4000000000")) := by
  rintro ⟨q, hq, h⟩
  rw [mmOf_value (n := 4000000000) (by decide +kernel)] at hq
  obtain ⟨h1, h2⟩ := html_bounds (n := 4000000000) (by decide)
  have e : htmlHundredths 4000000000 = 1411111112 := by
    generalize htmlHundredths 4000000000 = k at *
    have a : (k : ℚ) < ((1411111113 : ℤ) : ℚ) := by push_cast at *; linarith
    have b : ((1411111111 : ℤ) : ℚ) < k := by push_cast at *; linarith
    have a := Int.cast_lt.1 a
    have b := Int.cast_lt.1 b
    omega
  rw [e, Option.some.injEq, show Int.toNat 1411111112 = 1411111112 from rfl] at hq
  have := (abs_le.1 h).2
  rw [← hq, hwpMm] at this
  norm_num at this

/-! ### HTML -/

theorem closestMm_ne {n : Nat} {s : PyStr} (h : ClosestMm n s) : s ≠ [] := by
  rintro rfl
  obtain ⟨q, h, -⟩ := h
  revert h
  rw [lengthIn, if_neg (by decide)]
  simp

theorem pick_only {ds : List (PyStr × PyStr)} (pre post : List (PyStr × PyStr)) {k v : PyStr} (h : ds = pre ++ (k, v) :: post)
    (hp : k ∉ (pre ++ post).map (·.1)) (hv : v ≠ []) : (ds.filter fun d => d.1 = k ∧ d.2 ≠ []) = [(k, v)] := by
  have none : ∀ l : List (PyStr × PyStr), (∀ d ∈ l, d ∈ pre ++ post) → (l.filter fun d => d.1 = k ∧ d.2 ≠ []) = [] := by
    intro l hl
    rw [List.filter_eq_nil_iff]
    intro d hd
    rw [decide_eq_true_eq]
    rintro ⟨e, -⟩
    exact hp (List.mem_map.2 ⟨d, hl d hd, e⟩)
  rw [h, List.filter_append, none pre (fun d hd => by simp [hd]), List.filter_cons, if_pos (by simp [hv]), none post (fun d hd => by simp [hd])]
  rfl

/-- C108: every run of text is within an element that has the margins of the paper of a section, within an element as wide as the paper; an element
in it for a page has room for the header and the footer of the section.
Missing: lengths of more than 42 m (`C108_mm_far`); the height of the paper, which is not written. -/
theorem C108_html_partial (doc : Forest XNode) (secs : List (List (PyStr × PyStr) × Forest XNode)) (h : SectionsAre doc secs)
    (r : HtmlRun) (hr : r ∈ htmlRuns doc) :
    ∃ (i : Nat) (sec : List (PyStr × PyStr) × Forest XNode) (inner : List (PyStr × PyStr)) (frame paper : PyStr × PyStr) (outer : List (PyStr × PyStr)),
      secs[i]? = some sec ∧ r ∈ htmlSectionRuns doc sec ∧ r.path = inner ++ frame :: paper :: outer ∧
      ∀ p : Paper, PaperIs sec p → (∀ n ∈ [p.width, p.height, p.left, p.right, p.top, p.bottom, p.header, p.footer], n ≤ 12000000) →
        (∃ v, valueWithin (headRules doc) "width" (paper :: outer) = some v ∧ ClosestMm p.across v) ∧
        (∀ x ∈ [("margin-top", p.top), ("margin-right", p.right), ("margin-bottom", p.bottom), ("margin-left", p.left)],
          ∃ v, valueWithin (headRules doc) x.1 (frame :: paper :: outer) = some v ∧ ClosestMm x.2 v) ∧
        (∀ x ∈ [("padding-top", p.header), ("padding-bottom", p.footer)],
          ∃ v, valueWithin (headRules doc) x.1 ((lit "div", lit "Page") :: frame :: paper :: outer) = some v ∧ ClosestMm x.2 v) := by
  obtain ⟨i, sec, hi, hr', inner, hp⟩ := runs_on_paper h hr
  refine ⟨i, sec, inner, (lit "div", lit "HeaderPageFooter"), sectionBox i, outerBoxes, hi, hr', hp.symm, ?_⟩
  intro p hP hn
  obtain ⟨as, cs, he, ho, hv⟩ := hP.page
  have val : ∀ x ∈ [("width", p.width), ("height", p.height), ("left-offset", p.left), ("right-offset", p.right), ("top-offset", p.top),
      ("bottom-offset", p.bottom), ("header-offset", p.header), ("footer-offset", p.footer)], x.2 ≤ 12000000 → ClosestMm x.2 (mmOf (attrValue as x.1)) :=
    fun x hx hn => mmOf_closest (xpath_decimal (hv x hx)) hn
  simp only [List.mem_cons, List.not_mem_nil, or_false, forall_eq_or_imp, forall_eq] at val hn ⊢
  obtain ⟨v1, v2, v3, v4, v5, v6, v7, v8⟩ := val
  obtain ⟨n1, n2, n3, n4, n5, n6, n7, n8⟩ := hn
  have v1 := v1 n1
  have v2 := v2 n2
  have v3 := v3 n3
  have v4 := v4 n4
  have v5 := v5 n5
  have v6 := v6 n6
  have v7 := v7 n7
  have v8 := v8 n8
  have m : partDecls sec .inside = marginDecls (as, cs) := by simp [partDecls, he]
  have d : partDecls sec .text = paddingDecls (as, cs) := by simp [partDecls, he]
  have w : partDecls sec .paper = [(lit "width", mmOf (attrValue as (if p.landscape then "height" else "width")))] := by
    have n : ¬ lit "landscape" = lit "portrait" := by decide
    simp only [partDecls, he, List.flatMap_cons, List.flatMap_nil, List.append_nil, paperDecls, attrValue_eq, ho]
    cases p.landscape <;> simp [n]
  have vw : ClosestMm p.across (mmOf (attrValue as (if p.landscape then "height" else "width"))) := by
    unfold Paper.across
    cases p.landscape
    · exact v1
    · exact v2
  refine ⟨⟨_, value_head h hi .paper "width" _ (pick_only [] [] w (by simp) (closestMm_ne vw)), vw⟩, ⟨?_, ?_, ?_, ?_⟩, ?_, ?_⟩
  · exact ⟨_, value_head h hi .inside "margin-top" _ (pick_only [_] [_, _, _] m
      (by show lit "margin-top" ∉ [lit "position", lit "margin-right", lit "margin-bottom", lit "margin-left"]; decide) (closestMm_ne v5)), v5⟩
  · exact ⟨_, value_head h hi .inside "margin-right" _ (pick_only [_, _] [_, _] m
      (by show lit "margin-right" ∉ [lit "position", lit "margin-top", lit "margin-bottom", lit "margin-left"]; decide) (closestMm_ne v4)), v4⟩
  · exact ⟨_, value_head h hi .inside "margin-bottom" _ (pick_only [_, _, _] [_] m
      (by show lit "margin-bottom" ∉ [lit "position", lit "margin-top", lit "margin-right", lit "margin-left"]; decide) (closestMm_ne v6)), v6⟩
  · exact ⟨_, value_head h hi .inside "margin-left" _ (pick_only [_, _, _, _] [] m
      (by show lit "margin-left" ∉ [lit "position", lit "margin-top", lit "margin-right", lit "margin-bottom"]; decide) (closestMm_ne v3)), v3⟩
  · exact ⟨_, value_head h hi .text "padding-top" _ (pick_only [] [_] d
      (by show lit "padding-top" ∉ [lit "padding-bottom"]; decide) (closestMm_ne v7)), v7⟩
  · exact ⟨_, value_head h hi .text "padding-bottom" _ (pick_only [_] [] d
      (by show lit "padding-bottom" ∉ [lit "padding-top"]; decide) (closestMm_ne v8)), v8⟩

/-! ### ODT -/

/-- C108: the pages of the master page of a section have the size, turned or not, and the margins the section says. -/
theorem C108_odt_layout (doc : Forest XNode) (secs : List (List (PyStr × PyStr) × Forest XNode)) (h : SectionsAre doc secs)
    (i : Nat) (sec : List (PyStr × PyStr) × Forest XNode) (hi : secs[i]? = some sec) (p : Paper) (hP : PaperIs sec p)
    (hn : ∀ n ∈ [p.width, p.height, p.left, p.right, p.top, p.bottom], n < 2 ^ 32) :
    (∀ x ∈ [("fo:page-width", p.across), ("fo:page-height", p.down), ("fo:margin-top", p.top), ("fo:margin-left", p.left),
        ("fo:margin-right", p.right), ("fo:margin-bottom", p.bottom)],
      ∃ v, pageValue (masterPages doc) (pageLayouts doc) x.1 (lit "MasterPage-" ++ Spec.decimal (i + 1 : Nat)) = some v ∧ ClosestCm x.2 v) ∧
    pageValue (masterPages doc) (pageLayouts doc) "style:print-orientation" (lit "MasterPage-" ++ Spec.decimal (i + 1 : Nat)) =
      some (lit (if p.landscape then "landscape" else "portrait")) := by
  obtain ⟨as, cs, he, ho, hv⟩ := hP.page
  have val : ∀ x ∈ [("width", p.width), ("height", p.height), ("left-offset", p.left), ("right-offset", p.right), ("top-offset", p.top),
      ("bottom-offset", p.bottom), ("header-offset", p.header), ("footer-offset", p.footer)], x.2 < 2 ^ 32 → ClosestCm x.2 (cmOf (attrValue as x.1)) :=
    fun x hx hn => cmOf_closest (xpath_decimal (hv x hx)) hn
  simp only [List.mem_cons, List.not_mem_nil, or_false, forall_eq_or_imp, forall_eq] at val hn ⊢
  obtain ⟨v1, v2, v3, v4, v5, v6, -, -⟩ := val
  obtain ⟨n1, n2, n3, n4, n5, n6⟩ := hn
  rw [decimal_nat]
  simp only [pageValue_section h hi he]
  have lay : layoutProps (as, cs) = [(lit "style:print-orientation", lit (if p.landscape then "landscape" else "portrait")),
      (lit "fo:page-width", cmOf (attrValue as (if p.landscape then "height" else "width"))),
      (lit "fo:page-height", cmOf (attrValue as (if p.landscape then "width" else "height"))),
      (lit "fo:margin-top", cmOf (attrValue as "top-offset")), (lit "fo:margin-left", cmOf (attrValue as "left-offset")),
      (lit "fo:margin-right", cmOf (attrValue as "right-offset")), (lit "fo:margin-bottom", cmOf (attrValue as "bottom-offset"))] := by
    have n : ¬ lit "landscape" = lit "portrait" := by decide
    simp only [layoutProps, attrValue_eq as "orientation", ho]
    cases p.landscape <;> simp [n]
  rw [lay]
  have keys : ∀ a b : PyStr, a ≠ b → ¬ a = b := fun _ _ h => h
  have last : ∀ (k0 k1 k2 k3 k4 k5 k6 : String) (x0 x1 x2 x3 x4 x5 x6 : PyStr), [lit k0, lit k1, lit k2, lit k3, lit k4, lit k5, lit k6].Nodup →
      let l := [(lit k0, x0), (lit k1, x1), (lit k2, x2), (lit k3, x3), (lit k4, x4), (lit k5, x5), (lit k6, x6)]
      lastSet l k0 = some x0 ∧ lastSet l k1 = some x1 ∧ lastSet l k2 = some x2 ∧ lastSet l k3 = some x3 ∧ lastSet l k4 = some x4 ∧ lastSet l k5 = some x5 ∧
        lastSet l k6 = some x6 := by
    intro k0 k1 k2 k3 k4 k5 k6 x0 x1 x2 x3 x4 x5 x6 hd
    simp only [List.nodup_cons, List.mem_cons, List.not_mem_nil, or_false, not_or, not_false_eq_true, List.nodup_nil, and_true] at hd
    obtain ⟨⟨a1, a2, a3, a4, a5, a6⟩, ⟨b2, b3, b4, b5, b6⟩, ⟨c3, c4, c5, c6⟩, ⟨d4, d5, d6⟩, ⟨e5, e6⟩, f6⟩ := hd
    have s : ∀ {a b : PyStr}, ¬ a = b → ¬ b = a := fun h e => h e.symm
    simp [lastSet, a1, a2, a3, a4, a5, a6, b2, b3, b4, b5, b6, c3, c4, c5, c6, d4, d5, d6, e5, e6, f6, s a1, s a2, s a3, s a4, s a5, s a6, s b2, s b3, s b4, s b5, s b6,
      s c3, s c4, s c5, s c6, s d4, s d5, s d6, s e5, s e6, s f6]
  obtain ⟨l0, l1, l2, l3, l4, l5, l6⟩ := last "style:print-orientation" "fo:page-width" "fo:page-height" "fo:margin-top" "fo:margin-left" "fo:margin-right"
    "fo:margin-bottom" (lit (if p.landscape then "landscape" else "portrait")) (cmOf (attrValue as (if p.landscape then "height" else "width")))
    (cmOf (attrValue as (if p.landscape then "width" else "height"))) (cmOf (attrValue as "top-offset")) (cmOf (attrValue as "left-offset"))
    (cmOf (attrValue as "right-offset")) (cmOf (attrValue as "bottom-offset")) (by decide +kernel)
  refine ⟨⟨⟨_, l1, ?_⟩, ⟨_, l2, ?_⟩, ⟨_, l3, v5 n5⟩, ⟨_, l4, v3 n3⟩, ⟨_, l5, v4 n4⟩, ⟨_, l6, v6 n6⟩⟩, l0⟩
  · unfold Paper.across
    cases p.landscape
    · exact v1 n1
    · exact v2 n2
  · unfold Paper.down
    cases p.landscape
    · exact v2 n2
    · exact v1 n1

section
variable (doc T : Forest XNode) (ids : List (PyStr × PyStr)) (h : TablesAre doc ids T) (hN : OfficeNames T) (hP : ParagraphsNumbered doc)
    (secs : List (List (PyStr × PyStr) × Forest XNode)) (hS : SectionsAre doc secs) (hC : ∀ sec ∈ secs, PlainSection sec)
    (hs : ∀ sec ∈ secs, ∀ p ∈ topParagraphs sec, ∃ (k : Nat) (st : List (PyStr × PyStr) × Forest XNode), attrOf p.1 "style-id" = some (Spec.decimal k) ∧ (entries "Style" T)[k]? = some st)
include h hN hP hS hC hs

/-- C108: the paragraphs of every section are on pages of its master page, if the first one begins a section by its attributes and has another
paragraph shape than its style or begins a page.
Missing: sections whose first paragraph has the paragraph shape of its style and does not say that it begins a page (`C108_master_lost`); paragraphs within
others; documents without the one table of ids; styles whose names are not distinct after the replacements, or taken. -/
theorem C108_odt_pages_partial (hb : ∀ sec ∈ secs, ∀ p, (topParagraphs sec).head? = some p → OpensSection T p.1) :
    (sectionParagraphs doc).map (fun ps => ps.map (·.1)) = secs.map (fun sec => (topParagraphs sec).map (·.1)) ∧
    pagesFrom (styleMasters doc) none ((sectionParagraphs doc).flatten.map (·.2)) =
      (secs.zipIdx.map fun s => List.replicate (topParagraphs s.1).length (some (lit "MasterPage-" ++ Spec.decimal (s.2 + 1 : Nat)))).flatten := by
  have hE := sectionParagraphs_eq hS hC
  constructor
  · rw [hE]; simp [flowOf]
  · rw [hE]
    exact pages_sections h hN hP hS hs hb

omit hs in
/-- C108, violated: if no paragraph of a section begins a page or has another paragraph shape than its style, the section is on pages of the section before it. -/
theorem C108_master_lost (i : Nat) (sec : List (PyStr × PyStr) × Forest XNode) (hi : secs[i]? = some sec)
    (hl : ∀ p ∈ topParagraphs sec, ∃ (k q : Nat) (st : List (PyStr × PyStr) × Forest XNode), attrOf p.1 "style-id" = some (Spec.decimal k) ∧ (entries "Style" T)[k]? = some st ∧
      attrOf st.1 "parashape-id" = some (Spec.decimal q) ∧ attrOf p.1 "parashape-id" = some (Spec.decimal q) ∧ attrOf p.1 "new-page" ≠ some (lit "1"))
    (page : Option PyStr) : ∃ ps, (sectionParagraphs doc)[i]? = some ps ∧ ps.map (·.1) = (topParagraphs sec).map (·.1) ∧
      pagesFrom (styleMasters doc) page (ps.map (·.2)) = List.replicate ps.length page := by
  refine ⟨(topParagraphs sec).map (flowOf doc), by rw [sectionParagraphs_eq hS hC, List.getElem?_map, hi]; rfl, by simp [flowOf], ?_⟩
  rw [List.length_map, List.map_map]
  have : ∀ p ∈ topParagraphs sec, lastNamed (styleMasters doc) (flowOf doc p).2 = none := by
    intro p hp
    obtain ⟨k, q, st, a1, a2, a3, a4, a5⟩ := hl p hp
    rw [master_found h hN hP hS hi hp a1 a2, if_neg]
    rintro ⟨b, -⟩
    rw [xpath_decimal a1, nthOf_eq h _ (by simp), a2] at b
    rw [show (some st).toList = [st] from rfl] at b
    simp only [ownParagraph, Bool.or_eq_true, beq_iff_eq] at b
    rcases b with b | b
    · rw [xpath_decimal a4, firstAttr_number a3] at b
      simp [numbersDiffer] at b
    · rw [attrValue_eq] at b
      cases c : attrOf p.1 "new-page" with
      | none => rw [c] at b; exact absurd b (by decide)
      | some v => rw [c] at b a5; exact a5 (congrArg some b)
  generalize topParagraphs sec = l at this
  induction l with
  | nil => rfl
  | cons p l ih =>
    simp only [List.map_cons, Function.comp, pagesFrom, this p (by simp), List.length_cons, List.replicate_succ, Option.orElse_none]
    exact congrArg _ (ih fun p hp => this p (by simp [hp]))

end

/-! ### A document -/

/-- Two paragraph shapes, and a style with the first one. -/
def paperTable : Forest XNode :=
  el "CharShape" [] .nil (el "ParaShape" [("align", "both")] .nil (el "ParaShape" [("align", "right")] .nil
    (el "Style" [("local-name", "Body Text"), ("name", "Body Text"), ("kind", "paragraph"), ("parashape-id", "0"), ("charshape-id", "0")] .nil)))

/-- Two sections: on A4 paper, and on turned A4 paper with a wide margin to the left.  The first paragraph of the second one, "B", has the
paragraph shape with this number, as its style has 0, and begins a section. -/
def paperXml (shape page : String) : Forest XNode :=
  el "HwpDoc" [] (el "DocInfo" [] (el "IdMappings" [] paperTable)
  (el "BodyText" []
    (el "SectionDef" [("section-id", "0")]
      (el "PageDef" [("width", "59528"), ("height", "84188"), ("orientation", "portrait"), ("left-offset", "8504"), ("right-offset", "8504"),
        ("top-offset", "5668"), ("bottom-offset", "4252"), ("header-offset", "4252"), ("footer-offset", "4252")] .nil
      (el "ColumnSet" []
        (el "Paragraph" [("parashape-id", "1"), ("style-id", "0"), ("paragraph-id", "0"), ("new-page", "0"), ("new-section", "1")]
          (el "LineSeg" [] (el "Text" [("charshape-id", "0"), ("lang", "en")] (.node (.text (lit "A")) .nil .nil))))))
    (el "SectionDef" [("section-id", "1")]
      (el "PageDef" [("width", "59528"), ("height", "84188"), ("orientation", "landscape"), ("left-offset", "14173"), ("right-offset", "8504"),
        ("top-offset", "5668"), ("bottom-offset", "4252"), ("header-offset", "4252"), ("footer-offset", "2834")] .nil
      (el "ColumnSet" []
        (el "Paragraph" [("parashape-id", shape), ("style-id", "0"), ("paragraph-id", "1"), ("new-page", page), ("new-section", "1")]
          (el "LineSeg" [] (el "Text" [("charshape-id", "0"), ("lang", "en")] (.node (.text (lit "B")) .nil .nil)))
        (el "Paragraph" [("parashape-id", "0"), ("style-id", "0"), ("paragraph-id", "2"), ("new-page", "0"), ("new-section", "0")]
          (el "LineSeg" [] (el "Text" [("charshape-id", "0"), ("lang", "en")] (.node (.text (lit "C")) .nil .nil)))))))))))

def paperSections (shape page : String) : List (List (PyStr × PyStr) × Forest XNode) := elementsNamed "SectionDef" (paperXml shape page)

def turnedPaper : Paper := ⟨59528, 84188, true, 14173, 8504, 5668, 4252, 4252, 2834⟩

theorem paper_sections (shape page : String) : SectionsAre (paperXml shape page) (paperSections shape page) where
  body := ⟨_, _, _, _, rfl, rfl, rfl⟩
  numbered := by
    intro i sec hi
    match i with
    | 0 => cases hi; exact (by decide +kernel : attrOf [(lit "section-id", lit "0")] "section-id" = some (Spec.decimal (0 : Nat)))
    | 1 => cases hi; exact (by decide +kernel : attrOf [(lit "section-id", lit "1")] "section-id" = some (Spec.decimal (1 : Nat)))
    | i + 2 => cases hi

theorem paper_tables (shape page : String) : TablesAre (paperXml shape page) [] paperTable where
  hwpdoc := ⟨_, _, rfl, _, _, rfl, rfl⟩
  ids := rfl
  only := by
    intro name hn
    simp only [List.mem_cons, List.not_mem_nil, or_false] at hn
    rcases hn with rfl | rfl | rfl | rfl <;> rfl

theorem turned_paper (shape page : String) : ∃ sec, (paperSections shape page)[1]? = some sec ∧ PaperIs sec turnedPaper :=
  ⟨_, rfl, ⟨_, _, rfl, by decide +kernel, by decide +kernel⟩⟩

/-- The theorem applies: the pages of the second section are 29.7 cm wide, 21 cm high and have a margin of 5 cm to the left. -/
example : (∃ v, pageValue (masterPages (paperXml "1" "0")) (pageLayouts (paperXml "1" "0")) "fo:page-width" (lit "MasterPage-2") = some v ∧ ClosestCm 84188 v) ∧
    (∃ v, pageValue (masterPages (paperXml "1" "0")) (pageLayouts (paperXml "1" "0")) "fo:page-height" (lit "MasterPage-2") = some v ∧ ClosestCm 59528 v) ∧
    (∃ v, pageValue (masterPages (paperXml "1" "0")) (pageLayouts (paperXml "1" "0")) "fo:margin-left" (lit "MasterPage-2") = some v ∧ ClosestCm 14173 v) := by
  obtain ⟨sec, h1, h2⟩ := turned_paper "1" "0"
  obtain ⟨h, -⟩ := C108_odt_layout _ _ (paper_sections "1" "0") 1 sec h1 turnedPaper h2 (by decide)
  have e : lit "MasterPage-" ++ Spec.decimal (1 + 1 : Nat) = lit "MasterPage-2" := by decide +kernel
  rw [e] at h
  exact ⟨h ("fo:page-width", 84188) (by decide), h ("fo:page-height", 59528) (by decide), h ("fo:margin-left", 14173) (by decide)⟩

/-- The theorem applies: "C" is on paper as wide as the height of A4 paper. -/
example : ∃ r ∈ htmlRuns (paperXml "1" "0"), r.text = lit "C" ∧ ∃ inner frame paper outer, r.path = inner ++ frame :: paper :: outer ∧
    (∃ v, valueWithin (headRules (paperXml "1" "0")) "width" (paper :: outer) = some v ∧ ClosestMm 84188 v) ∧
    (∃ v, valueWithin (headRules (paperXml "1" "0")) "margin-left" (frame :: paper :: outer) = some v ∧ ClosestMm 14173 v) := by
  have e : ((htmlRuns (paperXml "1" "0"))[2]?).map (fun r => (r.text, attrOf r.para "paragraph-id")) = some (lit "C", some (lit "2")) := by decide +kernel
  cases hr : (htmlRuns (paperXml "1" "0"))[2]? with
  | none => rw [hr] at e; cases e
  | some r =>
    rw [hr, Option.map_some, Option.some.injEq, Prod.mk.injEq] at e
    obtain ⟨i, sec, inner, frame, paper, outer, hi, hm, hp, h⟩ := C108_html_partial _ _ (paper_sections "1" "0") r (List.mem_of_getElem? hr)
    have other : ∀ x ∈ htmlSectionRuns (paperXml "1" "0") ((paperSections "1" "0")[0]?.getD ([], .nil)), attrOf x.para "paragraph-id" = some (lit "0") := by decide +kernel
    match i with
    | 0 =>
      have := other r (by rw [hi]; exact hm)
      rw [this] at e
      exact absurd e.2 (by decide)
    | 1 =>
      obtain ⟨sec', h1, h2⟩ := turned_paper "1" "0"
      obtain rfl : sec' = sec := Option.some.inj (h1.symm.trans hi)
      obtain ⟨a, b, -⟩ := h turnedPaper h2 (by decide)
      exact ⟨r, List.mem_of_getElem? hr, e.1, inner, frame, paper, outer, hp, a, b ("margin-left", 14173) (by decide)⟩
    | i + 2 => cases hi

/-- The pages of the paragraphs of the sections in an office program. -/
def officePages (doc : Forest XNode) : List (Option PyStr) := pagesFrom (styleMasters doc) none ((sectionParagraphs doc).flatten.map (·.2))

/-- The second section is on its pages, if its first paragraph has a shape of its own, or begins a page; it is on those of the first section otherwise. -/
theorem C108_by_shape :
    officePages (paperXml "1" "0") = [some (lit "MasterPage-1"), some (lit "MasterPage-2"), some (lit "MasterPage-2")] ∧
    officePages (paperXml "0" "1") = [some (lit "MasterPage-1"), some (lit "MasterPage-2"), some (lit "MasterPage-2")] ∧
    officePages (paperXml "0" "0") = [some (lit "MasterPage-1"), some (lit "MasterPage-1"), some (lit "MasterPage-1")] := by
  decide +kernel

theorem paper_office : OfficeNames paperTable where
  distinct := by decide +kernel
  free := by decide +kernel

theorem paper_numbered : ParagraphsNumbered (paperXml "1" "0") where
  number := by
    have e : (elementsNamed "Paragraph" (paperXml "1" "0")).map (fun p => attrOf p.1 "paragraph-id") =
      [some (lit "0"), some (lit "1"), some (lit "2")] := by decide +kernel
    intro p hp
    have : attrOf p.1 "paragraph-id" ∈ [some (lit "0"), some (lit "1"), some (lit "2")] := by rw [← e]; exact List.mem_map_of_mem hp
    simp only [List.mem_cons, List.not_mem_nil, or_false] at this
    rcases this with h | h | h
    · exact ⟨0, h.trans (by decide +kernel)⟩
    · exact ⟨1, h.trans (by decide +kernel)⟩
    · exact ⟨2, h.trans (by decide +kernel)⟩
  distinct := by decide +kernel

theorem paper_plain : ∀ sec ∈ paperSections "1" "0", PlainSection sec := by
  have : ∀ sec ∈ paperSections "1" "0", (∀ e ∈ elementKids sec.2, e.1 ≠ lit "ColumnSet" → e.1 ≠ lit "Paragraph" ∧ (elementsNamed "Paragraph" e.2.2).length = 0) ∧
      ∀ c ∈ entries "ColumnSet" sec.2, ∀ e ∈ elementKids c.2, e.1 ≠ lit "Paragraph" → (elementsNamed "Paragraph" e.2.2).length = 0 := by decide +kernel
  exact fun sec hs => ⟨fun e he h => ⟨((this sec hs).1 e he h).1, List.eq_nil_of_length_eq_zero ((this sec hs).1 e he h).2⟩,
    fun c hc e he h => List.eq_nil_of_length_eq_zero ((this sec hs).2 c hc e he h)⟩

/-- The theorem applies, and says what is computed above. -/
example : officePages (paperXml "1" "0") = [some (lit "MasterPage-1"), some (lit "MasterPage-2"), some (lit "MasterPage-2")] := by
  have st : ∀ sec ∈ paperSections "1" "0", ∀ p ∈ topParagraphs sec, attrOf p.1 "style-id" = some (Spec.decimal (0 : Nat)) := by decide +kernel
  have op : ∀ sec ∈ paperSections "1" "0", ∀ p ∈ (topParagraphs sec).head?, attrOf p.1 "new-section" = some (lit "1") ∧ attrOf p.1 "parashape-id" = some (Spec.decimal (1 : Nat)) := by
    decide +kernel
  have hd : ∀ sec : List (PyStr × PyStr) × Forest XNode, ∀ p, (topParagraphs sec).head? = some p → p ∈ topParagraphs sec := fun sec p h => List.mem_of_mem_head? h
  have key := (C108_odt_pages_partial _ _ _ (paper_tables "1" "0") paper_office paper_numbered _ (paper_sections "1" "0") paper_plain
    (fun sec hs p hp => ⟨0, _, st sec hs p hp, rfl⟩) (fun sec hs p hp => ⟨(op sec hs p hp).1, .inr ⟨0, 0, 1, _, st sec hs p (hd sec p hp), rfl, by decide +kernel, (op sec hs p hp).2, by decide⟩⟩)).2
  refine key.trans ?_
  decide +kernel

/-! ### From records -/

/-- A section with the paper of a page definition and a text. -/
def paperBody (page : Bytes) (text : String) : Bytes :=
  recordBytes 66 0 [10, 0, 0, 0, 4, 0, 0, 0, 0, 0, 0, 3, 1, 0, 0, 0, 0, 0, 0, 0, 0, 0] ++
  recordBytes 67 1 ([2, 0] ++ asciiBytes "dces" ++ [0, 0, 0, 0, 0, 0, 0, 0, 2, 0] ++ text.toList.flatMap (fun c => [UInt8.ofNat c.toNat, 0]) ++ [13, 0]) ++
  recordBytes 68 1 [0, 0, 0, 0, 0, 0, 0, 0] ++
  recordBytes 71 1 (asciiBytes "dces" ++ List.replicate 34 0) ++ recordBytes 73 2 page

/-- A4 paper with this bit for its orientation. -/
def a4Page (turned : UInt8) : Bytes :=
  [0x88, 0xE8, 0, 0] ++ [0xDC, 0x48, 1, 0] ++ [0x38, 0x21, 0, 0] ++ [0x38, 0x21, 0, 0] ++ [0x24, 0x16, 0, 0] ++ [0x9C, 0x10, 0, 0] ++ [0x9C, 0x10, 0, 0] ++
  [0x9C, 0x10, 0, 0] ++ [0, 0, 0, 0] ++ [turned, 0, 0, 0]

/-- The tree of the XML file of a document with two sections, "A" on A4 paper, "B" on turned A4 paper. -/
def paperTree : Forest XNode :=
  xmlTree (joined (documentXml sampleEnv (directReader [5, 0, 1, 7]) (fun _ => [])
    ⟨[5, 0, 1, 7], sampleSummaryObj, styleInfo ["Body Text"], [(0, paperBody (a4Page 0) "A"), (1, paperBody (a4Page 1) "B")], none⟩).out)

/-- C108, violated: the paper of the second section is turned, but "B" is not on pages of its master page, and "A" has none either, as both have the paragraph shape
of their style. -/
theorem C108_turned_lost :
    (elementsNamed "PageDef" paperTree).map (fun p => (attrOf p.1 "orientation", attrOf p.1 "width", attrOf p.1 "height", attrOf p.1 "left-offset")) =
      [(some (lit "portrait"), some (lit "59528"), some (lit "84188"), some (lit "8504")), (some (lit "landscape"), some (lit "59528"), some (lit "84188"), some (lit "8504"))] ∧
    (elementsNamed "SectionDef" paperTree).map (fun s => attrOf s.1 "section-id") = [some (lit "0"), some (lit "1")] ∧
    (masterPages paperTree).map (·.1) = [lit "MasterPage-1", lit "MasterPage-2"] ∧
    (odtRuns paperTree).map (fun r => (r.text, attrOf r.para "new-section")) = [(lit "A", some (lit "1")), (lit "B", some (lit "1"))] ∧
    officePages paperTree = [none, none] := by
  decide +kernel

end Hwp.Props
