/-
Proofs about the distance of the lines of paragraphs.
-/
import Verif.Proofs.Margins
import Verif.Spec.Spacing
set_option autoImplicit false
set_option linter.unusedSimpArgs false
set_option linter.unusedVariables false
set_option Elab.async false
namespace Hwp
open Spec

/-! ### What is declared -/

theorem char_no_line (doc : Forest XNode) (sel : PyStr) (c : XElem) : ∀ x ∈ charRules doc sel c, ∀ d ∈ x.2, d.1 ≠ lit "line-height" := by
  intro x hx d hd
  have n : ∀ n ∈ ["color", "font-style", "font-weight", "font-family"], lit n ≠ lit "line-height" := by decide +kernel
  unfold charRules at hx
  rcases List.mem_cons.1 hx with rfl | hx
  · unfold charDecls at hd
    rcases List.mem_append.1 hd with hd | hd
    swap
    · have n : ∀ n ∈ decoNames, n ≠ lit "line-height" := by decide +kernel
      exact n _ (mem_lineDecls _ d hd)
    rcases List.mem_cons.1 hd with rfl | hd
    · exact n "color" (by decide)
    rcases List.mem_append.1 hd with hd | hd
    · split at hd
      · obtain rfl := List.mem_singleton.1 hd; exact n "font-style" (by decide)
      · simp at hd
    · split at hd
      · obtain rfl := List.mem_singleton.1 hd; exact n "font-weight" (by decide)
      · simp at hd
  · have n : ∀ n ∈ langNames, n ≠ lit "line-height" := by decide +kernel
    exact n _ (mem_langRules _ _ _ x hx d hd)

theorem para_no_line (s : XElem) : ∀ d ∈ paraDecls s, d.1 ≠ lit "line-height" := by
  intro d hd
  have n : ∀ n ∈ ["margin", "text-align", "text-indent", "padding-left", "min-height"], lit n ≠ lit "line-height" := by decide +kernel
  obtain ⟨more, e⟩ := paraDecls_eq s
  rw [e] at hd
  rcases List.mem_append.1 hd with hd | hd
  · rcases List.mem_append.1 hd with hd | hd
    · simp only [List.mem_cons, List.not_mem_nil, or_false] at hd
      rcases hd with rfl | rfl | rfl
      exacts [n "margin" (by decide), n "text-align" (by decide), n "text-indent" (by decide)]
    · obtain ⟨v, _, rfl⟩ := List.mem_map.1 hd; exact n "padding-left" (by decide)
  · obtain ⟨v, _, rfl⟩ := List.mem_map.1 hd; exact n "min-height" (by decide)

/-- The heights of lines that a paragraph shape declares. -/
def lineValues (shape : XElem) : List PyStr :=
  if attrValue shape.1 "linespacing-type" = lit "ratio" then [numberStr 2 (xpathInt (attrValue shape.1 "linespacing"))] else []

theorem numberStr_ne (d : Nat) (k : Option Int) : numberStr d k ≠ [] := by
  cases k with
  | none => simp only [numberStr]; decide
  | some k =>
    simp only [numberStr, placesStr]
    intro h
    exact natStr_nonempty _ (List.append_eq_nil_iff.1 (List.append_eq_nil_iff.1 h).1).2

theorem line_values (shapes : List XElem) :
    ((shapes.flatMap spanDecls).filter fun d => decide (d.1 = lit "line-height" ∧ d.2 ≠ [])).map (·.2) = shapes.flatMap lineValues := by
  induction shapes with
  | nil => rfl
  | cons s ss ih =>
    rw [List.flatMap_cons, List.filter_append, List.map_append, ih, List.flatMap_cons]
    congr 1
    unfold spanDecls lineValues
    by_cases h : attrValue s.1 "linespacing-type" = lit "ratio"
    · rw [if_pos h, if_pos h]; simp [numberStr_ne]
    · rw [if_neg h, if_neg h]; rfl

theorem selects_own (n : Nat) (scls pcls : PyStr) (rest : List Box) :
    selects [⟨lit "span", []⟩, ⟨lit "p", [paraClass n]⟩] ((lit "span", scls) :: (lit "p", pcls) :: rest) = (classesOf pcls).contains (paraClass n) := by
  simp [selects, meets]

theorem own_selector (n : Nat) : lit "p.parashape-" ++ natStr n ++ lit " > span" = simpleText (lit "p") [paraClass n] ++ lit " > " ++ simpleText (lit "span") [] := by
  rw [para_selector, show lit " > span" = lit " > " ++ lit "span" from by decide]
  simp [simpleText]

theorem line_declared {sel : PyStr} {qs : List Simple} (h : readSelector sel = some qs) (shapes : List XElem) (path : List Box) :
    cssDeclared [(sel, shapes.flatMap spanDecls)] (lit "line-height") path =
      if selects qs path then (shapes.flatMap lineValues).map fun v => (specificity qs, v) else [] := by
  rw [declared_one h, ← line_values]

theorem declared_lines (doc T : Forest XNode) (hN : ∀ s ∈ entries "Style" T, isIdent (styleClass s) = true) (scls cls : PyStr) (rest : List Box) :
    cssDeclared (tableRules doc T) (lit "line-height") ((lit "span", scls) :: (lit "p", cls) :: rest) =
      ((entries "Style" T).flatMap fun s =>
        if (classesOf cls).contains (styleClass s) then
          (if attrOf s.1 "kind" = some (lit "paragraph") then
            (nthOf doc "ParaShape" (xpathNumber (attrValue s.1 "parashape-id"))).flatMap lineValues else []) else []).map (fun v => ((1, 1), v)) ++
      ((entries "ParaShape" T).zipIdx.flatMap fun e => if (classesOf cls).contains (paraClass e.2) then lineValues e.1 else []).map (fun v => ((1, 2), v)) := by
  unfold tableRules
  simp only [childrenNamed_eq]
  rw [declared_append, declared_append, declared_append, declared_append]
  have bullets : cssDeclared ((entries "Bullet" T).zipIdx.map fun e =>
      (lit ".Bullet-" ++ natStr (e.2 + 1) ++ lit "::before", [(lit "text-align", attrValue e.1.1 "align")])) (lit "line-height") ((lit "span", scls) :: (lit "p", cls) :: rest) = [] := by
    unfold cssDeclared
    rw [List.flatMap_eq_nil_iff]
    intro x hx
    obtain ⟨e, _, rfl⟩ := List.mem_map.1 hx
    simp only [bullet_unread]
  have chars : cssDeclared ((entries "CharShape" T).zipIdx.flatMap fun e => charRules doc (lit "span.charshape-" ++ natStr e.2) e.1)
      (lit "line-height") ((lit "span", scls) :: (lit "p", cls) :: rest) = [] := by
    refine declared_none _ _ _ ?_
    intro x hx
    obtain ⟨e, _, hx⟩ := List.mem_flatMap.1 hx
    exact char_no_line _ _ _ x hx
  rw [bullets, chars, declared_none (List.map _ (entries "BorderFill" T).zipIdx), List.append_nil, List.append_nil, List.append_nil]
  · congr 1
    · rw [declared_flatMap, List.map_flatMap]
      refine List.flatMap_congr fun s hs => ?_
      unfold styleRules
      simp only [styleClass_eq]
      rw [declared_append, declared_none (List.flatMap _ _), List.append_nil]
      · rw [attrNode_eq]
        by_cases hk : attrOf s.1 "kind" = some (lit "paragraph")
        · rw [if_pos hk, if_pos hk, declared_cons, declared_none [(_, List.flatMap paraDecls _)], List.nil_append, style_selector,
            line_declared (readSelector_child (writable_style (hN s hs)) writable_span), selects_style]
          · by_cases hc : (classesOf cls).contains (styleClass s) = true
            · rw [if_pos hc, if_pos (by simpa using hc)]
              rfl
            · rw [if_neg hc, if_neg (by simpa using hc)]
              rfl
          · intro x hx d hd
            obtain rfl := List.mem_singleton.1 hx
            obtain ⟨e, _, hd⟩ := List.mem_flatMap.1 hd
            exact para_no_line _ d hd
        · rw [if_neg hk, if_neg hk]
          simp [cssDeclared]
      · intro x hx
        obtain ⟨e, _, hx⟩ := List.mem_flatMap.1 hx
        exact char_no_line _ _ _ x hx
    · rw [declared_flatMap, List.map_flatMap]
      refine List.flatMap_congr fun e he => ?_
      unfold paraRules
      rw [declared_cons, declared_none [(_, paraDecls _)], List.nil_append, own_selector]
      · have d : spanDecls e.1 = [e.1].flatMap spanDecls := by simp
        rw [d, line_declared (readSelector_child (writable_para e.2) writable_span), selects_own]
        by_cases hc : (classesOf cls).contains (paraClass e.2) = true
        · rw [if_pos hc, if_pos hc]
          simp only [List.flatMap_cons, List.flatMap_nil, List.append_nil]
          rfl
        · rw [if_neg hc, if_neg hc]
          rfl
      · intro x hx d hd
        obtain rfl := List.mem_singleton.1 hx
        exact para_no_line _ d hd
  · intro x hx d hd
    obtain ⟨e, _, rfl⟩ := List.mem_map.1 hx
    simp at hd

/-! ### HTML -/

/-- The height of lines of a run of text: that of the own shape of the paragraph, if it has one, or else that of the shape of its style. -/
theorem own_lines {doc T : Forest XNode} {ids : List (PyStr × PyStr)} (h : TablesAre doc ids T) (hN : ProperNames T) (embed : Bool) {para : List (PyStr × PyStr)}
    {s j q : Nat} (hr : ShapedPara para s j) {st p d : XElem} (hs : (entries "Style" T)[s]? = some st) (hj : (entries "ParaShape" T)[j]? = some p)
    (hq : attrOf st.1 "parashape-id" = some (Spec.decimal q)) (hd : (entries "ParaShape" T)[q]? = some d) (scls : PyStr) (rest : List Box) :
    ownValue (pageRules embed doc) (lit "line-height") ((lit "span", scls) :: (lit "p", paragraphClass doc para) :: rest) =
      (if q = j then [] else lineValues p).getLast?.orElse fun _ =>
        (if attrOf st.1 "kind" = some (lit "paragraph") then lineValues d else []).getLast? := by
  have e : (attrOf st.1 "parashape-id" = some (natStr j)) = (q = j) := by
    rw [hq, decimal_nat, Option.some.injEq, eq_iff_iff]
    exact ⟨fun g => natStr_inj g, fun g => g ▸ rfl⟩
  obtain ⟨second, first⟩ := para_select h hN hr hs hj lineValues
  rw [ownValue, pageRules_eq h, declared_page _ _ _ _ (by decide +kernel), declared_lines doc T hN.ident, second, first, winning_two _ _ (by decide)]
  simp only [e, xpath_decimal hq, nthOf_eq h "ParaShape" (by simp), hd, Option.toList_some, List.flatMap_cons, List.flatMap_nil, List.append_nil]

theorem lineValues_ratio {x : XElem} {n : Int} (h : ShapeSpacing x.1 "ratio" n) : lineValues x = [numberStr 2 (some n)] := by
  unfold lineValues
  rw [attrValue_eq, h.kind, number_at h.amount]
  rfl

theorem lineValues_other {x : XElem} {kind : String} {n : Int} (h : ShapeSpacing x.1 kind n) (hk : kind ≠ "ratio") : lineValues x = [] := by
  unfold lineValues
  rw [attrValue_eq, h.kind, if_neg]
  rw [Option.getD_some, lit_eq]
  exact hk

theorem number_value (unit : String) (d : Nat) (n : Int) : signedLength unit (numberStr d (some n) ++ lit unit) = some ((n : ℚ) / 10 ^ d) :=
  signedLength_places unit d n

theorem number_bare (n : Int) : signedLength "" (numberStr 2 (some n)) = some ((n : ℚ) / 100) := by
  have := number_value "" 2 n
  rw [show lit "" = [] from rfl, List.append_nil] at this
  rw [this]
  norm_num

/-! ### ODT -/

theorem shape_lines {y : XElem} : lastSet (shapeProps y) "fo:line-height" = lastSet (spacingProps y.1) "fo:line-height" := by
  unfold shapeProps
  rw [lastSet_append, lastSet_none (a := _ :: _)]
  · cases lastSet (spacingProps y.1) "fo:line-height" <;> rfl
  · intro d hd
    have n : ∀ n ∈ ["fo:text-align", "fo:text-indent", "fo:margin-left", "fo:margin-right", "fo:margin-top", "fo:margin-bottom"], lit n ≠ lit "fo:line-height" := by
      decide +kernel
    unfold marginProps at hd
    simp only [List.mem_cons, List.not_mem_nil, or_false] at hd
    rcases hd with rfl | rfl | rfl | rfl | rfl | rfl
    exacts [n "fo:text-align" (by decide), n "fo:text-indent" (by decide), n "fo:margin-left" (by decide), n "fo:margin-right" (by decide),
      n "fo:margin-top" (by decide), n "fo:margin-bottom" (by decide)]

theorem lines_ratio {y : XElem} {n : Int} (h : ShapeSpacing y.1 "ratio" n) :
    lastSet (shapeProps y) "fo:line-height" = some (numberStr 0 (some n) ++ lit "%") := by
  rw [shape_lines]
  unfold spacingProps
  simp only [attrValue_eq y.1 "linespacing-type", h.kind, number_at h.amount, Option.getD_some, if_true]
  simp [lastSet]

theorem lines_fixed {y : XElem} {n : Int} (h : ShapeSpacing y.1 "fixed" n) : lastSet (shapeProps y) "fo:line-height" = some (ptOf (some n)) := by
  rw [shape_lines]
  unfold spacingProps
  simp only [attrValue_eq y.1 "linespacing-type", h.kind, number_at h.amount, Option.getD_some]
  rw [if_neg (by rw [lit_eq]; decide), if_pos trivial]
  simp [lastSet, lit_eq]

theorem lines_other {y : XElem} {kind : String} {n : Int} (h : ShapeSpacing y.1 kind n) (h1 : kind ≠ "ratio") (h2 : kind ≠ "fixed") :
    lastSet (shapeProps y) "fo:line-height" = none := by
  rw [shape_lines]
  unfold spacingProps
  simp only [attrValue_eq y.1 "linespacing-type", h.kind, number_at h.amount, Option.getD_some]
  rw [if_neg (by rw [lit_eq]; exact h1), if_neg (by rw [lit_eq]; exact h2)]
  refine lastSet_none fun d hd => ?_
  split at hd
  · obtain rfl := List.mem_singleton.1 hd
    rw [ne_eq, lit_eq]; decide
  · simp at hd

/-- What is set for a paragraph whose own shape sets nothing of this: what its style sets. -/
theorem para_kept {doc T : Forest XNode} {ids : List (PyStr × PyStr)} (h : TablesAre doc ids T) (hN : OfficeNames T) (hP : ParagraphsNumbered doc)
    {st d x : XElem} {q s j : Nat} {p : XElem} (hp : p ∈ elementsNamed "Paragraph" doc) (hs : ShapedPara p.1 s j)
    (hst : (entries "Style" T)[s]? = some st) (hq : attrOf st.1 "parashape-id" = some (Spec.decimal q)) (hd : (entries "ParaShape" T)[q]? = some d)
    (hx : (entries "ParaShape" T)[j]? = some x)
    (hB : ∃ as D bs B, (as, D) ∈ entries "HwpDoc" doc ∧ (bs, B) ∈ entries "BodyText" D)
    (prop : String) (hb : lit "fo:break-before" ≠ lit prop) (hv : lastSet (shapeProps x) prop = none)
    (i : Nat) (before : List PyStr) (as : List (PyStr × PyStr)) (text : PyStr) :
    paraValue (automaticStyles doc) (commonStyles doc) prop (odtRun doc p.1 i before as text).paraStyle = lastSet (shapeProps d) prop := by
  rw [para_value h hN hP hp hs hst hq hd hx hB]
  have hbr : lastSet (if attrOf p.1 "new-page" = some (lit "1") then [(lit "fo:break-before", lit "page")] else []) prop = none :=
    lastSet_none fun d hd => by
      split at hd
      · obtain rfl := List.mem_singleton.1 hd; exact hb
      · simp at hd
  split
  · rw [lastSet_append, hbr, hv]; rfl
  · rfl

/-! ### Records -/

/-- tagid25_para_shape.py:37-42 -/
def spacingBits : BitDecl := Decl.bitsE 0 1 (enumOf ["RATIO", "FIXED", "SPACEONLY", "MINIMUM"]) "linespacing_type"

theorem spacing_shown (n : Nat) : noNul (showBits spacingBits (n % 4)) = lit (flagsSpacing n) := by
  have hk : n % 4 < 4 := Nat.mod_lt _ (by omega)
  have all : ∀ k < 4, noNul (showBits spacingBits k) = lit (flagsSpacing k) := by decide +kernel
  rw [all _ hk]
  unfold flagsSpacing
  rw [show n % 4 % 4 = n % 4 by omega]

theorem entry_spacing {env : XmlEnv} {ver : Version} {rd : ModelReader Fields} (hrd : ReadsDecls ver rd)
    {m : PModel Fields} {x : List (PyStr × PyStr) × Forest XNode} (h : Entry env ver rd "ParaShape" m x) :
    ∃ kind n, recordSpacing m = some (kind, n) ∧ ShapeSpacing x.1 kind n := by
  obtain ⟨acc, v, h1, h2, h3⟩ := record_attr (D := Decl.ParaShape) hrd h.read (by rw [h.type]; decide) (by rw [h.type]; rfl) (by decide +kernel) h.node
    "parashapeflags" (.flags Decl.ParaShapeFlags1) rfl
  obtain ⟨f, rfl⟩ : ∃ n, v = .leaf (.flags Decl.ParaShapeFlags1 n) := by
    cases v with
    | leaf x => cases x <;> simp [Shaped] at h2; exact ⟨_, by rw [h2.1]⟩
    | _ => simp [Shaped] at h2
  have key := h3 "linespacing-type" _ (List.mem_cons_of_mem _ List.mem_cons_self)
  obtain ⟨n, n1, -, n2⟩ := record_int (D := Decl.ParaShape) hrd h.read (by rw [h.type]; decide) (by rw [h.type]; rfl) (by decide +kernel) h.node
    "linespacing" "linespacing" _ (by decide) rfl (by decide +kernel)
  rw [noNul_decimal] at n2
  refine ⟨flagsSpacing f, n, ?_, ?_, n2⟩
  · simp [recordSpacing, flagsField, h1, n1]
  · rw [key]
    change some (noNul (showBits spacingBits (bitsNumber f 0 2))) = _
    rw [show bitsNumber f 0 2 = f % 4 from by rw [bitsNumber_eq f 0 2]; simp, spacing_shown]

end Hwp
