/-
Proofs about the margins and indents of paragraphs.
-/
import Verif.Proofs.AlignRecords
set_option autoImplicit false
set_option linter.unusedSimpArgs false
set_option linter.unusedVariables false
set_option Elab.async false
namespace Hwp
open Spec

theorem number_at {as : List (PyStr × PyStr)} {name : String} {n : Int} (h : attrOf as name = some (Spec.decimal n)) :
    xpathInt (attrValue as name) = some n := by
  rw [attrValue_eq, h, Option.getD_some, xpathInt_decimal]

/-! ### HTML -/

theorem margin_sides {as : List (PyStr × PyStr)} {m : Margins} (h : ShapeMargins as m) :
    marginSide 0 (marginText as) = some ((m.top : ℚ) / 200) ∧ marginSide 1 (marginText as) = some ((m.right : ℚ) / 200) ∧
    marginSide 2 (marginText as) = some ((m.bottom : ℚ) / 200) ∧ marginSide 3 (marginText as) = some ((m.left : ℚ) / 200) := by
  have e : partsAt 0x20 (marginText as) = [ptOf (some m.top), ptOf (some m.right), ptOf (some m.bottom), ptOf (some m.left)] := by
    unfold marginText
    rw [number_at h.left, number_at h.right, number_at h.top, number_at h.bottom, show lit " " = [0x20] from by decide]
    simp only [List.append_assoc, List.singleton_append, List.cons_append, List.nil_append]
    rw [partsAt_cut _ _ _ (ptOf_noSpace _), partsAt_cut _ _ _ (ptOf_noSpace _), partsAt_cut _ _ _ (ptOf_noSpace _), partsAt_self _ _ (ptOf_noSpace _)]
  unfold marginSide
  rw [e]
  exact ⟨ptOf_value _, ptOf_value _, ptOf_value _, ptOf_value _⟩

theorem padding_text {as : List (PyStr × PyStr)} {n : Int} (h : attrOf as "indent" = some (Spec.decimal n)) :
    paddingText as = if n < 0 then [ptOf (some (-n))] else [] := by
  unfold paddingText
  rw [number_at h]

/-- The rules that are always there are not about paragraphs. -/
theorem declared_fixed {cls prop : PyStr} (hp : prop ∉ ["padding", "margin-top", "margin-bottom"].map lit) (h : lit "Paper" ∉ classesOf cls) (rest : List Box) :
    cssDeclared fixedRules prop ((lit "p", cls) :: rest) = [] := by
  have b : readSelector (lit "body") = some [⟨lit "body", []⟩] := by
    have := readSelector_one (n := lit "body") (cs := []) ⟨.inr (by decide +kernel), by simp, by decide +kernel⟩
    simpa [simpleText] using this
  have p : readSelector (lit ".Paper") = some [⟨[], [lit "Paper"]⟩] := by
    have := readSelector_one (n := []) (cs := [lit "Paper"]) (writable_style (by decide +kernel))
    rw [show lit ".Paper" = simpleText [] [lit "Paper"] from by decide +kernel]
    exact this
  simp only [List.map_cons, List.map_nil, List.mem_cons, List.not_mem_nil, or_false, not_or] at hp
  unfold fixedRules
  rw [show ∀ a b c d : CssRule, [a, b, c, d] = [a] ++ ([b] ++ [c, d]) from fun _ _ _ _ => rfl, declared_append, declared_append, declared_none [_, _],
    List.append_nil, declared_one b, declared_one p, if_neg, if_neg]
  · rfl
  · simp only [selects, meets, decide_true, Bool.true_or, List.all_cons, List.all_nil, Bool.and_true, Bool.true_and, List.contains_iff_mem]
    exact h
  · have n1 : lit "body" ≠ [] := by decide +kernel
    have n2 : lit "body" ≠ lit "p" := by decide +kernel
    simp [selects, meets, n1, n2]
  · intro x hx d hd
    simp only [List.mem_cons, List.not_mem_nil, or_false] at hx
    rcases hx with rfl | rfl
    · obtain rfl := List.mem_singleton.1 hd; exact fun e => hp.2.1 e.symm
    · obtain rfl := List.mem_singleton.1 hd; exact fun e => hp.2.2 e.symm

section
variable {doc T : Forest XNode} {ids : List (PyStr × PyStr)} (h : TablesAre doc ids T) (hN : ProperNames T) (embed : Bool) {para : List (PyStr × PyStr)}
    {s j q : Nat} (hr : ShapedPara para s j) {st p d : XElem} (hs : (entries "Style" T)[s]? = some st) (hj : (entries "ParaShape" T)[j]? = some p)
    (hq : attrOf st.1 "parashape-id" = some (Spec.decimal q)) (hd : (entries "ParaShape" T)[q]? = some d)
    (hP : embed = true ∨ styleClass st ≠ lit "Paper") (rest : List Box)
include h hN hr hs hj hq hd hP

/-- What holds for a paragraph: what its own shape says, if it has one, or else what the shape of its style says. -/
theorem own_value {prop : PyStr} (hp : prop ∉ charNames) (hf : prop ∉ ["padding", "margin-top", "margin-bottom"].map lit) :
    ownValue (pageRules embed doc) prop ((lit "p", paragraphClass doc para) :: rest) =
      (if q = j then [] else shapeValues prop p).getLast?.orElse fun _ =>
        (if attrOf st.1 "kind" = some (lit "paragraph") then shapeValues prop d else []).getLast? := by
  have hm : st ∈ entries "Style" T := List.mem_of_getElem? hs
  have fixed : cssDeclared (if embed then [] else fixedRules) prop ((lit "p", paragraphClass doc para) :: rest) = [] := by
    cases embed with
    | true => rfl
    | false =>
      refine declared_fixed hf ?_ rest
      have p1 := hr.style
      have p2 := hr.shape
      rw [decimal_nat] at p1 p2
      obtain ⟨more, m1, m2⟩ := paragraph_classes_shape h p1 hs p2 (hN.ident st hm)
      rw [m1]
      intro g
      rcases List.mem_cons.1 g with g | g
      · exact hP.elim (by simp) fun n => n g.symm
      rcases List.mem_append.1 g with g | g
      · split at g
        · simp at g
        · have e := List.mem_singleton.1 g
          have := congrArg List.head? e
          unfold paraClass at this
          rw [show lit "Paper" = 80 :: [97, 112, 101, 114] from by decide,
            show lit "parashape-" = 112 :: [97, 114, 97, 115, 104, 97, 112, 101, 45] from by decide] at this
          simp at this
      · obtain ⟨t, ht⟩ := m2 _ g
        have := congrArg List.head? ht
        rw [show lit "Paper" = 80 :: [97, 112, 101, 114] from by decide, show lit "Bullet-" = 66 :: [117, 108, 108, 101, 116, 45] from by decide] at this
        simp at this
  have e : (attrOf st.1 "parashape-id" = some (natStr j)) = (q = j) := by
    rw [hq, decimal_nat, Option.some.injEq, eq_iff_iff]
    exact ⟨fun g => natStr_inj g, fun g => g ▸ rfl⟩
  rw [ownValue, pageRules_eq h, declared_append, fixed, List.nil_append, declared_paragraph h hN hr hs hj hp rest, winning_two _ _ rfl]
  simp only [e, xpath_decimal hq, nthOf_eq h "ParaShape" (by simp), hd, Option.toList_some, List.flatMap_cons, List.flatMap_nil, List.append_nil]

theorem own_set (hk : q = j → attrOf st.1 "kind" = some (lit "paragraph")) {prop : PyStr} (hp : prop ∉ charNames)
    (hf : prop ∉ ["padding", "margin-top", "margin-bottom"].map lit) {V : XElem → PyStr} (hv : ∀ x, shapeValues prop x = [V x]) :
    ownValue (pageRules embed doc) prop ((lit "p", paragraphClass doc para) :: rest) = some (V p) := by
  rw [own_value h hN embed hr hs hj hq hd hP rest hp hf]
  by_cases e : q = j
  · subst e
    obtain rfl : d = p := Option.some.inj (hd.symm.trans hj)
    rw [if_pos rfl, if_pos (hk rfl), hv]
    rfl
  · rw [if_neg e, hv]
    rfl

/-- The padding to the left: that for the indent of the own shape, or else that for the one of the style. -/
theorem own_padding (hk : q = j → attrOf st.1 "kind" = some (lit "paragraph")) {a b : Int} (ha : attrOf p.1 "indent" = some (Spec.decimal a))
    (hb : attrOf d.1 "indent" = some (Spec.decimal b)) :
    ownValue (pageRules embed doc) (lit "padding-left") ((lit "p", paragraphClass doc para) :: rest) =
      if a < 0 then some (ptOf (some (-a))) else if attrOf st.1 "kind" = some (lit "paragraph") ∧ b < 0 then some (ptOf (some (-b))) else none := by
  rw [own_value h hN embed hr hs hj hq hd hP rest (by decide +kernel) (by decide +kernel), padding_values, padding_values, padding_text ha, padding_text hb]
  by_cases e : q = j
  · subst e
    obtain rfl : d = p := Option.some.inj (hd.symm.trans hj)
    obtain rfl : a = b := by
      have := hb.symm.trans ha
      rw [Option.some.injEq] at this
      have := congrArg xpathInt this
      rw [xpathInt_decimal, xpathInt_decimal, Option.some.injEq] at this
      exact this.symm
    rw [if_pos rfl, if_pos (hk rfl)]
    by_cases g : a < 0 <;> simp [g]
  · rw [if_neg e]
    by_cases g : a < 0
    · simp [g]
    · by_cases k : attrOf st.1 "kind" = some (lit "paragraph") <;> by_cases l : b < 0 <;> simp [g, k, l]

/-- The room around a paragraph in a browser. -/
theorem browser_room (hk : q = j → attrOf st.1 "kind" = some (lit "paragraph")) {m : Margins} (hm : ShapeMargins p.1 m) {b : Int}
    (hb : attrOf d.1 "indent" = some (Spec.decimal b)) (pad : Int)
    (hpad : pad = if m.indent < 0 then -m.indent else if attrOf st.1 "kind" = some (lit "paragraph") ∧ b < 0 then -b else 0) :
    browserRoom (pageRules embed doc) ((lit "p", paragraphClass doc para) :: rest) =
      some ⟨((m.left + pad + m.indent : Int) : ℚ) / 200, ((m.left + pad : Int) : ℚ) / 200, m.right / 200, m.top / 200, m.bottom / 200⟩ := by
  have v1 := own_set h hN embed hr hs hj hq hd hP rest hk (by decide +kernel) (by decide +kernel) margin_values
  have v2 := own_set h hN embed hr hs hj hq hd hP rest hk (by decide +kernel) (by decide +kernel) indent_values
  have v3 := own_padding h hN embed hr hs hj hq hd hP rest hk hm.indent hb
  obtain ⟨s0, s1, s2, s3⟩ := margin_sides hm
  have v4 : paddingOf (ownValue (pageRules embed doc) (lit "padding-left") ((lit "p", paragraphClass doc para) :: rest)) = some ((pad : ℚ) / 200) := by
    rw [v3, hpad]
    by_cases g : m.indent < 0
    · rw [if_pos g, if_pos g]
      simp only [paddingOf, ptOf_value]
    · rw [if_neg g, if_neg g]
      by_cases k : attrOf st.1 "kind" = some (lit "paragraph") ∧ b < 0
      · rw [if_pos k, if_pos k]
        simp only [paddingOf, ptOf_value]
      · rw [if_neg k, if_neg k]
        simp [paddingOf]
  unfold browserRoom
  rw [v1, v2, v4]
  simp only [Option.bind_eq_bind, Option.bind_some, Option.pure_def, number_at hm.indent, ptOf_value, s0, s1, s2, s3]
  congr 2 <;> push_cast <;> ring

end

/-! ### ODT -/

theorem shape_sides {y : XElem} {m : Margins} (h : ShapeMargins y.1 m) :
    lastSet (shapeProps y) "fo:text-indent" = some (ptOf (some m.indent)) ∧
    lastSet (shapeProps y) "fo:margin-left" = some (ptOf (some (m.left + max (-m.indent) 0))) ∧
    lastSet (shapeProps y) "fo:margin-right" = some (ptOf (some m.right)) ∧ lastSet (shapeProps y) "fo:margin-top" = some (ptOf (some m.top)) ∧
    lastSet (shapeProps y) "fo:margin-bottom" = some (ptOf (some m.bottom)) := by
  have e : marginProps y.1 = [(lit "fo:text-indent", ptOf (some m.indent)), (lit "fo:margin-left", ptOf (some (m.left + max (-m.indent) 0))),
      (lit "fo:margin-right", ptOf (some m.right)), (lit "fo:margin-top", ptOf (some m.top)), (lit "fo:margin-bottom", ptOf (some m.bottom))] := by
    unfold marginProps
    simp only [number_at h.indent, number_at h.left, number_at h.right, number_at h.top, number_at h.bottom]
    by_cases g : m.indent < 0
    · rw [if_pos g, Option.map_some, max_eq_left (by omega), Int.sub_eq_add_neg]
    · rw [if_neg g, max_eq_right (by omega), Int.add_zero]
  have n : ∀ p ∈ ["fo:text-indent", "fo:margin-left", "fo:margin-right", "fo:margin-top", "fo:margin-bottom"], lit p ∉ spacingNames := by decide +kernel
  refine ⟨?_, ?_, ?_, ?_, ?_⟩
  all_goals
    rw [lastSet_shape y (n _ (by simp)), e]
    simp [lastSet, lit_eq]

/-- The room around a paragraph in an office program. -/
theorem office_room {doc T : Forest XNode} {ids : List (PyStr × PyStr)} (h : TablesAre doc ids T) (hN : OfficeNames T) (hP : ParagraphsNumbered doc)
    {st d x : XElem} {q s j : Nat} {p : XElem} (hp : p ∈ elementsNamed "Paragraph" doc) (hs : ShapedPara p.1 s j)
    (hst : (entries "Style" T)[s]? = some st) (hq : attrOf st.1 "parashape-id" = some (Spec.decimal q)) (hd : (entries "ParaShape" T)[q]? = some d)
    (hx : (entries "ParaShape" T)[j]? = some x)
    (hB : ∃ as D bs B, (as, D) ∈ entries "HwpDoc" doc ∧ (bs, B) ∈ entries "BodyText" D) {m : Margins} (hm : ShapeMargins x.1 m)
    (i : Nat) (before : List PyStr) (as : List (PyStr × PyStr)) (text : PyStr) :
    officeRoom (automaticStyles doc) (commonStyles doc) (odtRun doc p.1 i before as text).paraStyle = some m.room := by
  obtain ⟨s1, s2, s3, s4, s5⟩ := shape_sides hm
  have v := fun prop hb v hv => para_set h hN hP hp hs hst hq hd hx hB prop hb (v := v) hv i before as text
  unfold officeRoom
  simp only [v _ (by decide +kernel) _ s1, v _ (by decide +kernel) _ s2, v _ (by decide +kernel) _ s3, v _ (by decide +kernel) _ s4,
    v _ (by decide +kernel) _ s5, Option.bind_eq_bind, Option.bind_some, Option.pure_def, ptOf_value, Margins.room]
  congr 2
  rw [← add_div, ← Int.cast_add]
  congr 2
  rcases Int.lt_or_le m.indent 0 with g | g
  · rw [max_eq_left (by omega), max_eq_right (by omega)]; omega
  · rw [max_eq_right (by omega), max_eq_left g]; omega

/-! ### Records -/

section
variable {env : XmlEnv} {ver : Version} {rd : ModelReader Fields} (hrd : ReadsDecls ver rd)
include hrd

theorem entry_margins {m : PModel Fields} {x : List (PyStr × PyStr) × Forest XNode} (h : Entry env ver rd "ParaShape" m x) :
    ∃ a, recordMargins m = some a ∧ ShapeMargins x.1 a := by
  have field := fun name key p hw hty hk => record_int (D := Decl.ParaShape) hrd h.read (by rw [h.type]; decide) (by rw [h.type]; rfl) (by decide +kernel) h.node name key p hw hty hk
  obtain ⟨l, l1, -, l2⟩ := field "doubled_margin_left" "doubled-margin-left" .INT32 (by decide) rfl (by decide +kernel)
  obtain ⟨r, r1, -, r2⟩ := field "doubled_margin_right" "doubled-margin-right" .INT32 (by decide) rfl (by decide +kernel)
  obtain ⟨t, t1, -, t2⟩ := field "doubled_margin_top" "doubled-margin-top" .INT32 (by decide) rfl (by decide +kernel)
  obtain ⟨b, b1, -, b2⟩ := field "doubled_margin_bottom" "doubled-margin-bottom" .INT32 (by decide) rfl (by decide +kernel)
  obtain ⟨i, i1, -, i2⟩ := field "indent" "indent" _ (by decide) rfl (by decide +kernel)
  refine ⟨⟨l, r, t, b, i⟩, ?_, ?_⟩
  · simp [recordMargins, l1, r1, t1, b1, i1]
  · rw [noNul_decimal] at l2 r2 t2 b2 i2
    exact ⟨l2, r2, t2, b2, i2⟩

end

end Hwp
