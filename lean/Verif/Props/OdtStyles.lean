/- C103: text in the ODT document has the formatting of its character shape. -/
import Verif.Proofs.OdtStyles
import Verif.Props.Css
set_option autoImplicit false
set_option linter.unusedSimpArgs false
set_option linter.unusedVariables false
set_option Elab.async false
namespace Hwp.Props
open Hwp Spec

/-- C103: a run of text is under-, over- or struck through with one or two lines as its character shape says, and is not if it says so.
Missing: documents without the one table of ids; styles whose names are not distinct after the replacements, or taken
(`C103_same_name`); runs with another character shape than the style of the paragraph after anything else than text in their line (`C103_after_tab`). -/
theorem C103_lines_partial (doc T : Forest XNode) (ids : List (PyStr × PyStr)) (h : TablesAre doc ids T) (hN : OfficeNames T) (hP : ParagraphsNumbered doc)
    (r : OdtRun) (hm : r ∈ odtRuns doc) (s k q : Nat) (hr : SpanOf r.para r.attrs s k) (st c d : List (PyStr × PyStr) × Forest XNode)
    (hs : (entries "Style" T)[s]? = some st) (hq : attrOf st.1 "charshape-id" = some (Spec.decimal q))
    (hc : (entries "CharShape" T)[k]? = some c) (hd : (entries "CharShape" T)[q]? = some d)
    (ho : (∀ n ∈ r.before, n = lit "Text") ∨ q = k) (kind prop : String) (hk : (kind, prop) ∈ lineKinds) :
    (HasLine c kind singleLines → officeValue (automaticStyles doc) (commonStyles doc) prop r.paraStyle r.spanStyle = some (lit "single")) ∧
    (HasLine c kind doubleLines → officeValue (automaticStyles doc) (commonStyles doc) prop r.paraStyle r.spanStyle = some (lit "double")) ∧
    (NoLine c kind → officeValue (automaticStyles doc) (commonStyles doc) prop r.paraStyle r.spanStyle = some (lit "none")) := by
  have v : lastSet (charProps doc c) prop = some (lineProp c.1 prop kind).2 := by
    simp only [lineKinds, List.mem_cons, Prod.mk.injEq, List.not_mem_nil, or_false] at hk
    have n1 : ∀ (b : Bool), (if b then lastSet [(lit "fo:font-weight", lit "bold"), (lit "style:font-weight-asian", lit "bold"),
        (lit "style:font-weight-complex", lit "bold")] prop else none) = none := by
      rcases hk with ⟨rfl, rfl⟩ | ⟨rfl, rfl⟩ | ⟨rfl, rfl⟩ <;> intro b <;> cases b <;> decide +kernel
    rw [char_value, n1]
    have n2 : ∀ a b e : PyStr, lastSet [(lit "style:text-underline-type", a), (lit "style:text-overline-type", b), (lit "style:text-line-through-type", e)] prop =
        some (if prop = "style:text-underline-type" then a else if prop = "style:text-overline-type" then b else e) := by
      intro a b e
      have e1 : ¬ lit "style:text-underline-type" = lit "style:text-overline-type" := by decide +kernel
      have e2 : ¬ lit "style:text-underline-type" = lit "style:text-line-through-type" := by decide +kernel
      have e3 : ¬ lit "style:text-overline-type" = lit "style:text-line-through-type" := by decide +kernel
      have e4 : ¬ lit "style:text-overline-type" = lit "style:text-underline-type" := fun h => e1 h.symm
      have e5 : ¬ lit "style:text-line-through-type" = lit "style:text-underline-type" := fun h => e2 h.symm
      have e6 : ¬ lit "style:text-line-through-type" = lit "style:text-overline-type" := fun h => e3 h.symm
      rcases hk with ⟨rfl, rfl⟩ | ⟨rfl, rfl⟩ | ⟨rfl, rfl⟩ <;> simp [lastSet, e1, e2, e3, e4, e5, e6]
    show ((none : Option PyStr).orElse fun _ => (lastSet [(lit "style:text-underline-type", (lineProp c.1 "style:text-underline-type" "underline").2),
      (lit "style:text-overline-type", (lineProp c.1 "style:text-overline-type" "overline").2),
      (lit "style:text-line-through-type", (lineProp c.1 "style:text-line-through-type" "line_through").2)] prop).orElse _) = _
    rw [n2]
    rcases hk with ⟨rfl, rfl⟩ | ⟨rfl, rfl⟩ | ⟨rfl, rfl⟩ <;> rfl
  rw [office_value h hN hP hm hr hs hq hc hd ho, v]
  have u : (some (lineProp c.1 prop kind).2).orElse (fun _ => lastSet (charProps doc d) prop) = some (lineProp c.1 prop kind).2 := rfl
  rw [u]
  refine ⟨fun g => ?_, fun g => ?_, fun g => ?_⟩
  · obtain ⟨g1, style, gs, g2⟩ := g
    simp only [lineProp, lineType, attrValue_eq, g1, g2, Option.getD_some, beq_self_eq_true, if_true]
    rw [if_pos]
    rw [List.any_eq_true]; exact ⟨style, gs, by simp⟩
  · obtain ⟨g1, style, gs, g2⟩ := g
    simp only [lineProp, lineType, attrValue_eq, g1, g2, Option.getD_some, beq_self_eq_true, if_true]
    have no : ∀ s ∈ doubleLines, ¬ (["solid", "dashed", "dotted", "dash_dot", "dash_dot_dot", "long_dashed", "large_dotted"].any fun t => lit s == lit t) = true := by
      decide +kernel
    rw [if_neg (no style gs), if_pos]
    rw [List.any_eq_true]; exact ⟨style, gs, by simp⟩
  · obtain ⟨other, g1, g2⟩ := g
    simp only [lineProp, attrValue_eq, g2, Option.getD_some, beq_eq_false_iff_ne.2 g1, Bool.false_eq_true, if_false]

theorem weight_value (doc : Forest XNode) (c : XElem) (prop : String) (hp : prop ∈ weightProps) :
    lastSet (charProps doc c) prop = if isOne c.1 "bold" then some (lit "bold") else none := by
  rw [char_value]
  have a : lastSet [(lit "fo:font-weight", lit "bold"), (lit "style:font-weight-asian", lit "bold"), (lit "style:font-weight-complex", lit "bold")] prop =
      some (lit "bold") := by revert prop; decide +kernel
  have b : ∀ x y z : PyStr, lastSet [(lit "style:text-underline-type", x), (lit "style:text-overline-type", y), (lit "style:text-line-through-type", z)] prop = none := by
    intro x y z
    refine lastSet_none ?_
    have : ∀ n ∈ ["style:text-underline-type", "style:text-overline-type", "style:text-line-through-type"], lit n ≠ lit prop := by revert prop; decide +kernel
    intro e he
    simp only [List.mem_cons, List.not_mem_nil, or_false] at he
    rcases he with rfl | rfl | rfl <;> exact this _ (by simp)
  have i : lastSet [(lit "fo:font-style", lit "italic"), (lit "style:font-style-asian", lit "italic"), (lit "style:font-style-complex", lit "italic")] prop = none := by
    clear a b; revert prop; decide +kernel
  have f : ∀ n ∈ ["style:font-name-asian", "style:font-name"], lit n ≠ lit prop := by clear a b i; revert prop; decide +kernel
  have z : prop ∉ sizeNames := by clear a b i f; revert prop; decide +kernel
  rw [a, i, lastSet_size _ _ z, lastSet_font _ _ _ _ _ (f _ (by simp)), lastSet_font _ _ _ _ _ (f _ (by simp))]
  show (if isOne c.1 "bold" then some (lit "bold") else none).orElse (fun _ => (lastSet [(lit "style:text-underline-type", _), (lit "style:text-overline-type", _),
    (lit "style:text-line-through-type", _)] prop).orElse _) = _
  rw [b]
  cases isOne c.1 "bold" <;> cases isOne c.1 "italic" <;> rfl

theorem slant_value (doc : Forest XNode) (c : XElem) (prop : String) (hp : prop ∈ slantProps) :
    lastSet (charProps doc c) prop = if isOne c.1 "italic" then some (lit "italic") else none := by
  rw [char_value]
  have a : lastSet [(lit "fo:font-style", lit "italic"), (lit "style:font-style-asian", lit "italic"), (lit "style:font-style-complex", lit "italic")] prop =
      some (lit "italic") := by revert prop; decide +kernel
  have b : ∀ x y z : PyStr, lastSet [(lit "style:text-underline-type", x), (lit "style:text-overline-type", y), (lit "style:text-line-through-type", z)] prop = none := by
    intro x y z
    refine lastSet_none ?_
    have : ∀ n ∈ ["style:text-underline-type", "style:text-overline-type", "style:text-line-through-type"], lit n ≠ lit prop := by revert prop; decide +kernel
    intro e he
    simp only [List.mem_cons, List.not_mem_nil, or_false] at he
    rcases he with rfl | rfl | rfl <;> exact this _ (by simp)
  have i : lastSet [(lit "fo:font-weight", lit "bold"), (lit "style:font-weight-asian", lit "bold"), (lit "style:font-weight-complex", lit "bold")] prop = none := by
    clear a b; revert prop; decide +kernel
  have f : ∀ n ∈ ["style:font-name-asian", "style:font-name"], lit n ≠ lit prop := by clear a b i; revert prop; decide +kernel
  have z : prop ∉ sizeNames := by clear a b i f; revert prop; decide +kernel
  rw [a, i, lastSet_size _ _ z, lastSet_font _ _ _ _ _ (f _ (by simp)), lastSet_font _ _ _ _ _ (f _ (by simp))]
  show (if isOne c.1 "bold" then none else none).orElse (fun _ => (lastSet [(lit "style:text-underline-type", _), (lit "style:text-overline-type", _),
    (lit "style:text-line-through-type", _)] prop).orElse _) = _
  rw [b]
  cases isOne c.1 "bold" <;> cases isOne c.1 "italic" <;> rfl

/-- C103: a run of text with a bold character shape is shown in bold, in all scripts; one whose character shape is not bold is not, if that of the
style of its paragraph is not either.
Missing: runs that are not bold in a paragraph whose style is bold (`C103_not_overridden`), and what is missing above. -/
theorem C103_bold_partial (doc T : Forest XNode) (ids : List (PyStr × PyStr)) (h : TablesAre doc ids T) (hN : OfficeNames T) (hP : ParagraphsNumbered doc)
    (r : OdtRun) (hm : r ∈ odtRuns doc) (s k q : Nat) (hr : SpanOf r.para r.attrs s k) (st c d : List (PyStr × PyStr) × Forest XNode)
    (hs : (entries "Style" T)[s]? = some st) (hq : attrOf st.1 "charshape-id" = some (Spec.decimal q))
    (hc : (entries "CharShape" T)[k]? = some c) (hd : (entries "CharShape" T)[q]? = some d)
    (ho : (∀ n ∈ r.before, n = lit "Text") ∨ q = k) (prop : String) (hp : prop ∈ weightProps) :
    (FlagOn c "bold" → officeValue (automaticStyles doc) (commonStyles doc) prop r.paraStyle r.spanStyle = some (lit "bold")) ∧
    (FlagOff c "bold" → FlagOff d "bold" → officeValue (automaticStyles doc) (commonStyles doc) prop r.paraStyle r.spanStyle = none) := by
  rw [office_value h hN hP hm hr hs hq hc hd ho, weight_value doc c prop hp, weight_value doc d prop hp]
  exact ⟨fun g => by rw [isOne_on g]; rfl, fun g g' => by rw [isOne_off g, isOne_off g']; rfl⟩

/-- C103: the same for italic. -/
theorem C103_italic_partial (doc T : Forest XNode) (ids : List (PyStr × PyStr)) (h : TablesAre doc ids T) (hN : OfficeNames T) (hP : ParagraphsNumbered doc)
    (r : OdtRun) (hm : r ∈ odtRuns doc) (s k q : Nat) (hr : SpanOf r.para r.attrs s k) (st c d : List (PyStr × PyStr) × Forest XNode)
    (hs : (entries "Style" T)[s]? = some st) (hq : attrOf st.1 "charshape-id" = some (Spec.decimal q))
    (hc : (entries "CharShape" T)[k]? = some c) (hd : (entries "CharShape" T)[q]? = some d)
    (ho : (∀ n ∈ r.before, n = lit "Text") ∨ q = k) (prop : String) (hp : prop ∈ slantProps) :
    (FlagOn c "italic" → officeValue (automaticStyles doc) (commonStyles doc) prop r.paraStyle r.spanStyle = some (lit "italic")) ∧
    (FlagOff c "italic" → FlagOff d "italic" → officeValue (automaticStyles doc) (commonStyles doc) prop r.paraStyle r.spanStyle = none) := by
  rw [office_value h hN hP hm hr hs hq hc hd ho, slant_value doc c prop hp, slant_value doc d prop hp]
  exact ⟨fun g => by rw [isOne_on g]; rfl, fun g g' => by rw [isOne_off g, isOne_off g']; rfl⟩

/-- C103: a run of text is shown in the face of its character shape for Korean, in Asian scripts.
Missing: the face for English (`C103_western_font`); numbers beyond the faces for Korean; and what is missing above. -/
theorem C103_asian_font_partial (doc T : Forest XNode) (ids : List (PyStr × PyStr)) (h : TablesAre doc ids T) (hN : OfficeNames T) (hP : ParagraphsNumbered doc)
    (r : OdtRun) (hm : r ∈ odtRuns doc) (s k q : Nat) (hr : SpanOf r.para r.attrs s k) (st c d : List (PyStr × PyStr) × Forest XNode)
    (hs : (entries "Style" T)[s]? = some st) (hq : attrOf st.1 "charshape-id" = some (Spec.decimal q))
    (hc : (entries "CharShape" T)[k]? = some c) (hd : (entries "CharShape" T)[q]? = some d)
    (ho : (∀ n ∈ r.before, n = lit "Text") ∨ q = k) (count : String → Nat)
    (fs : List (PyStr × PyStr)) (fk : Forest XNode) (hf : entries "FontFace" c.2 = [(fs, fk)]) (i : Nat) (hi : attrOf fs "ko" = some (Spec.decimal i))
    (face : List (PyStr × PyStr) × Forest XNode) (hface : (facesOf count "ko" languages (entries "FaceName" T))[i]? = some face)
    (name : PyStr) (hname : attrOf face.1 "name" = some name) :
    officeValue (automaticStyles doc) (commonStyles doc) "style:font-name-asian" r.paraStyle r.spanStyle = some name := by
  rw [office_value h hN hP hm hr hs hq hc hd ho]
  have v : lastSet (charProps doc c) "style:font-name-asian" = some name := by
    rw [char_value]
    have g := facesOf_get count "ko" face i languages _ hface
    have g0 : ((languages.takeWhile (· ≠ "ko")).map count).sum = 0 := by rw [show languages.takeWhile (· ≠ "ko") = [] from by decide]; rfl
    rw [g0, Nat.zero_add] at g
    have f : fontProps doc c "style:font-name-asian" "ko" = [(lit "style:font-name-asian", name)] := by
      unfold fontProps
      rw [childrenNamed_eq, hf]
      simp only [List.flatMap_cons, List.flatMap_nil, List.append_nil, attrValue_eq, hi, decimal_nat, Option.getD_some, xpathNumber_natStr,
        nthOf_eq h "FaceName" (by simp), g, Option.toList_some, List.map_cons, List.map_nil, hname]
    rw [f]
    have a : lastSet [(lit "fo:font-weight", lit "bold"), (lit "style:font-weight-asian", lit "bold"), (lit "style:font-weight-complex", lit "bold")] "style:font-name-asian" =
        none := by decide +kernel
    have b : lastSet [(lit "fo:font-style", lit "italic"), (lit "style:font-style-asian", lit "italic"), (lit "style:font-style-complex", lit "italic")] "style:font-name-asian" =
        none := by decide +kernel
    have e : lastSet [lineProp c.1 "style:text-underline-type" "underline", lineProp c.1 "style:text-overline-type" "overline",
        lineProp c.1 "style:text-line-through-type" "line_through"] "style:font-name-asian" = none := by
      refine lastSet_none ?_
      intro x hx
      simp only [List.mem_cons, List.not_mem_nil, or_false] at hx
      rcases hx with rfl | rfl | rfl
      · show lit "style:text-underline-type" ≠ _; decide +kernel
      · show lit "style:text-overline-type" ≠ _; decide +kernel
      · show lit "style:text-line-through-type" ≠ _; decide +kernel
    rw [a, b, e, lastSet_size _ _ (by decide)]
    have z : lastSet [(lit "style:font-name-asian", name)] "style:font-name-asian" = some name := by simp [lastSet]
    rw [z]
    cases isOne c.1 "bold" <;> cases isOne c.1 "italic" <;> rfl
  rw [v]; rfl

/-- C103: the runs of text are those of the document: their texts are shown in this order. -/
theorem C103_runs (doc : Forest XNode) : ((odtRuns doc).map fun r => Piece.text r.text).Sublist (odtBody doc) := odtRuns_texts doc

theorem char_props_names (doc : Forest XNode) (c : XElem) : ∀ d ∈ charProps doc c, d.1 ≠ lit "fo:color" := by
  intro d hd
  unfold charProps at hd
  simp only [List.mem_append] at hd
  rcases hd with ((((hd | hd) | hd) | hd) | hd) | hd
  · rw [fontProps_names _ _ _ _ d hd]; decide +kernel
  · rw [fontProps_names _ _ _ _ d hd]; decide +kernel
  · obtain ⟨n, hn, h⟩ := sizeProps_names c d hd
    have all : ∀ n ∈ sizeNames, lit n ≠ lit "fo:color" := by decide +kernel
    rw [h]; exact all n hn
  · split at hd
    · revert d; decide +kernel
    · simp at hd
  · simp only [List.mem_cons, List.not_mem_nil, or_false] at hd
    rcases hd with rfl | rfl | rfl
    · show lit "style:text-underline-type" ≠ _; decide +kernel
    · show lit "style:text-overline-type" ≠ _; decide +kernel
    · show lit "style:text-line-through-type" ≠ _; decide +kernel
  · split at hd
    · revert d; decide +kernel
    · simp at hd

theorem no_color_styles {styles : List OdtStyle} (h : ∀ s ∈ styles, ∀ d ∈ s.props, d.1 ≠ lit "fo:color") (family : String) :
    ∀ (n : Nat) (name : PyStr), styleValue styles family "fo:color" n name = none := by
  intro n
  induction n with
  | zero => intro name; rfl
  | succ n ih =>
    intro name
    rw [styleValue]
    cases hs : styleFor styles family name with
    | none => rfl
    | some s =>
      have m := (styleFor_some hs).1
      simp only [Option.bind_some]
      rw [lastSet_none (h s m)]
      cases s.parent with
      | none => rfl
      | some p => simp [ih p]

/-- C103, violated: the color of text is lost in every document: no run of text has one. -/
theorem C103_no_color (doc : Forest XNode) (r : OdtRun) :
    officeValue (automaticStyles doc) (commonStyles doc) "fo:color" r.paraStyle r.spanStyle = none := by
  have all : ∀ s ∈ automaticStyles doc ++ commonStyles doc, ∀ d ∈ s.props, d.1 ≠ lit "fo:color" := by
    intro s hs
    rcases List.mem_append.1 hs with hs | hs
    · obtain ⟨p, _, hs⟩ := mem_automatic hs
      rcases mem_paragraphStyles hs with rfl | ⟨i, l, j, t, _, _, rfl⟩
      · intro d hd; simp [paragraphStyle] at hd
      · intro d hd
        obtain ⟨c, _, hd⟩ := List.mem_flatMap.1 hd
        exact char_props_names doc c d hd
    · have common : ∀ st, ∀ d ∈ (commonStyle doc st).props, d.1 ≠ lit "fo:color" := by
        intro st d hd
        unfold commonStyle at hd
        simp only at hd
        split at hd
        · simp at hd
        · obtain ⟨c, _, hd⟩ := List.mem_flatMap.1 hd
          exact char_props_names doc c d hd
      unfold commonStyles at hs
      rw [forEach_entries] at hs
      obtain ⟨e, _, hs⟩ := List.mem_flatMap.1 hs
      rw [forEach_entries] at hs
      obtain ⟨e, _, hs⟩ := List.mem_flatMap.1 hs
      rcases List.mem_append.1 hs with hs | hs
      · have fixed : ∀ s ∈ fixedStyles, ∀ d ∈ s.props, d.1 ≠ lit "fo:color" := by decide +kernel
        exact fixed s hs
      · rw [forEach_entries] at hs
        obtain ⟨e, _, hs⟩ := List.mem_flatMap.1 hs
        obtain ⟨st, _, rfl⟩ := List.mem_map.1 hs
        exact common st
  unfold officeValue
  simp only [no_color_styles all]
  cases r.spanStyle with
  | none => rfl
  | some n => simp [no_color_styles all]

/-! ### A document -/

/-- Two faces for Korean and one for English; a plain and a bold character shape, both underlined twice or not at all, the bold one with the second face;
"A" with the character shape 0, "B" with the character shape 1, in a paragraph with a shape of its own. -/
def officeXml : Forest XNode :=
  el "HwpDoc" [] (el "DocInfo" [] (el "IdMappings" [("ko-fonts", "2"), ("en-fonts", "1")]
    (el "FaceName" [("name", "K")] .nil (el "FaceName" [("name", "L")] .nil (el "FaceName" [("name", "E")] .nil
    (el "CharShape" [("italic", "0"), ("bold", "0"), ("underline", "none"), ("underline-style", "solid")] (el "FontFace" [("ko", "0"), ("en", "0")] .nil)
    (el "CharShape" [("italic", "0"), ("bold", "1"), ("underline", "underline"), ("underline-style", "double")] (el "FontFace" [("ko", "1"), ("en", "0")] .nil)
    (el "ParaShape" [] .nil (el "ParaShape" [] .nil
    (el "Style" [("local-name", "Body Text"), ("parashape-id", "0"), ("charshape-id", "0")] .nil
    (el "Style" [("local-name", "Other"), ("parashape-id", "0"), ("charshape-id", "0")] .nil))))))))))
  (el "BodyText" [] (el "SectionDef" [] (el "ColumnSet" [] (el "Paragraph" [("parashape-id", "1"), ("style-id", "0"), ("paragraph-id", "0")] (el "LineSeg" []
    (el "Text" [("charshape-id", "0")] (.node (.text (lit "A")) .nil .nil)
    (el "Text" [("charshape-id", "1")] (.node (.text (lit "B")) .nil .nil)))))))))

/-- Its table of ids. -/
def officeIds : List (PyStr × PyStr) × Forest XNode := ((elementsNamed "IdMappings" officeXml).head?).getD ([], .nil)

theorem office_tables : TablesAre officeXml officeIds.1 officeIds.2 where
  hwpdoc := ⟨_, _, rfl, _, _, rfl, by decide +kernel⟩
  ids := by decide +kernel
  only := by decide +kernel

theorem office_names : OfficeNames officeIds.2 where
  distinct := by decide +kernel
  free := by decide +kernel

theorem office_numbered : ParagraphsNumbered officeXml where
  number := by
    have : ∀ p ∈ elementsNamed "Paragraph" officeXml, attrOf p.1 "paragraph-id" = some (Spec.decimal (0 : Nat)) := by decide +kernel
    exact fun p hp => ⟨0, this p hp⟩
  distinct := by decide +kernel

/-- The `i`-th run, and the `i`-th entry. -/
def officeRun (i : Nat) : OdtRun := ((odtRuns officeXml)[i]?).getD ⟨[], [], [], [], [], none⟩
def officeEntry (name : String) (i : Nat) : List (PyStr × PyStr) × Forest XNode := ((entries name officeIds.2)[i]?).getD ([], .nil)

theorem office_run (i : Nat) (hi : i = 0 ∨ i = 1) : officeRun i ∈ odtRuns officeXml ∧ SpanOf (officeRun i).para (officeRun i).attrs 0 i ∧
    (entries "Style" officeIds.2)[0]? = some (officeEntry "Style" 0) ∧ (entries "CharShape" officeIds.2)[i]? = some (officeEntry "CharShape" i) ∧
    ∀ n ∈ (officeRun i).before, n = lit "Text" := by
  rcases hi with rfl | rfl <;>
    exact ⟨by decide +kernel, ⟨by decide +kernel, by decide +kernel⟩, by decide +kernel, by decide +kernel, by decide +kernel⟩

/-- The theorems apply: "B" is underlined twice, and has no line through it. -/
example : (officeRun 1).text = lit "B" ∧ (officeRun 1).spanStyle = some (lit "p1-1-2") ∧ (officeRun 1).paraStyle = lit "Paragraph-1" ∧
    officeValue (automaticStyles officeXml) (commonStyles officeXml) "style:text-underline-type" (officeRun 1).paraStyle (officeRun 1).spanStyle = some (lit "double") ∧
    officeValue (automaticStyles officeXml) (commonStyles officeXml) "style:text-line-through-type" (officeRun 1).paraStyle (officeRun 1).spanStyle = some (lit "none") := by
  refine ⟨by decide +kernel, by decide +kernel, by decide +kernel, ?_, ?_⟩
  · obtain ⟨h1, h2, h3, h4, h5⟩ := office_run 1 (.inr rfl)
    exact (C103_lines_partial _ _ _ office_tables office_names office_numbered (officeRun 1) h1 0 1 0 h2 _ _ (officeEntry "CharShape" 0) h3 (by decide +kernel) h4
      (by decide +kernel) (.inl h5) "underline" _ (by simp [lineKinds])).2.1 ⟨by decide +kernel, "double", by decide, by decide +kernel⟩
  · obtain ⟨h1, h2, h3, h4, h5⟩ := office_run 1 (.inr rfl)
    exact (C103_lines_partial _ _ _ office_tables office_names office_numbered (officeRun 1) h1 0 1 0 h2 _ _ (officeEntry "CharShape" 0) h3 (by decide +kernel) h4
      (by decide +kernel) (.inl h5) "line_through" _ (by simp [lineKinds])).2.2 ⟨lit "underline", by decide +kernel, by decide +kernel⟩

/-- "B" is bold in Asian scripts, "A" is not. -/
example : officeValue (automaticStyles officeXml) (commonStyles officeXml) "style:font-weight-asian" (officeRun 1).paraStyle (officeRun 1).spanStyle = some (lit "bold") ∧
    officeValue (automaticStyles officeXml) (commonStyles officeXml) "style:font-weight-asian" (officeRun 0).paraStyle (officeRun 0).spanStyle = none := by
  refine ⟨?_, ?_⟩
  · obtain ⟨h1, h2, h3, h4, h5⟩ := office_run 1 (.inr rfl)
    exact (C103_bold_partial _ _ _ office_tables office_names office_numbered (officeRun 1) h1 0 1 0 h2 _ _ (officeEntry "CharShape" 0) h3 (by decide +kernel) h4
      (by decide +kernel) (.inl h5) _ (by simp [weightProps])).1 (by unfold FlagOn; decide +kernel)
  · obtain ⟨h1, h2, h3, h4, h5⟩ := office_run 0 (.inl rfl)
    exact (C103_bold_partial _ _ _ office_tables office_names office_numbered (officeRun 0) h1 0 0 0 h2 _ _ _ h3 (by decide +kernel) h4
      h4 (.inl h5) _ (by simp [weightProps])).2 ⟨0, by decide, by decide +kernel⟩ ⟨0, by decide, by decide +kernel⟩

/-- "B" is in the second face for Korean. -/
example : officeValue (automaticStyles officeXml) (commonStyles officeXml) "style:font-name-asian" (officeRun 1).paraStyle (officeRun 1).spanStyle = some (lit "L") := by
  obtain ⟨h1, h2, h3, h4, h5⟩ := office_run 1 (.inr rfl)
  exact C103_asian_font_partial _ _ _ office_tables office_names office_numbered (officeRun 1) h1 0 1 0 h2 _ _ (officeEntry "CharShape" 0) h3 (by decide +kernel) h4
    (by decide +kernel) (.inl h5) (fun l => if l = "ko" then 2 else 1)
    ((entries "FontFace" (officeEntry "CharShape" 1).2).head?.getD ([], .nil)).1 ((entries "FontFace" (officeEntry "CharShape" 1).2).head?.getD ([], .nil)).2
    (by decide +kernel) 1 (by decide +kernel) (officeEntry "FaceName" 1) (by decide +kernel) (lit "L") (by decide +kernel)

/-- C103, violated: the text "B" has the face 0 for English, which is "E"; it is shown in "K", the face 0 for Korean. -/
theorem C103_western_font :
    (entries "FontFace" (officeEntry "CharShape" 1).2).map (fun f => attrOf f.1 "en") = [some (lit "0")] ∧
    (facesOf (fun l => if l = "ko" then 2 else 1) "en" languages (entries "FaceName" officeIds.2)).map (fun f => attrOf f.1 "name") = [some (lit "E")] ∧
    officeValue (automaticStyles officeXml) (commonStyles officeXml) "style:font-name" (officeRun 1).paraStyle (officeRun 1).spanStyle = some (lit "K") := by
  decide +kernel

/-! ### From records -/

/-- What an office program shows of the runs of text: their text, and these properties. -/
def officeRuns (doc : Forest XNode) (props : List String) : List (PyStr × List (Option PyStr)) :=
  (odtRuns doc).map fun r => (r.text, props.map fun p => officeValue (automaticStyles doc) (commonStyles doc) p r.paraStyle r.spanStyle)

/-- A plain, an underlined and an overlined character shape, and a style with the plain one. -/
def tabInfo : Bytes :=
  recordBytes 16 0 (List.replicate 26 1) ++ recordBytes 17 0 ([0, 0, 0, 0, 1, 0, 0, 0, 1, 0, 0, 0] ++ List.replicate 52 0) ++
  recordBytes 19 1 ([0] ++ bstrBytes "K") ++ recordBytes 19 1 ([0] ++ bstrBytes "E") ++
  recordBytes 21 1 (shapeBytes 0 [0, 0, 0, 0]) ++ recordBytes 21 1 (shapeBytes 4 [0, 0, 0, 0]) ++ recordBytes 21 1 (shapeBytes 12 [0, 0, 0, 0]) ++
  recordBytes 25 1 (List.replicate 46 0) ++
  recordBytes 26 1 (bstrBytes "Body" ++ bstrBytes "Body" ++ [0, 0, 0, 0, 0, 0, 0, 0, 0, 0])

/-- "A" with the character shape 0, a tab, "B" with the character shape 1, "C" with the character shape 2. -/
def tabBody : Bytes :=
  recordBytes 66 0 [20, 0, 0, 0, 4, 0, 0, 0, 0, 0, 0, 3, 3, 0, 0, 0, 0, 0, 0, 0, 0, 0] ++
  recordBytes 67 1 ([2, 0] ++ asciiBytes "dces" ++ [0, 0, 0, 0, 0, 0, 0, 0, 2, 0] ++ [0x41, 0] ++ [9, 0] ++ List.replicate 12 0 ++ [9, 0] ++
    [0x42, 0, 0x43, 0, 13, 0]) ++
  recordBytes 68 1 [0, 0, 0, 0, 0, 0, 0, 0, 17, 0, 0, 0, 1, 0, 0, 0, 18, 0, 0, 0, 2, 0, 0, 0] ++
  recordBytes 71 1 (asciiBytes "dces" ++ List.replicate 34 0)

/-- The tree of the XML file of the document. -/
def tabTree : Forest XNode :=
  xmlTree (joined (documentXml sampleEnv (directReader [5, 0, 1, 7]) (fun _ => [])
    ⟨[5, 0, 1, 7], sampleSummaryObj, tabInfo, [(0, tabBody)], none⟩).out)

/-- C103, violated: after a tab "B", which is underlined, is shown with a line over it, which is the formatting of "C"; and "C" is shown without any line:
the number of a text in the name of its style counts only texts where the style is written, but also the tab where it is used. -/
theorem C103_after_tab :
    (elementsNamed "CharShape" tabTree).map (fun c => attrOf c.1 "underline") = [some (lit "none"), some (lit "underline"), some (lit "overline")] ∧
    (odtRuns tabTree).map (fun r => (r.text, attrOf r.attrs "charshape-id", r.spanStyle)) =
      [(lit "A", some (lit "0"), none), (lit "B", some (lit "1"), some (lit "p1-1-3")), (lit "C", some (lit "2"), some (lit "p1-1-4"))] ∧
    (automaticStyles tabTree).map (·.name) = [lit "p1-1-2", lit "p1-1-3"] ∧
    officeRuns tabTree ["style:text-underline-type", "style:text-overline-type"] =
      [(lit "A", [some (lit "none"), some (lit "none")]), (lit "B", [some (lit "none"), some (lit "single")]),
       (lit "C", [some (lit "none"), some (lit "none")])] := by
  decide +kernel

/-- C103, violated: "B" has a character shape that is not bold, and is shown in bold, as the style of its paragraph. -/
theorem C103_not_overridden :
    (elementsNamed "CharShape" (styledTree ["Body Text"])).map (fun c => attrOf c.1 "bold") = [some (lit "1"), some (lit "0")] ∧
    (odtRuns (styledTree ["Body Text"])).map (fun r => (r.text, attrOf r.attrs "charshape-id")) =
      [(lit "A", some (lit "0")), (lit "B", some (lit "1"))] ∧
    officeRuns (styledTree ["Body Text"]) ["fo:font-weight"] = [(lit "A", [some (lit "bold")]), (lit "B", [some (lit "bold")])] := by
  decide +kernel

/-- C103, violated: styles with different names and properties are written with the same name. -/
theorem C103_same_name (doc : Forest XNode) (as bs : List (PyStr × PyStr)) (cs ds : Forest XNode) (ha : attrOf as "local-name" = some (lit "Note 1"))
    (hb : attrOf bs "local-name" = some (lit "Note_1")) : (commonStyle doc (as, cs)).name = lit "Note_1" ∧ (commonStyle doc (bs, ds)).name = lit "Note_1" := by
  have e1 : (commonStyle doc (as, cs)).name = officeName (as, cs) := odtStyleName_one _
  have e2 : (commonStyle doc (bs, ds)).name = officeName (bs, ds) := odtStyleName_one _
  rw [e1, e2]
  unfold officeName
  simp only [ha, hb, Option.getD_some]
  decide +kernel

end Hwp.Props
