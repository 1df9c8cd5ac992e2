/- Lines under, over and through the text in the conversion to HTML. -/
import Verif.Spec.Decoration
import Verif.Proofs.Css
import Verif.Proofs.InfoDoc
set_option autoImplicit false
set_option linter.unusedSimpArgs false
set_option linter.unusedVariables false
set_option Elab.async false
namespace Hwp
open Spec

/-! ### What a character shape declares -/

theorem plain_filter (as : List (PyStr × PyStr)) {prop : PyStr} (hp : prop ∈ decoNames) :
    ((lit "color", attrValue as "text-color") ::
      ((if isOne as "italic" then [(lit "font-style", lit "italic")] else []) ++
       (if isOne as "bold" then [(lit "font-weight", lit "bold")] else []))).filter (fun d => decide (d.1 = prop ∧ d.2 ≠ [])) = [] := by
  have n : ∀ n ∈ ["color", "font-style", "font-weight"], lit n ∉ decoNames := by decide +kernel
  rw [List.filter_eq_nil_iff]
  intro d hd h
  simp only [decide_eq_true_eq] at h
  have h := h.1
  subst h
  rcases List.mem_cons.1 hd with rfl | hd
  · exact n "color" (by decide) hp
  rcases List.mem_append.1 hd with hd | hd
  · split at hd
    · obtain rfl := List.mem_singleton.1 hd; exact n "font-style" (by decide) hp
    · simp at hd
  · split at hd
    · obtain rfl := List.mem_singleton.1 hd; exact n "font-weight" (by decide) hp
    · simp at hd

theorem own_line_values (c : XElem) {prop : PyStr} (hp : prop ∈ decoNames) :
    ownValues prop c = ((lineDecls c.1).filter fun d => decide (d.1 = prop ∧ d.2 ≠ [])).map (·.2) := by
  unfold ownValues charDecls
  rw [List.filter_append, plain_filter _ hp, List.nil_append]

theorem lineValue_ne (as : List (PyStr × PyStr)) {v : PyStr} (h : lineValue as = some v) : v ≠ [] := by
  have n : ∀ n ∈ ["underline", "overline", "line-through"], lit n ≠ [] := by decide +kernel
  unfold lineValue at h
  simp only at h
  split at h
  · obtain rfl := Option.some.inj h; exact n _ (by decide)
  split at h
  · obtain rfl := Option.some.inj h; exact n _ (by decide)
  split at h
  · obtain rfl := Option.some.inj h; exact n _ (by decide)
  · cases h

theorem own_line (c : XElem) : ownValues (lit "text-decoration") c = (lineValue c.1).toList := by
  rw [own_line_values c (by decide +kernel)]
  unfold lineDecls
  cases h : lineValue c.1 with
  | none => rfl
  | some v =>
    have n : ∀ n ∈ ["text-decoration-color", "-moz-text-decoration-color", "-webkit-text-decoration-color", "text-decoration-style",
      "-moz-text-decoration-style", "-webkit-text-decoration-style"], lit n ≠ lit "text-decoration" := by decide +kernel
    have hv := lineValue_ne c.1 h
    simp only [List.mem_cons, List.not_mem_nil, or_false, forall_eq_or_imp, forall_eq] at n
    obtain ⟨n1, n2, n3, n4, n5, n6⟩ := n
    simp [List.filter_cons, n1, n2, n3, n4, n5, n6, hv]

theorem own_line_color (c : XElem) {v : PyStr} (h : lineValue c.1 = some v) (hc : attrValue c.1 "underline-color" ≠ []) :
    ownValues (lit "text-decoration-color") c = [attrValue c.1 "underline-color"] := by
  rw [own_line_values c (by decide +kernel)]
  unfold lineDecls
  have n : ∀ n ∈ ["text-decoration", "-moz-text-decoration-color", "-webkit-text-decoration-color", "text-decoration-style",
    "-moz-text-decoration-style", "-webkit-text-decoration-style"], lit n ≠ lit "text-decoration-color" := by decide +kernel
  simp only [List.mem_cons, List.not_mem_nil, or_false, forall_eq_or_imp, forall_eq] at n
  obtain ⟨n1, n2, n3, n4, n5, n6⟩ := n
  simp [h, List.filter_cons, n1, n2, n3, n4, n5, n6, hc]

theorem own_line_style (c : XElem) {v : PyStr} (h : lineValue c.1 = some v) (hc : lineStyle c.1 ≠ []) :
    ownValues (lit "text-decoration-style") c = [lineStyle c.1] := by
  rw [own_line_values c (by decide +kernel)]
  unfold lineDecls
  have n : ∀ n ∈ ["text-decoration", "text-decoration-color", "-moz-text-decoration-color", "-webkit-text-decoration-color",
    "-moz-text-decoration-style", "-webkit-text-decoration-style"], lit n ≠ lit "text-decoration-style" := by decide +kernel
  simp only [List.mem_cons, List.not_mem_nil, or_false, forall_eq_or_imp, forall_eq] at n
  obtain ⟨n1, n2, n3, n4, n5, n6⟩ := n
  simp [h, List.filter_cons, n1, n2, n3, n4, n5, n6, hc]

theorem lineValue_of {c : XElem} {kind : String × String} (hk : kind ∈ cssLines) (h : attrOf c.1 "underline" = some (lit kind.1)) :
    lineValue c.1 = some (lit kind.2) := by
  have e : attrValue c.1 "underline" = lit kind.1 := by rw [attrValue_eq, h]; rfl
  unfold lineValue
  simp only [e]
  simp only [cssLines, List.mem_cons, List.not_mem_nil, or_false] at hk
  rcases hk with rfl | rfl | rfl <;> decide +kernel

theorem lineStyle_of {c : XElem} {style : String × String} (hk : style ∈ cssLineStyles) (h : attrOf c.1 "underline-style" = some (lit style.1)) :
    lineStyle c.1 = lit style.2 := by
  have e : attrValue c.1 "underline-style" = lit style.1 := by rw [attrValue_eq, h]; rfl
  unfold lineStyle
  simp only [e]
  simp only [cssLineStyles, List.mem_cons, List.not_mem_nil, or_false] at hk
  rcases hk with rfl | rfl | rfl | rfl | rfl | rfl | rfl | rfl | rfl | rfl | rfl <;> decide +kernel

theorem lineLess_value {c : XElem} (h : LineLess c) : lineValue c.1 = none := by
  have key : ∀ kind ∈ cssLines, attrValue c.1 "underline" ≠ lit kind.1 := by
    intro kind hk e
    have hne : ∀ kind ∈ cssLines, lit kind.1 ≠ [] := by decide +kernel
    rw [attrValue_eq] at e
    cases ha : attrOf c.1 "underline" with
    | none => rw [ha] at e; exact hne kind hk e.symm
    | some v => rw [ha] at e; exact h kind hk (by rw [ha]; exact congrArg some e)
  have k1 := key ("underline", "underline") (by decide)
  have k2 := key ("overline", "overline") (by decide)
  have k3 := key ("line_through", "line-through") (by decide)
  unfold lineValue
  simp only
  rw [if_neg k1, if_neg k2, if_neg k3]

/-! ### What is declared for the elements -/

theorem declared_own {doc T : Forest XNode} {ids : List (PyStr × PyStr)} (h : TablesAre doc ids T) (hN : ProperNames T) (embed : Bool)
    (r : HtmlRun) (hm : r ∈ htmlRuns doc) {s k : Nat} {l : PyStr} {st c : XElem} (hr : RunOf r.para r.attrs s k l)
    (hs : (entries "Style" T)[s]? = some st) (hc : (entries "CharShape" T)[k]? = some c) (prop : String) (hp : lit prop ∉ langNames)
    (ht : lit prop ∉ paraNames) (v : PyStr) (hv : ownValues (lit prop) c = [v]) : declaredValue (pageRules embed doc) prop r.path = some v := by
  obtain ⟨rest, hpath, _⟩ := htmlRuns_path doc r hm
  rw [declaredValue, hpath, pageRules_eq h, declared_page _ _ _ _ (page_names ht), declared_plain doc T hN.ident _ hp ht, run_values h hN hr hs hc, winning_same,
    run_values_last h hc _ v hv]
  rfl

/-- Nothing is declared for an element if it is not a `span`, or neither its shape nor the style of the element around it does. -/
theorem declared_nothing (doc T : Forest XNode) (hN : ∀ s ∈ entries "Style" T, isIdent (styleClass s) = true) (prop : PyStr) (hp : prop ∉ langNames)
    (ht : prop ∉ paraNames) (path : List Box)
    (h1 : ∀ b b2 bs, path = b :: b2 :: bs → b.1 = lit "span" → ∀ s ∈ entries "Style" T, styleClass s ∈ classesOf b2.2 →
      ∀ c ∈ nthOf doc "CharShape" (xpathNumber (attrValue s.1 "charshape-id")), ownValues prop c = [])
    (h2 : ∀ b bs, path = b :: bs → b.1 = lit "span" → ∀ e ∈ (entries "CharShape" T).zipIdx, shapeClass e.2 ∈ classesOf b.2 → ownValues prop e.1 = []) :
    cssDeclared (tableRules doc T) prop path = [] := by
  unfold tableRules
  simp only [childrenNamed_eq]
  rw [declared_append, declared_append, declared_append, declared_append]
  rw [declared_none (List.map _ (entries "BorderFill" T).zipIdx), declared_none (List.map _ (entries "Bullet" T).zipIdx),
    declared_none (List.flatMap _ (entries "ParaShape" T).zipIdx), List.append_nil, List.append_nil, List.append_nil]
  · rw [List.append_eq_nil_iff]
    constructor
    · rw [declared_flatMap, List.flatMap_eq_nil_iff]
      intro s hs
      unfold styleRules
      simp only [styleClass_eq]
      rw [declared_append, declared_none, List.nil_append, declared_flatMap, List.flatMap_eq_nil_iff]
      · intro c hc
        by_cases hv : ownValues prop c = []
        · exact declared_char_none _ _ _ _ _ hp hv
        · rw [declared_char_plain _ _ _ _ _ hp, style_selector, declared_one (readSelector_child (writable_style (hN s hs)) writable_span)]
          rw [if_neg]
          intro hsel
          match path, hsel, h1 with
          | [_], hsel, _ => simp [selects] at hsel
          | b1 :: b2 :: bs, hsel, h1 =>
            simp only [selects, meets, List.all_cons, List.all_nil, Bool.and_true, Bool.and_eq_true, Bool.or_eq_true, decide_eq_true_eq,
              List.contains_iff_mem] at hsel
            refine hv (h1 b1 b2 bs rfl ?_ s hs hsel.2.2 c hc)
            rcases hsel.1 with h | h
            · exact absurd h (by decide)
            · exact h.symm
      · intro x hx d hd
        split at hx
        · simp only [List.mem_cons, List.not_mem_nil, or_false] at hx
          rcases hx with rfl | rfl
          · obtain ⟨e, _, hd⟩ := List.mem_flatMap.1 hd
            exact fun e => ht (e ▸ paraDecls_names _ d hd)
          · obtain ⟨e, _, hd⟩ := List.mem_flatMap.1 hd
            exact fun e => ht (e ▸ spanDecls_names _ d hd ▸ line_height_name)
        · simp at hx
    · rw [declared_flatMap, List.flatMap_eq_nil_iff]
      intro e he
      rw [declared_char_plain _ _ _ _ _ hp]
      by_cases hv : ownValues prop e.1 = []
      · rw [← declared_char_plain doc _ _ _ _ hp]
        exact declared_char_none _ _ _ _ _ hp hv
      · rw [shape_selector, declared_one (readSelector_one (writable_shape e.2)), if_neg]
        intro hsel
        match path, hsel, h2 with
        | b :: bs, hsel, h2 =>
          simp only [selects, meets, List.all_cons, List.all_nil, Bool.and_true, Bool.and_eq_true, Bool.or_eq_true, decide_eq_true_eq,
            List.contains_iff_mem] at hsel
          refine hv (h2 b bs rfl ?_ e he hsel.2)
          rcases hsel.1 with h | h
          · exact absurd h (by decide)
          · exact h.symm
  · intro x hx d hd
    obtain ⟨e, _, he⟩ := List.mem_flatMap.1 hx
    simp only [paraRules, List.mem_cons, List.not_mem_nil, or_false] at he
    rcases he with rfl | rfl
    · exact fun e => ht (e ▸ paraDecls_names _ d hd)
    · exact fun e => ht (e ▸ spanDecls_names _ d hd ▸ line_height_name)
  · intro x hx d hd
    obtain ⟨e, _, rfl⟩ := List.mem_map.1 hx
    obtain rfl := List.mem_singleton.1 hd
    have m : lit "text-align" ∈ paraNames := by decide +kernel
    exact fun e => ht (e ▸ m)
  · intro x hx d hd
    obtain ⟨e, _, rfl⟩ := List.mem_map.1 hx
    simp at hd

/-- No line comes from the elements around a run, if no style of an element around its paragraph has one. -/
theorem drawn_around {doc T : Forest XNode} {ids : List (PyStr × PyStr)} (h : TablesAre doc ids T) (hN : ProperNames T) (embed : Bool)
    (r : HtmlRun) (hm : r ∈ htmlRuns doc)
    (hst : ∀ s ∈ entries "Style" T, (∃ b ∈ r.path.drop 2, styleClass s ∈ classesOf b.2) →
      ∀ c ∈ nthOf doc "CharShape" (xpathNumber (attrValue s.1 "charshape-id")), lineValue c.1 = none) :
    drawnLines (pageRules embed doc) r.path.tail = [] := by
  obtain ⟨rest, hpath, hf⟩ := htmlRuns_path doc r hm
  have hp : lit "text-decoration" ∉ langNames := by decide +kernel
  have ht : lit "text-decoration" ∉ paraNames := by decide +kernel
  have below : ∀ p : List Box, (∀ b ∈ p, b ∈ r.path.drop 2) → Framed p → drawnLines (pageRules embed doc) p = [] := by
    intro p
    induction p with
    | nil => intro _ _; rfl
    | cons b bs ih =>
      intro hp1 hp2
      rw [drawnLines, ih (fun x hx => hp1 x (by simp [hx])) (fun x hx => hp2 x (by simp [hx])), declaredValue, pageRules_eq h,
        declared_page _ _ _ _ (page_names ht), declared_nothing doc T hN.ident _ hp ht]
      · rfl
      · intro b' b2 bs' e _ s hs hcl c hc
        rw [own_line, hst s hs ⟨b2, hp1 b2 (by rw [e]; simp), hcl⟩ c hc]; rfl
      · intro b' bs' e hb' x hx hcl
        have := (List.cons.inj e).1
        subst this
        exact absurd hcl (hp2 b (by simp) hb' x.2)
  rw [hpath]
  show drawnLines (pageRules embed doc) ((lit "p", paragraphClass doc r.para) :: rest) = []
  rw [drawnLines, below rest (by rw [hpath]; exact fun b hb => hb) hf, declaredValue, pageRules_eq h,
    declared_page _ _ _ _ (page_names ht), declared_nothing doc T hN.ident _ hp ht]
  · rfl
  · intro b b2 bs e hb
    have := (List.cons.inj e).1
    subst this
    exact absurd hb (show lit "p" ≠ lit "span" by decide)
  · intro b bs e hb
    have := (List.cons.inj e).1
    subst this
    exact absurd hb (show lit "p" ≠ lit "span" by decide)

/-- No line is declared for a run, if neither its shape nor that of the style of its paragraph has one. -/
theorem declared_line_none {doc T : Forest XNode} {ids : List (PyStr × PyStr)} (h : TablesAre doc ids T) (hN : ProperNames T) (embed : Bool)
    (r : HtmlRun) (hm : r ∈ htmlRuns doc) {s k : Nat} {l : PyStr} {st c : XElem} (hr : RunOf r.para r.attrs s k l)
    (hs : (entries "Style" T)[s]? = some st) (hc : (entries "CharShape" T)[k]? = some c) (hv : lineValue c.1 = none)
    (hst : ∀ c ∈ nthOf doc "CharShape" (xpathNumber (attrValue st.1 "charshape-id")), lineValue c.1 = none) :
    declaredValue (pageRules embed doc) "text-decoration" r.path = none := by
  obtain ⟨rest, hpath, _⟩ := htmlRuns_path doc r hm
  have hp : lit "text-decoration" ∉ langNames := by decide +kernel
  have ht : lit "text-decoration" ∉ paraNames := by decide +kernel
  rw [declaredValue, hpath, pageRules_eq h, declared_page _ _ _ _ (page_names ht), declared_plain doc T hN.ident _ hp ht, run_values h hN hr hs hc, winning_same]
  have e1 : (nthOf doc "CharShape" (xpathNumber (attrValue st.1 "charshape-id"))).flatMap (ownValues (lit "text-decoration")) = [] := by
    rw [List.flatMap_eq_nil_iff]
    intro c' hc'
    rw [own_line, hst c' hc']; rfl
  have e2 : ownValues (lit "text-decoration") c = [] := by rw [own_line, hv]; rfl
  rw [e1, e2]
  simp

/-! ### Records -/

variable {env : XmlEnv} {ver : Version} {rd : ModelReader Fields} (hrd : ReadsDecls ver rd)
include hrd

theorem entry_line_color {m : PModel Fields} {x : List (PyStr × PyStr) × Forest XNode} (h : Entry env ver rd "CharShape" m x) :
    ∃ n, intField "underline_color" m.content = some n ∧ attrOf x.1 "underline-color" = some (colorText n) := by
  obtain ⟨acc, v, h1, h2, h3⟩ := record_attr (D := Decl.CharShape) hrd h.read (by rw [h.type]; decide) (by rw [h.type]; rfl) (by decide +kernel) h.node
    "underline_color" (.prim .colorref) rfl
  obtain ⟨n, rfl⟩ : ∃ n, v = .leaf (.int n) := by
    cases v with
    | leaf x => cases x <;> simp [Shaped, PrimVal] at h2; exact ⟨_, rfl⟩
    | _ => simp [Shaped] at h2
  refine ⟨n, by simp [intField, h1], ?_⟩
  rw [← noNul_color]
  refine h3 "underline-color" _ ?_
  simp only [showTy, hyphens, List.map_cons, List.map_nil, showPrim, List.mem_singleton]
  exact Prod.ext (show lit "underline-color" = (lit "underline_color").map (fun c => if c = 95 then 45 else c) by decide +kernel) rfl

end Hwp
